import Verif.Lemmas.DemoCalls
import Verif.Props.Liveness
import Verif.Lemmas.Codes
/-
C49 – C54: which errors can occur, and when.
-/
namespace Xorca
open Spec

variable {cr : Crypto} {x : Ctx} {L L' : Ledger} {accs : List Meta} {logs : List Bytes}

/-! ### C49: defensive errors -/

/-- In a reachable state no Stake or Unstake finds the vault short of the escrow. -/
theorem C49_vault_backing_never_short (hr : Reachable cr L) (hx : x.cr = cr) {ix : Instruction} :
    ¬ Fails x L accs ix (.custom .InsufficientVaultBacking) := by
  subst hx
  intro h
  have hd := h.dispatch
  have ho := own_error hd
  cases ix with
  | Stake a =>
    obtain ⟨s, v, oa, xa, xm, st, om, tp, c, hlt⟩ := stake_fail_backing hd
    obtain ⟨v', p⟩ := hr.inv.poolOf c.st_prog c.st_disc
    have := p.vault_eq c.v_addr
    have hb := p.backed
    rw [← this] at hb
    omega
  | Unstake a i =>
    obtain ⟨u, st, pw, xa, xm, om, v, sp, tp, c, hlt⟩ := unstake_fail_backing hd
    obtain ⟨v', p⟩ := hr.inv.poolOf c.st_prog c.st_disc
    have := p.vault_eq c.v_addr
    have hb := p.backed
    rw [← this] at hb
    omega
  | _ => simp [commonErrors, ownErrors] at ho

/-- The hypothesis is needed: with another escrow figure in the state account the error occurs. -/
example : Fails (Demo.ctx 1002)
    (Demo.L3.set Demo.ST { Demo.L3 Demo.ST with data := writeAt (Demo.L3 Demo.ST).data 8 (u64le 1500001) })
    Demo.stakeAccs (.Stake 300000) (.custom .InsufficientVaultBacking) :=
  Demo.fails (0 :: u64le 300000) (by decide +kernel) (by decide +kernel)
example := C49_vault_backing_never_short (x := Demo.ctx 1002) (accs := Demo.stakeAccs) Demo.reach3 rfl
  (ix := .Stake 300000)

/-- In a reachable state no Withdraw finds the escrow short of a record. -/
theorem C49_escrow_never_short (hr : Reachable cr L) (hx : x.cr = cr) {ix : Instruction} :
    ¬ Fails x L accs ix (.custom .InsufficientEscrow) := by
  subst hx
  intro h
  have hd := h.dispatch
  have ho := own_error hd
  cases ix with
  | Withdraw i =>
    obtain ⟨u, st, pw, oa, v, om, sp, tp, c, hlt⟩ := withdraw_fail_escrow hd
    obtain ⟨v', p⟩ := hr.inv.poolOf c.st_prog c.st_disc
    obtain ⟨rs, _, hm, hsum⟩ := p.records
    have := List.single_le_sum (fun _ _ => Nat.zero_le _) _
      (List.mem_map_of_mem (f := recAmount L) ((hm pw.key).2 c.pw_rec))
    omega
  | _ => simp [commonErrors, ownErrors] at ho

/-- The hypothesis is needed. -/
example : Fails (Demo.ctx 1103)
    (Demo.L8.set Demo.ST { Demo.L8 Demo.ST with data := writeAt (Demo.L8 Demo.ST).data 8 (u64le 899969) })
    (Demo.withdrawAccs Demo.R255) (.Withdraw 255) (.custom .InsufficientEscrow) :=
  Demo.fails [2, 255] (by decide +kernel) (by decide +kernel)
example := C49_escrow_never_short (x := Demo.ctx 1103) (accs := Demo.withdrawAccs Demo.R255) Demo.reach8 rfl
  (ix := .Withdraw 255)

/-- In a reachable state the arithmetic of a Stake overflows only if the product does not fit in 128 bits; then the
vault holds 2^64 ORCA units up to the virtual 100, and vault and staker together hold more units of ORCA than an SPL
mint can ever issue. -/
theorem C49_stake_arithmetic {s v oa xa xm st om tp : Meta} {rest : List Meta} {a : UInt64}
    (hr : Reachable cr L) (hx : x.cr = cr)
    (h : Fails x L (s :: v :: oa :: xa :: xm :: st :: om :: tp :: rest) (.Stake a) (.custom .ArithmeticError)) :
    2 ^ 128 ≤ a.toNat * (supply L XORCA_MINT_ID + 100) ∧ 2 ^ 64 < balance L v.key + 100 ∧
      2 ^ 64 ≤ balance L v.key + balance L oa.key := by
  subst hx
  obtain ⟨s', v', oa', xa', xm', st', om', tp', c, h1, h2, h3, h4⟩ := stake_fail_arith h.dispatch
  obtain ⟨r, he⟩ := c.accs_eq
  simp only [List.cons.injEq] at he
  obtain ⟨rfl, rfl, rfl, rfl, rfl, rfl, rfl, rfl, rfl⟩ := he
  obtain ⟨v', p⟩ := hr.inv.poolOf c.st_prog c.st_disc
  have := p.vault_eq c.v_addr
  subst this
  have hb := p.backed
  have ha := a.toNat_lt
  have hf := c.funds
  rcases h4 with h4 | h4
  · refine ⟨h4, ?_, ?_⟩
    · by_contra hn
      have : a.toNat * (supply L XORCA_MINT_ID + 100) ≤ a.toNat * 2 ^ 64 := Nat.mul_le_mul_left _ (by omega)
      omega
    · by_contra hn
      have h5 : a.toNat + supply L XORCA_MINT_ID < 2 ^ 64 := by omega
      generalize a.toNat = y at *
      generalize supply L XORCA_MINT_ID = z at *
      rcases Nat.lt_or_ge y (2 ^ 63) with h6 | h6
      · have : y * (z + 100) ≤ 2 ^ 63 * (2 ^ 64 + 100) := Nat.mul_le_mul (by omega) (by omega)
        omega
      · have : y * (z + 100) ≤ 2 ^ 64 * (2 ^ 63 + 100) := Nat.mul_le_mul (by omega) (by omega)
        omega
  · have := mintFor_le (a := a.toNat) (n := backing L v.key st.key) (s := supply L XORCA_MINT_ID)
      (by unfold backing; omega)
    omega

/-- It can happen if others conjure up ORCA: here the vault holds 2^64 - 16 and the staker 2^64 - 1 units. -/
example := C49_stake_arithmetic (a := 18446744073709551615) Demo.reachW3 rfl (Demo.fails (x := Demo.ctx 1002) (L := Demo.W3)
  (accs := Demo.stakeAccs) (0 :: u64le 18446744073709551615) (by decide +kernel) (by decide +kernel))

/-- In a reachable state the arithmetic of an Unstake, including the addition to the escrow, fails only if
there is no xORCA, if more than the supply is unstaked, or if the vault holds 2^64 ORCA units, up to the
virtual 100. -/
theorem C49_unstake_arithmetic {u st pw xa xm om v sp tp : Meta} {rest : List Meta} {a : UInt64} {i : UInt8}
    (hr : Reachable cr L) (hx : x.cr = cr)
    (h : Fails x L (u :: st :: pw :: xa :: xm :: om :: v :: sp :: tp :: rest) (.Unstake a i)
      (.custom .ArithmeticError)) :
    supply L XORCA_MINT_ID = 0 ∨ supply L XORCA_MINT_ID < a.toNat ∨ 2 ^ 64 < balance L v.key + 100 := by
  subst hx
  obtain ⟨u', st', pw', xa', xm', om', v', sp', tp', c, h1, h2⟩ := unstake_fail_arith h.dispatch
  obtain ⟨r, he⟩ := c.accs_eq
  simp only [List.cons.injEq] at he
  obtain ⟨rfl, rfl, rfl, rfl, rfl, rfl, rfl, rfl, rfl, rfl⟩ := he
  obtain ⟨v', p⟩ := hr.inv.poolOf c.st_prog c.st_disc
  have := p.vault_eq c.v_addr
  subst this
  have hb := p.backed
  have ha := a.toNat_lt
  by_cases h0 : supply L XORCA_MINT_ID = 0
  · exact Or.inl h0
  by_cases hlt : supply L XORCA_MINT_ID < a.toNat
  · exact Or.inr (Or.inl hlt)
  right; right
  have hbk : backing L v.key st.key = balance L v.key - escrow L st.key := rfl
  have hbal : balance L v.key < 2 ^ 64 := UInt64.toNat_lt _
  have hle := redeemFor_le (x := a.toNat) (n := backing L v.key st.key) (s := supply L XORCA_MINT_ID)
      (by omega) (by omega)
  rcases h2 with (h2 | h2 | h2 | h2) | ⟨_, h2⟩
  · omega
  · omega
  · by_contra hn
    have : a.toNat * (backing L v.key st.key + 100) ≤ a.toNat * 2 ^ 64 := Nat.mul_le_mul_left _ (by omega)
    omega
  · omega
  · omega

/-- Before anything was staked. -/
example := C49_unstake_arithmetic (a := 0) (i := 255) Demo.reach1 rfl (Demo.fails (x := Demo.ctx 1003) (L := Demo.L1)
  (accs := Demo.unstakeAccs Demo.R255) (1 :: u64le 0 ++ [255]) (by decide +kernel) (by decide +kernel))

/-- The addition to the escrow fits: what is due for any amount up to the supply, together with all that is owed
already, is in the vault, whose balance is a `u64`. -/
theorem C49_escrow_addition_fits {st v : Pubkey} {b : UInt8} (hr : Reachable cr L) (hi : Initialised cr L st)
    (hv : VaultAddr cr st v b) {a : Nat} (ha : a ≤ supply L XORCA_MINT_ID) :
    escrow L st + redeemFor a (backing L v st) (supply L XORCA_MINT_ID) ≤ balance L v ∧
      escrow L st + redeemFor a (backing L v st) (supply L XORCA_MINT_ID) < 2 ^ 64 := by
  have hb := (reachable_pool hr hi hv).backed
  have hbk : backing L v st = balance L v - escrow L st := rfl
  have hbal : balance L v < 2 ^ 64 := UInt64.toNat_lt _
  have hle := redeemFor_le (x := a) (n := backing L v st) (s := supply L XORCA_MINT_ID) (by omega) ha
  omega

example := C49_escrow_addition_fits (a := 300000) Demo.reach8 ⟨⟨_, Demo.st_addr⟩, by decide +kernel, by decide +kernel⟩
  Demo.va_addr (by decide +kernel)

/-- An Unstake reports a clock overflow only if the maturity is not representable. -/
theorem C49_unstake_clock {u st pw xa xm om v sp tp : Meta} {rest : List Meta} {a : UInt64} {i : UInt8}
    (hr : Reachable cr L) (hx : x.cr = cr)
    (h : Fails x L (u :: st :: pw :: xa :: xm :: om :: v :: sp :: tp :: rest) (.Unstake a i)
      (.custom .CoolDownOverflow)) :
    2 ^ 63 ≤ x.now.toInt + coolDown L st.key := by
  subst hx
  obtain ⟨u', st', pw', xa', xm', om', v', sp', tp', c, h1⟩ := unstake_fail_clock h.dispatch
  obtain ⟨r, he⟩ := c.accs_eq
  simp only [List.cons.injEq] at he
  obtain ⟨rfl, rfl, rfl, rfl, rfl, rfl, rfl, rfl, rfl, rfl⟩ := he
  have h2 := (hr.inv.state c.st_prog c.st_disc).cool
  have h3 : -2 ^ 63 ≤ x.now.toInt := Int64.le_toInt _
  have h4 : coolDown L st.key = (readI64 (L st.key).data 16).toInt := rfl
  omega

example := C49_unstake_clock (a := 600000) (i := 255) Demo.reach4 rfl (Demo.fails (x := Demo.ctx 9223372036854775800) (L := Demo.L4)
  (accs := Demo.unstakeAccs Demo.R255) (1 :: u64le 600000 ++ [255]) (by decide +kernel) (by decide +kernel))

/-- A Withdraw reports an active cool-down only before the maturity of the record. -/
theorem C49_withdraw_clock {u st pw oa v om sp tp : Meta} {rest : List Meta} {i : UInt8}
    (h : Fails x L (u :: st :: pw :: oa :: v :: om :: sp :: tp :: rest) (.Withdraw i)
      (.custom .CoolDownPeriodStillActive)) :
    x.now.toInt < recTime L pw.key := by
  obtain ⟨u', st', pw', oa', v', om', sp', tp', c, h1⟩ := withdraw_fail_clock h.dispatch
  obtain ⟨r, he⟩ := c.accs_eq
  simp only [List.cons.injEq] at he
  obtain ⟨rfl, rfl, rfl, rfl, rfl, rfl, rfl, rfl, rfl⟩ := he
  exact h1

example := C49_withdraw_clock (i := 255) (Demo.fails (x := Demo.ctx 1102) (L := Demo.L8)
  (accs := Demo.withdrawAccs Demo.R255) [2, 255] (by decide +kernel) (by decide +kernel))

/-! ### C50: one record per index -/

/-- While the record of a user and an index is open, no Unstake of that user with that index succeeds. -/
theorem C50_open_index_refused {m : Meta} {a : UInt64} {i b : UInt8} {k : Pubkey}
    (h0 : accs[0]? = some m) (hk : RecordAddr x.cr m.key i k b) (hrec : IsRecord L k) :
    ¬ Runs x L accs (.Unstake a i) L' logs := by
  intro h
  obtain ⟨u, st, pw, xa, xm, om, v, sp, tp, L1, L3, w, e, ts, b', r⟩ := processUnstake_run h.dispatch
  obtain ⟨rest, hr⟩ := r.accs_eq
  rw [hr] at h0
  simp only [List.getElem?_cons_zero, Option.some.injEq] at h0
  subst h0
  have hf : RecordAddr x.cr u.key i pw.key b' := r.pw_find
  unfold RecordAddr at hf hk
  rw [hf] at hk
  cases hk
  have := r.pw_prog
  rw [hrec.1] at this
  exact program_ne_system this

example : ¬ ∃ L' logs, Runs (Demo.ctx 1004) Demo.L6 (Demo.unstakeAccs Demo.R0) (.Unstake 1000 0) L' logs :=
  fun ⟨_, _, h⟩ => C50_open_index_refused (m := ⟨Demo.US, true, true⟩) rfl Demo.r0_addr
    ⟨by decide +kernel, by decide +kernel, by decide +kernel⟩ h

/-- Once the record has been withdrawn the index can be used again: a well-formed Unstake with the same index
directly after the Withdraw succeeds. -/
theorem C50_index_reusable {u st pw oa v om sp tp : Meta} {u1 st1 pw1 xa xm om1 v1 sp1 tp1 : Meta} {rest accs' : List Meta} {y : Ctx}
    {a : UInt64} {i b vb : UInt8}
    (hr : Reachable cr L) (hx : x.cr = cr) (hy : y.cr = cr) (hrent0 : ∀ n, x.rentMin n ≠ 0)
    (hsig : SignersOk cr L (u :: st :: pw :: oa :: v :: om :: sp :: tp :: rest))
    (hw : Runs x L (u :: st :: pw :: oa :: v :: om :: sp :: tp :: rest) (.Withdraw i) L' logs)
    (hkeys : u1.key = u.key ∧ st1.key = st.key ∧ pw1.key = pw.key ∧ v1.key = v.key)
    (hsig' : SignersOk cr L' accs') (hv : VaultAddr cr st.key v.key vb)
    (hpw : RecordAddr cr u.key i pw.key b)
    (hc : UnstakeCall accs' u1 st1 pw1 xa xm om1 v1 sp1 tp1)
    (hxa : TokenOk L' xa.key XORCA_MINT_ID u.key)
    (hu : (L' u.key).owner = SYSTEM_PROGRAM_ID ∧ (L' u.key).data = [])
    (hrent : (y.rentMin 1024).toNat ≤ (L' u.key).lamports.toNat)
    (h0 : 0 < a.toNat) (ha : a.toNat ≤ balance L' xa.key) (has : a.toNat ≤ supply L' XORCA_MINT_ID)
    (hfit : a.toNat * (backing L' v.key st.key + 100) < 2 ^ 128) (hclk : y.now.toInt + coolDown L' st.key < 2 ^ 63)
    (hom : MintOk L' ORCA_MINT_ID) :
    Succeeds y L' accs' (.Unstake a i) := by
  subst hx
  have hr' : Reachable x.cr L' := by
    obtain ⟨h, L0, g, p⟩ := hr
    exact ⟨_, L0, g, p.step (.call rfl hrent0 hsig hw)⟩
  obtain ⟨L1, L2, e, r⟩ := hw.withdraw
  have eff := (r.eff hsig).1
  have i' := hr.inv.withdraw hsig hw.dispatch
  obtain ⟨u', st', pw', oa', v', om', sp', tp', L1', L2', e', r', _, p, p', _⟩ := i'
  obtain ⟨rs, he⟩ := r'.accs_eq
  simp only [List.cons.injEq] at he
  obtain ⟨rfl, rfl, rfl, rfl, rfl, rfl, rfl, rfl, rfl⟩ := he
  have hpc := eff.pw_closed
  obtain ⟨k1, k2, k3, k4⟩ := hkeys
  rw [← k1] at hxa hu hrent hpw
  rw [← k2] at hv hfit hclk p'
  rw [← k3] at hpw hpc
  rw [← k4] at hv hfit p'
  exact C48_unstake_succeeds hr' hy hsig' ⟨⟨_, p'.acc.addr⟩, p'.prog, p'.acc.tag⟩ hv hc hpw
    ⟨by rw [hpc], by rw [hpc]⟩ hxa hu (by omega) h0 ha has hfit hclk hom

example : Succeeds (Demo.ctx 1104) Demo.L9 (Demo.unstakeAccs Demo.R255) (.Unstake 2000 255) :=
  C50_index_reusable (u1 := ⟨Demo.US, true, true⟩) (st1 := ⟨Demo.ST, false, true⟩) (pw1 := ⟨Demo.R255, false, true⟩)
    (xa := ⟨Demo.UX, false, true⟩) (v1 := ⟨Demo.VA, false, false⟩) Demo.reach8 rfl rfl Demo.rent_ne Demo.signers9 Demo.run9 ⟨rfl, rfl, rfl, rfl⟩ Demo.signers10 Demo.va_addr
    Demo.r255_addr (Demo.unstakeCall Demo.R255) Demo.ux_ok9 Demo.us_blank9 (by decide +kernel)
    (by decide +kernel) (by decide +kernel) (by decide +kernel) (by decide +kernel) (by decide +kernel) Demo.orca_ok9

/-! ### C51: malformed calls -/

/-- A wrong program id is refused as such, whatever else is wrong. -/
theorem C51_wrong_program_id {p : Pubkey} {data : Bytes} :
    entry x p L accs data = .error (.custom .IncorrectProgramId) ↔ p ≠ PROGRAM_ID := by
  constructor
  · rintro h rfl
    unfold entry at h
    rw [bind_ok_eq ((ensure_eq_ok (u := ())).2 rfl)] at h
    rw [bind_eq_err] at h
    simp only [okOr_eq_err, Err.custom.injEq, reduceCtorEq, and_false, false_or] at h
    obtain ⟨⟨ix, r⟩, _, h⟩ := h
    have := own_error h
    cases ix <;> simp [commonErrors, ownErrors] at this
  · intro h
    unfold entry
    exact bind_err_eq (ensure_eq_err.2 ⟨h, rfl⟩) _

example : entry (Demo.ctx 1001) SYSTEM_PROGRAM_ID Demo.L1 Demo.stakeAccs (0 :: u64le 1000000) =
    .error (.custom .IncorrectProgramId) := C51_wrong_program_id.2 (by decide +kernel)

/-- Undecodable instruction data, and nothing else, is refused as an unknown instruction. -/
theorem C51_unknown_instruction {data : Bytes} :
    entry x PROGRAM_ID L accs data = .error (.custom .UnknownInstructionDiscriminator) ↔
      decodeIx data = none := by
  constructor
  · intro h
    by_contra hn
    obtain ⟨ix, hix⟩ := Option.ne_none_iff_exists'.1 hn
    rw [entry_eq hix] at h
    have := own_error h
    cases ix <;> simp [commonErrors, ownErrors] at this
  · intro h
    unfold entry
    rw [bind_ok_eq ((ensure_eq_ok (u := ())).2 rfl)]
    exact bind_err_eq (okOr_eq_err.2 ⟨deserialize_of_decodeIx_none h, rfl⟩) _

example : entry (Demo.ctx 1001) PROGRAM_ID Demo.L1 Demo.stakeAccs [5] =
    .error (.custom .UnknownInstructionDiscriminator) := C51_unknown_instruction.2 (by decide +kernel)

/-- Too few accounts, and nothing else, are refused as such. -/
theorem C51_too_few_accounts {ix : Instruction} {data : Bytes} (h : decodeIx data = some ix) :
    entry x PROGRAM_ID L accs data = .error (.custom .NotEnoughAccountKeys) ↔
      accs.length < accountsNeeded ix := by
  rw [entry_eq h]
  exact ⟨few_accounts_only, few_accounts ix⟩

example : entry (Demo.ctx 1001) PROGRAM_ID Demo.L1 (Demo.stakeAccs.take 7) (0 :: u64le 1000000) =
    .error (.custom .NotEnoughAccountKeys) :=
  (C51_too_few_accounts (ix := .Stake 1000000) (by decide +kernel)).2 (by decide +kernel)

/-! ### C52: no panic -/

/-- Whatever the program id, the accounts and the data, the program does not panic, provided valid bumps
exist for the addresses it searches. -/
theorem C52_no_panic {p : Pubkey} {data : Bytes}
    (hs : ∃ k b, StateAddr x.cr k b) (hv : ∀ st, ∃ k b, VaultAddr x.cr st k b)
    (hrec : ∀ u i, ∃ k b, RecordAddr x.cr u i k b) :
    entry x p L accs data ≠ .error .panicked := by
  intro h
  unfold entry at h
  simp only [bind_eq_err, ensure_eq_err, ensure_eq_ok, okOr_eq_err, okOr_eq_ok, reduceCtorEq, and_false,
    false_or, exists_unit, Prod.exists] at h
  obtain ⟨_, ix, r, _, h⟩ := h
  cases ix with
  | Stake a => exact stake_no_panic h
  | Withdraw i => exact withdraw_no_panic h
  | Set u => exact set_no_panic h
  | Unstake a i =>
    obtain ⟨u, _, hn⟩ := unstake_panic h
    obtain ⟨k, b, hk⟩ := hrec u.key i
    exact absurd (hk.symm.trans hn) (by simp)
  | Initialize c =>
    obtain ⟨st, _, hn | hn⟩ := initialize_panic h
    · obtain ⟨k, b, hk⟩ := hs
      exact absurd (hk.symm.trans hn) (by simp)
    · obtain ⟨k, b, hk⟩ := hv st.key
      exact absurd (hk.symm.trans hn) (by simp)

/-- If no hash value is on the curve the first bump is always valid.  (For the real curve each search fails with
probability about 2^-255.) -/
example {c : Crypto} (hc : ∀ k, c.onCurve k = false) {data : Bytes} :
    entry ⟨c, 0, fun _ => 1⟩ PROGRAM_ID L accs data ≠ .error .panicked := by
  have key : ∀ (seeds : List Bytes) (p : Pubkey), ∃ k b, findProgramAddress c seeds p = some (k, b) := by
    intro seeds p
    refine ⟨deriveAddress c seeds 255 p, 255, ?_⟩
    simp [findProgramAddress, findFrom, createProgramAddress, hc, deriveAddress]
  exact C52_no_panic (key _ _) (fun _ => key _ _) (fun _ _ => key _ _)

/-! ### C53: rotation of the update authority -/

/-- Directly after a rotation to `k` every Set by another key is refused, and every Set by `k` with valid
arguments is accepted. -/
theorem C53_rotation_is_immediate {a st au st' : Meta} {rest : List Meta} {k : Pubkey}
    (h : Runs x L (a :: st :: rest) (.Set (.UpdateUpdateAuthority k)) L' logs) (hst : st'.key = st.key)
    (hc : SetCall accs au st') (u : StateUpdateInstruction) :
    (au.key ≠ k → FailsWith x L' accs (.Set u) (.custom .IncorrectAccountAddress)) ∧
    (au.key = k → (∀ c, u = .UpdateCoolDownPeriod c → 0 ≤ c.toInt) → Succeeds x L' accs (.Set u)) := by
  obtain ⟨r, rfl, _⟩ := h.set_authority
  have hl : 24 + k.bytes.length ≤ (L st.key).data.length := by have := r.st_len; have := k.len; omega
  set M := L.setData st.key (writeAt (L st.key).data 24 k.bytes) with hM
  have hd : (M st'.key).data = writeAt (L st.key).data 24 k.bytes := by rw [hst, hM]; simp
  have hk := k.len
  have hA : authority M st'.key = k := by rw [authority, hd]; exact readKey_writeAt_same (by omega)
  have hB := set_refused (x := x) (L := M) (u := u) hc
    (by rw [hst, hM, Ledger.setData_owner]; exact r.st_prog)
    (by rw [hd, writeAt_length hl]; exact r.st_len)
    (by rw [hd, readU8_writeAt_apart hl (by simp [Apart])]; exact r.st_disc)
    (by rw [hd, readU8_writeAt_apart hl (by simp [Apart]), hst]; exact r.st_addr)
  rw [hA] at hB
  constructor
  · intro hne data hdata
    rw [entry_eq hdata]; exact hB.1 hne
  · intro he hcd data hdata
    rw [entry_eq hdata]; exact hB.2 he hcd

example := C53_rotation_is_immediate (accs := [⟨Demo.AU, true, true⟩, ⟨Demo.ST, false, true⟩]) Demo.run8 rfl
  ⟨⟨[], rfl⟩, rfl, rfl, rfl⟩ (.UpdateCoolDownPeriod 7)

/-! ### C54: error sets -/

/-- Each instruction returns only its own error codes: the six common ones and those listed for it. -/
theorem C54_error_codes {ix : Instruction} {e : ErrorCode} (h : Fails x L accs ix (.custom e)) :
    e ∈ commonErrors ++ ownErrors ix := own_error h.dispatch

end Xorca
