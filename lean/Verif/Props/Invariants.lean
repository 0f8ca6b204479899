import Verif.Lemmas.DemoCalls
import Verif.Lemmas.Trace
/-
Properties of every state that can be reached, and of every history.
-/
namespace Xorca
open Spec

variable {cr : Crypto} {L L' : Ledger} {st v : Pubkey} {b : UInt8}

/-- In reachable states the vault covers the escrow. -/
theorem C11_solvency (hr : Reachable cr L) (hi : Initialised cr L st) (hv : VaultAddr cr st v b) :
    escrow L st ≤ balance L v ∧ ownerOf L v = st ∧ mintOf L v = ORCA_MINT_ID ∧
    ∀ rs : List Pubkey, rs.Nodup → (∀ k ∈ rs, IsRecord L k) → (rs.map (recAmount L)).sum ≤ balance L v := by
  obtain ⟨v', p⟩ := hr.inv.ofInitialised hi
  obtain ⟨rfl, _⟩ := vaultAddr_unique hv p.v_addr
  have hb := p.backed
  refine ⟨by omega, p.v_owner, p.v_mint, fun rs hn hrec => ?_⟩
  obtain ⟨all, h1, h2, h3⟩ := p.records
  have hsub : rs.Subperm all := List.subperm_of_subset hn (fun k hk => (h2 k).2 (hrec k hk))
  obtain ⟨l, hl1, hl2⟩ := hsub
  have : (rs.map (recAmount L)).sum ≤ (all.map (recAmount L)).sum := by
    rw [← (hl1.map (recAmount L)).sum_eq]
    exact (hl2.map (recAmount L)).sum_le_sum (fun _ _ => Nat.zero_le _)
  omega

/-- Two open records. -/
example := C11_solvency Demo.reach6 Demo.init6 Demo.va_addr
example : escrow Demo.L6 Demo.ST = 901469 ∧ balance Demo.L6 Demo.VA = 1800000 ∧
    ([Demo.R255, Demo.R0].map (recAmount Demo.L6)).sum = 901469 := by decide +kernel

/-- In reachable states the escrow is the sum of all open records. -/
theorem C12_escrow_is_sum (hr : Reachable cr L) (hi : Initialised cr L st) :
    ∃ rs : List Pubkey, rs.Nodup ∧ (∀ k, k ∈ rs ↔ IsRecord L k) ∧
      (rs.map (recAmount L)).sum = escrow L st := by
  obtain ⟨v, p⟩ := hr.inv.ofInitialised hi
  exact p.records

example := C12_escrow_is_sum Demo.reach6 Demo.init6

/-- In reachable states every xORCA is backed by at least one ORCA. -/
theorem C13_backing (hr : Reachable cr L) (hi : Initialised cr L st) (hv : VaultAddr cr st v b) :
    supply L XORCA_MINT_ID + escrow L st ≤ balance L v := by
  obtain ⟨v', p⟩ := hr.inv.ofInitialised hi
  obtain ⟨rfl, _⟩ := vaultAddr_unique hv p.v_addr
  exact p.backed

example := C13_backing Demo.reach6 Demo.init6 Demo.va_addr

/-- A stake never mints more xORCA than ORCA was deposited. -/
theorem C13_stake_mints_at_most (hr : Reachable cr L) {x : Ctx} (hx : x.cr = cr) {accs : List Meta} {a : UInt64}
    {logs : List Bytes} (hs : SignersOk cr L accs) (h : Runs x L accs (.Stake a) L' logs) :
    supply L' XORCA_MINT_ID ≤ supply L XORCA_MINT_ID + a.toNat := by
  subst hx
  obtain ⟨s, v, oa, xa, xm, st, om, tp, L1, m, r, f, q, q', i'⟩ := hr.inv.stake hs h.dispatch
  obtain ⟨w4, d1, d2⟩ := f.xm_data
  have lm := q.mint.len
  rw [supply_of_writeAt (by omega) d1, d2, r.minted]
  have hb := q.backed
  have := mintFor_le (a := a.toNat) (n := backing L v.key st.key) (s := supply L XORCA_MINT_ID)
    (by rw [backing]; omega)
  omega

example := C13_stake_mints_at_most Demo.reach3 (x := Demo.ctx 1002) rfl Demo.signers4 Demo.run4

/-- An unstake of `a` xORCA sets aside at least `a` ORCA. -/
theorem C13_unstake_sets_aside_at_least (hr : Reachable cr L) (hi : Initialised cr L st) {x : Ctx}
    (hx : x.cr = cr) (hrent : ∀ n, x.rentMin n ≠ 0) {accs : List Meta} {a : UInt64} {i : UInt8}
    {logs : List Bytes} (hs : SignersOk cr L accs) (h : Runs x L accs (.Unstake a i) L' logs) :
    escrow L st + a.toNat ≤ escrow L' st := by
  subst hx
  obtain ⟨u, st', pw, xa, xm, om, v, sp, tp, L1, L3, w, e, ts, b, r, f, q, q', i'⟩ :=
    hr.inv.unstake hrent hs h.dispatch
  obtain ⟨v', p⟩ := hr.inv.ofInitialised hi
  obtain ⟨rfl, rfl, _⟩ := p.unique q
  have ls := q.acc.len
  rw [escrow_of_writeAt (by omega) f.st_data, f.escrow, r.amount]
  have hb := q.backed
  have := le_redeemFor (x := a.toNat) (n := backing L v.key st'.key) (s := supply L XORCA_MINT_ID)
    (by rw [backing]; omega)
  omega

example := C13_unstake_sets_aside_at_least Demo.reach4 Demo.init4 (x := Demo.ctx 1003) rfl Demo.rent_ne Demo.signers5
  Demo.run5

/-- In reachable states the cool-down is not negative. -/
theorem C24_cool_down_nonneg (hr : Reachable cr L) (hi : Initialised cr L st) : 0 ≤ coolDown L st := by
  obtain ⟨v, p⟩ := hr.inv.ofInitialised hi
  exact p.acc.cool

example := C24_cool_down_nonneg Demo.reach6 Demo.init6

/-- No step of a history removes, resizes or re-initialises the state account. -/
theorem C26_state_permanent (hr : Reachable cr L) (hi : Initialised cr L st) {h : List Entry}
    (hp : Path cr L h L') :
    Initialised cr L' st ∧ (L' st).data.length = 2048 ∧ (L' st).lamports ≠ 0 ∧
    ∀ e ∈ h, ∀ x accs c logs, e.label ≠ .call x accs (.Initialize c) logs := by
  obtain ⟨v, p⟩ := hr.inv.ofInitialised hi
  have p' := (hp.inv hr.inv).2 st v p
  refine ⟨⟨⟨_, p'.acc.addr⟩, p'.prog, p'.acc.tag⟩, p'.acc.len, p'.acc.lam, ?_⟩
  intro e he x accs c logs hl
  obtain ⟨h2, h1, rfl⟩ := List.append_of_mem he
  obtain ⟨p1, ok, -⟩ := hp.split
  obtain ⟨i1, hpool⟩ := p1.inv hr.inv
  have q := hpool st v p
  cases ok with
  | env s => cases hl
  | @call x accs ix logs M M' hcr hrent hs hrun =>
    cases hl
    subst hcr
    obtain ⟨_, au, st', v', xm, om, sp, tp, ap, L1, b, vb, r, f, hbl, -⟩ :=
      i1.initialize hrent hs hrun.dispatch
    exact not_allZero (o := 0) (by rw [q.acc.tag]; decide) (hbl _ q.prog)

example := C26_state_permanent Demo.reach4 Demo.init4 Demo.path49

/-- In a history at most one Initialize succeeds, and from then on the pool exists. -/
theorem C26_initialised_once {h3 h2 : List Entry} {e : Entry} (hh : Hist cr (h3 ++ e :: h2) L)
    {x : Ctx} {accs : List Meta} {c : Int64} {logs : List Bytes} (he : e.label = .call x accs (.Initialize c) logs) :
    (∀ f ∈ h3 ++ h2, ∀ x accs c logs, f.label ≠ .call x accs (.Initialize c) logs) ∧
    ∃ m, accs[2]? = some m ∧ Initialised cr e.post m.key ∧ Initialised cr L m.key := by
  obtain ⟨hh2, ok, hp⟩ := hh.split
  have hpost : Reachable cr e.post := by
    obtain ⟨L0, g, q⟩ := hh2
    exact ⟨_, L0, g, q.step ok⟩
  obtain ⟨pre, lab, post⟩ := e
  cases ok with
  | env s => cases he
  | @call x accs ix logs M M' hcr hrent hs hrun =>
    cases he
    subst hcr
    obtain ⟨p, au, st, v, xm, om, sp, tp, ap, L1, b, vb, r, f, hbl, p', -⟩ :=
      hh2.inv.initialize hrent hs hrun.dispatch
    have hi : Initialised x.cr post st.key := ⟨⟨_, p'.acc.addr⟩, p'.prog, p'.acc.tag⟩
    obtain ⟨j1, j2, j3, j4⟩ := C26_state_permanent hpost hi hp
    obtain ⟨rest, ha⟩ := r.accs_eq
    obtain ⟨a0, a1, a2, a3⟩ := getElem?_of_cons9 ha
    refine ⟨?_, st, a2, hi, j1⟩
    intro f hf
    rw [List.mem_append] at hf
    rcases hf with hf | hf
    · exact j4 f hf
    · intro x' accs' c' logs' hl
      obtain ⟨h1, h0, rfl⟩ := List.append_of_mem hf
      obtain ⟨hh0, ok0, hp0⟩ := hh2.split
      obtain ⟨pre', lab', post'⟩ := f
      have hpost' : Reachable x.cr post' := by
        obtain ⟨L0, g, q⟩ := hh0
        exact ⟨_, L0, g, q.step ok0⟩
      cases ok0 with
      | env s => cases hl
      | @call y acc iy log N N' hcr hrent' hs' hrun' =>
        cases hl
        obtain ⟨p0, au', st', v', xm', om', sp', tp', ap', L1', b', vb', r', f', hbl', q', -⟩ :=
          Inv.initialize (x := x') hrent' (by rw [hcr]; exact hs') (by rw [hcr]; exact hh0.inv) hrun'.dispatch
        rw [hcr] at q'
        obtain ⟨k1, -⟩ := C26_state_permanent hpost' ⟨⟨_, q'.acc.addr⟩, q'.prog, q'.acc.tag⟩ hp0
        exact not_allZero (o := 0) (by rw [k1.2.2]; decide) (hbl _ k1.2.1)

example := C26_initialised_once (h3 := [Demo.e6, Demo.e5, Demo.e4, Demo.e3, Demo.e2]) (e := Demo.e1) (h2 := []) Demo.hist6 rfl

/-- In reachable states a successful call used the canonical, initialised state account. -/
theorem C36_forged_state_rejected (hr : Reachable cr L) {x : Ctx} (hx : x.cr = cr) {accs : List Meta}
    {ix : Instruction} {n : Nat} {m : Meta} {logs : List Bytes}
    (h : Runs x L accs ix L' logs) (hp : statePos ix = some n) (hm : accs[n]? = some m) :
    Initialised cr L m.key ∧ ∀ st, (∃ b, StateAddr cr st b) → m.key = st := by
  subst hx
  have key : ∀ k, (L k).owner = PROGRAM_ID → readU8 (L k).data 0 = 1 →
      Initialised x.cr L k ∧ ∀ st, (∃ b, StateAddr x.cr st b) → k = st := by
    intro k h1 h2
    have s := hr.inv.state h1 h2
    exact ⟨⟨⟨_, s.addr⟩, h1, h2⟩, fun st ⟨b, hb⟩ => (stateAddr_unique s.addr hb).1⟩
  have hd := h.dispatch
  cases ix <;> simp only [statePos, Option.some.injEq, reduceCtorEq] at hp <;> subst hp
  · obtain ⟨s, v, oa, xa, xm, st, om, tp, L1, w, r⟩ := processStake_run hd
    obtain ⟨rest, rfl⟩ := r.accs_eq
    simp only [List.getElem?_cons_succ, List.getElem?_cons_zero, Option.some.injEq] at hm
    subst hm
    exact key _ r.st_prog r.st_disc
  · obtain ⟨u, st, pw, xa, xm, om, v, sp, tp, L1, L3, w, e, ts, b, r⟩ := processUnstake_run hd
    obtain ⟨rest, rfl⟩ := r.accs_eq
    simp only [List.getElem?_cons_succ, List.getElem?_cons_zero, Option.some.injEq] at hm
    subst hm
    exact key _ r.st_prog r.st_disc
  · obtain ⟨u, st, pw, oa, v, om, sp, tp, L1, L2, e, r⟩ := processWithdraw_run hd
    obtain ⟨rest, rfl⟩ := r.accs_eq
    simp only [List.getElem?_cons_succ, List.getElem?_cons_zero, Option.some.injEq] at hm
    subst hm
    exact key _ r.st_prog r.st_disc
  · obtain ⟨a, st, v, r, -⟩ := hr.inv.set hd
    obtain ⟨rest, rfl⟩ := r.accs_eq
    simp only [List.getElem?_cons_succ, List.getElem?_cons_zero, Option.some.injEq] at hm
    subst hm
    exact key _ r.st_prog r.st_disc

example := C36_forged_state_rejected Demo.reach3 (x := Demo.ctx 1002) rfl Demo.run4 (n := 5) rfl rfl

/-- In reachable states a successful call used the canonical vault. -/
theorem C37_forged_vault_rejected (hr : Reachable cr L) {x : Ctx} (hx : x.cr = cr) {accs : List Meta}
    {ix : Instruction} {n : Nat} {m : Meta} {logs : List Bytes}
    (h : Runs x L accs ix L' logs) (hp : vaultPos ix = some n) (hm : accs[n]? = some m) :
    ∃ st b b', Initialised cr L st ∧ StateAddr cr st b ∧ VaultAddr cr st m.key b' ∧
      (L m.key).owner = SPL_TOKEN_PROGRAM_ID ∧ ownerOf L m.key = st ∧ mintOf L m.key = ORCA_MINT_ID := by
  subst hx
  have key : ∀ st v, (L st).owner = PROGRAM_ID → readU8 (L st).data 0 = 1 →
      v = deriveAddress x.cr (vaultSeedsRaw st SPL_TOKEN_PROGRAM_ID ORCA_MINT_ID)
        (readU8 (L st).data 7) ASSOCIATED_TOKEN_PROGRAM_ID →
      ∃ st b b', Initialised x.cr L st ∧ StateAddr x.cr st b ∧ VaultAddr x.cr st v b' ∧
      (L v).owner = SPL_TOKEN_PROGRAM_ID ∧ ownerOf L v = st ∧ mintOf L v = ORCA_MINT_ID := by
    intro st v h1 h2 h3
    obtain ⟨v', p⟩ := hr.inv.poolOf h1 h2
    obtain rfl := p.vault_eq h3
    exact ⟨st, _, _, ⟨⟨_, p.acc.addr⟩, h1, h2⟩, p.acc.addr, p.v_addr, p.v_tok.prog, p.v_owner, p.v_mint⟩
  have hd := h.dispatch
  cases ix <;> simp only [vaultPos, Option.some.injEq, reduceCtorEq] at hp <;> subst hp
  · obtain ⟨s, v, oa, xa, xm, st, om, tp, L1, w, r⟩ := processStake_run hd
    obtain ⟨rest, rfl⟩ := r.accs_eq
    simp only [List.getElem?_cons_succ, List.getElem?_cons_zero, Option.some.injEq] at hm
    subst hm
    exact key _ _ r.st_prog r.st_disc r.v_addr
  · obtain ⟨u, st, pw, xa, xm, om, v, sp, tp, L1, L3, w, e, ts, b, r⟩ := processUnstake_run hd
    obtain ⟨rest, rfl⟩ := r.accs_eq
    simp only [List.getElem?_cons_succ, List.getElem?_cons_zero, Option.some.injEq] at hm
    subst hm
    exact key _ _ r.st_prog r.st_disc r.v_addr
  · obtain ⟨u, st, pw, oa, v, om, sp, tp, L1, L2, e, r⟩ := processWithdraw_run hd
    obtain ⟨rest, rfl⟩ := r.accs_eq
    simp only [List.getElem?_cons_succ, List.getElem?_cons_zero, Option.some.injEq] at hm
    subst hm
    exact key _ _ r.st_prog r.st_disc r.v_addr

example := C37_forged_vault_rejected Demo.reach3 (x := Demo.ctx 1002) rfl Demo.run4 (n := 1) rfl rfl

end Xorca
