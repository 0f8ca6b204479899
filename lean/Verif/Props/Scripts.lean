import Verif.Lemmas.Scripts
import Verif.Lemmas.DemoScripts
import Verif.Lemmas.Search
import Verif.Props.Accept
import Verif.Props.Listing
/-
C67 to C70: the command-line scripts.
-/
namespace Xorca
open Spec

variable {cr : Crypto} {x : Ctx} {L L' : Ledger} {accs : List Meta}

/-- `k` is the associated token account of `u` for the mint `m`. -/
def AtaAddr (cr : Crypto) (u m k : Pubkey) (b : UInt8) : Prop :=
  findProgramAddress cr [u.bytes, SPL_TOKEN_PROGRAM_ID.bytes, m.bytes] ASSOCIATED_TOKEN_PROGRAM_ID = some (k, b)

/-! ### C67: what the scripts send -/

/-- What `stake.ts` sends is a Stake of exactly the requested amount, with the user's own associated accounts and the
pool's addresses, and never more than the ORCA balance it saw; the xORCA account is created first exactly if it is
missing. -/
theorem C67_stake_script {u : Pubkey} {a : Int} {s : Scripts.Sent} (h : Scripts.stake cr L u a = some s) :
    ∃ (n : UInt64) (st v oa xa : Pubkey), (n.toNat : Int) = a ∧ decodeIx s.data = some (.Stake n) ∧
      (∃ b, StateAddr cr st b) ∧ (∃ b, VaultAddr cr st v b) ∧ (∃ b, AtaAddr cr u ORCA_MINT_ID oa b) ∧
      (∃ b, AtaAddr cr u XORCA_MINT_ID xa b) ∧ n.toNat ≤ balance L oa ∧ (s.createsAta = true ↔ (L xa).lamports = 0) ∧
      ∀ accs, Client.Passed s.keys accs → ∃ mu mv moa mxa mxm mst mom mtp,
        StakeCall accs mu mv moa mxa mxm mst mom mtp ∧ mu.key = u ∧ mv.key = v ∧ moa.key = oa ∧ mxa.key = xa ∧
        mst.key = st := by
  obtain ⟨st, v, oa, xa, n, b, h1, h2, h3, h4, h5, h6, h7, rfl⟩ := stakeScript_iff.1 h
  obtain ⟨a', rfl, ha⟩ := writeU64_eq h7
  have hd := decodeIx_encode (.Stake a') []
  rw [List.append_nil] at hd
  refine ⟨a', st, v, oa, xa, ha, hd, h1, h2, ataOf_iff.1 h3, ataOf_iff.1 h4, ?_, getAccount_isNone, ?_⟩
  · rw [← tokenAmount_some h5]; omega
  · intro accs hp
    obtain ⟨m1, _, rfl, k1, s1, w1, hp⟩ := hp.cons
    obtain ⟨m2, _, rfl, k2, -, w2, hp⟩ := hp.cons
    obtain ⟨m3, _, rfl, k3, -, w3, hp⟩ := hp.cons
    obtain ⟨m4, _, rfl, k4, -, w4, hp⟩ := hp.cons
    obtain ⟨m5, _, rfl, k5, -, w5, hp⟩ := hp.cons
    obtain ⟨m6, _, rfl, k6, -, -, hp⟩ := hp.cons
    obtain ⟨m7, _, rfl, k7, -, -, hp⟩ := hp.cons
    obtain ⟨m8, _, rfl, k8, -, -, hp⟩ := hp.cons
    exact ⟨m1, m2, m3, m4, m5, m6, m7, m8, ⟨⟨_, rfl⟩, s1 rfl, w1 rfl, w2 rfl, w3 rfl, w4 rfl, w5 rfl, k5, k7, k8⟩,
      k1, k2, k3, k4, k6⟩

/-- What `unstake.ts` sends is an Unstake of exactly the requested amount, with the record address of the index that is
sent; the index is the number given (or 0 if the argument is not a number, see C70). -/
theorem C67_unstake_script {u : Pubkey} {a : Int} {t : List Char} {s : Scripts.Sent}
    (h : Scripts.unstake cr L u a t = some s) :
    ∃ (n : UInt64) (i : UInt8) (st v pw oa xa : Pubkey), (n.toNat : Int) = a ∧ decodeIx s.data = some (.Unstake n i) ∧
      ((Scripts.parseInt false t = none ∧ i = 0) ∨ Scripts.parseInt false t = some (i.toNat : Int)) ∧
      (∃ b, StateAddr cr st b) ∧ (∃ b, VaultAddr cr st v b) ∧ (∃ b, RecordAddr cr u i pw b) ∧
      (∃ b, AtaAddr cr u ORCA_MINT_ID oa b) ∧ (∃ b, AtaAddr cr u XORCA_MINT_ID xa b) ∧ n.toNat ≤ balance L xa ∧
      (s.createsAta = true ↔ (L oa).lamports = 0) ∧
      ∀ accs, Client.Passed s.keys accs → ∃ mu mst mpw mxa mxm mom mv msp mtp,
        UnstakeCall accs mu mst mpw mxa mxm mom mv msp mtp ∧ mu.key = u ∧ mst.key = st ∧ mpw.key = pw ∧ mxa.key = xa ∧
        mv.key = v := by
  obtain ⟨st, v, oa, xa, n, pw, b, c, h1, h2, h3, h4, h5, h6, h7, h8, h9, rfl⟩ := unstakeScript_iff.1 h
  obtain ⟨a', rfl, ha⟩ := writeU64_eq h8
  obtain ⟨i, rfl, hi, hi'⟩ := writeUInt8_eq h9
  have hd := decodeIx_encode (.Unstake a' i) []
  rw [List.append_nil] at hd
  rw [hi] at h7
  refine ⟨a', i, st, v, pw, oa, xa, ha, hd, hi', h1, h2, h7, ataOf_iff.1 h3, ataOf_iff.1 h4, ?_, getAccount_isNone, ?_⟩
  · rw [← tokenAmount_some h5]; omega
  · intro accs hp
    obtain ⟨m1, _, rfl, k1, s1, w1, hp⟩ := hp.cons
    obtain ⟨m2, _, rfl, k2, -, w2, hp⟩ := hp.cons
    obtain ⟨m3, _, rfl, k3, -, w3, hp⟩ := hp.cons
    obtain ⟨m4, _, rfl, k4, -, w4, hp⟩ := hp.cons
    obtain ⟨m5, _, rfl, k5, -, w5, hp⟩ := hp.cons
    obtain ⟨m6, _, rfl, k6, -, -, hp⟩ := hp.cons
    obtain ⟨m7, _, rfl, k7, -, -, hp⟩ := hp.cons
    obtain ⟨m8, _, rfl, k8, -, -, hp⟩ := hp.cons
    obtain ⟨m9, _, rfl, k9, -, -, hp⟩ := hp.cons
    exact ⟨m1, m2, m3, m4, m5, m6, m7, m8, m9,
      ⟨⟨_, rfl⟩, s1 rfl, w1 rfl, w2 rfl, w3 rfl, w4 rfl, w5 rfl, k5, k6, k8, k9⟩, k1, k2, k3, k4, k7⟩

/-- What `withdraw.ts` sends is a Withdraw with the record address of the index that is sent, paying to the user's
associated ORCA account. -/
theorem C67_withdraw_script {u : Pubkey} {t : List Char} {now : Int} {s : Scripts.Sent} {r : Int}
    (h : Scripts.withdraw cr L u t now = some (s, r)) :
    ∃ (i : UInt8) (st v pw oa : Pubkey), decodeIx s.data = some (.Withdraw i) ∧
      ((Scripts.parseInt false t = none ∧ i = 0) ∨ Scripts.parseInt false t = some (i.toNat : Int)) ∧
      (∃ b, StateAddr cr st b) ∧ (∃ b, VaultAddr cr st v b) ∧ (∃ b, RecordAddr cr u i pw b) ∧
      (∃ b, AtaAddr cr u ORCA_MINT_ID oa b) ∧ (L pw).lamports ≠ 0 ∧ (s.createsAta = true ↔ (L oa).lamports = 0) ∧
      ∀ accs, Client.Passed s.keys accs → ∃ mu mst mpw moa mv mom msp mtp,
        WithdrawCall accs mu mst mpw moa mv mom msp mtp ∧ mu.key = u ∧ mst.key = st ∧ mpw.key = pw ∧ moa.key = oa ∧
        mv.key = v := by
  obtain ⟨st, pw, v, oa, c, h1, h2, h3, h4, h5, h6, h7, h8⟩ := withdrawScript_iff.1 h
  cases h8
  obtain ⟨i, rfl, hi, hi'⟩ := writeUInt8_eq h7
  have hd := decodeIx_encode (.Withdraw i) []
  rw [List.append_nil] at hd
  rw [hi] at h2
  refine ⟨i, st, v, pw, oa, hd, hi', h1, h3, h2, ataOf_iff.1 h4, h5, getAccount_isNone, ?_⟩
  intro accs hp
  obtain ⟨m1, _, rfl, k1, s1, w1, hp⟩ := hp.cons
  obtain ⟨m2, _, rfl, k2, -, w2, hp⟩ := hp.cons
  obtain ⟨m3, _, rfl, k3, -, w3, hp⟩ := hp.cons
  obtain ⟨m4, _, rfl, k4, -, w4, hp⟩ := hp.cons
  obtain ⟨m5, _, rfl, k5, -, w5, hp⟩ := hp.cons
  obtain ⟨m6, _, rfl, k6, -, -, hp⟩ := hp.cons
  obtain ⟨m7, _, rfl, k7, -, -, hp⟩ := hp.cons
  obtain ⟨m8, _, rfl, k8, -, -, hp⟩ := hp.cons
  exact ⟨m1, m2, m3, m4, m5, m6, m7, m8, ⟨⟨_, rfl⟩, s1 rfl, w1 rfl, w2 rfl, w3 rfl, w4 rfl, w5 rfl, k6, k7, k8⟩,
    k1, k2, k3, k4, k5⟩

/-- What `set.ts` sends is a Set of the given value, signed by the payer; a negative cool-down is never sent. -/
theorem C67_set_script {u : Pubkey} {op : Scripts.SetOperation} {s : Scripts.Sent}
    (h : Scripts.setScript cr L u op = some s) :
    ∃ (w : StateUpdateInstruction) (st : Pubkey), decodeIx s.data = some (.Set w) ∧
      (match op with
        | .updateCooldown t => ∃ c, w = .UpdateCoolDownPeriod c ∧ Scripts.parseInt true t = some c.toInt ∧ 0 ≤ c.toInt
        | .updateAuthority t => ∃ k, w = .UpdateUpdateAuthority k ∧ Client.key58 t = some k) ∧
      (∃ b, StateAddr cr st b) ∧
      ∀ accs, Client.Passed s.keys accs → ∃ mau mst, SetCall accs mau mst ∧ mau.key = u ∧ mst.key = st := by
  obtain ⟨st, d, h1, -, h2, rfl⟩ := setScript_iff.1 h
  have hk : ∀ accs, Client.Passed [⟨u, true, true⟩, ⟨st, false, true⟩] accs →
      ∃ mau mst, SetCall accs mau mst ∧ mau.key = u ∧ mst.key = st := by
    intro accs hp
    obtain ⟨m1, _, rfl, k1, s1, w1, hp⟩ := hp.cons
    obtain ⟨m2, _, rfl, k2, -, w2, hp⟩ := hp.cons
    exact ⟨m1, m2, ⟨⟨_, rfl⟩, s1 rfl, w1 rfl, w2 rfl⟩, k1, k2⟩
  cases op with
  | updateCooldown t =>
    obtain ⟨c, b, e1, e2, e3, rfl⟩ := h2
    obtain ⟨c', rfl, hc⟩ := writeI64_eq e3
    have hd := decodeIx_encode (.Set (.UpdateCoolDownPeriod c')) []
    rw [List.append_nil] at hd
    exact ⟨_, st, hd, ⟨c', rfl, by rw [e1, hc], by omega⟩, h1, hk⟩
  | updateAuthority t =>
    obtain ⟨k, e1, rfl⟩ := h2
    have hd := decodeIx_encode (.Set (.UpdateUpdateAuthority k)) []
    rw [List.append_nil] at hd
    exact ⟨_, st, hd, ⟨k, rfl, e1⟩, h1, hk⟩

/-- What `initialize.ts` sends is an Initialize with the given cool-down, signed by the deployer and the update
authority; nothing is sent for another deployer. -/
theorem C67_initialize_script {d au : Pubkey} {t : List Char} {s : Scripts.Sent}
    (h : Scripts.initializeScript cr d au t = some s) :
    ∃ (c : Int64) (st v : Pubkey), decodeIx s.data = some (.Initialize c) ∧ Scripts.parseInt true t = some c.toInt ∧
      d = DEPLOYER_ADDRESS ∧ (∃ b, StateAddr cr st b) ∧ (∃ b, VaultAddr cr st v b) ∧
      ∀ accs, Client.Passed s.keys accs → ∃ mp mau mst mv mxm mom msp mtp map,
        InitCall accs mp mau mst mv mxm mom msp mtp map ∧ mp.key = d ∧ mau.key = au ∧ mst.key = st ∧ mv.key = v := by
  obtain ⟨st, v, c, b, rfl, h1, h2, h3, h4, rfl⟩ := initializeScript_iff.1 h
  obtain ⟨c', rfl, hc⟩ := writeI64_eq h4
  have hd := decodeIx_encode (.Initialize c') []
  rw [List.append_nil] at hd
  refine ⟨c', st, v, hd, by rw [h3, hc], rfl, h1, h2, ?_⟩
  intro accs hp
  obtain ⟨m1, _, rfl, k1, s1, w1, hp⟩ := hp.cons
  obtain ⟨m2, _, rfl, k2, s2, w2, hp⟩ := hp.cons
  obtain ⟨m3, _, rfl, k3, -, w3, hp⟩ := hp.cons
  obtain ⟨m4, _, rfl, k4, -, w4, hp⟩ := hp.cons
  obtain ⟨m5, _, rfl, k5, -, -, hp⟩ := hp.cons
  obtain ⟨m6, _, rfl, k6, -, -, hp⟩ := hp.cons
  obtain ⟨m7, _, rfl, k7, -, -, hp⟩ := hp.cons
  obtain ⟨m8, _, rfl, k8, -, -, hp⟩ := hp.cons
  obtain ⟨m9, _, rfl, k9, -, -, hp⟩ := hp.cons
  exact ⟨m1, m2, m3, m4, m5, m6, m7, m8, m9,
    ⟨⟨_, rfl⟩, s1 rfl, w1 rfl, s2 rfl, w2 rfl, w3 rfl, w4 rfl, k1, k5, k6, k7, k8, k9⟩, k1, k2, k3, k4⟩

/-- `stake.ts` sends something exactly if the amount is not negative and at most the balance it sees. -/
theorem C67_stake_script_sends_iff {u st v oa xa m o : Pubkey} {a : Int} {b1 b2 b3 b4 : UInt8}
    (hst : StateAddr cr st b1) (hv : VaultAddr cr st v b2) (hoa : AtaAddr cr u ORCA_MINT_ID oa b3)
    (hxa : AtaAddr cr u XORCA_MINT_ID xa b4) (toa : TokenOk L oa m o) (hl : (L oa).lamports ≠ 0) :
    (∃ s, Scripts.stake cr L u a = some s) ↔ 0 ≤ a ∧ a ≤ balance L oa := by
  constructor
  · rintro ⟨s, h⟩
    obtain ⟨n, _, _, oa', _, hn, -, -, -, ⟨_, e⟩, -, hle, -⟩ := C67_stake_script h
    cases e.symm.trans hoa
    omega
  · rintro ⟨h0, h1⟩
    obtain ⟨n, hn, hn'⟩ := toa.tokenAmount hl
    have := n.toNat_lt
    exact ⟨_, stakeScript_iff.2 ⟨st, v, oa, xa, n, _, ⟨_, hst⟩, ⟨_, hv⟩, ataOf_iff.2 ⟨_, hoa⟩, ataOf_iff.2 ⟨_, hxa⟩, hn,
      by omega, if_neg (by omega), rfl⟩⟩

/-- `unstake.ts`, given an index, sends something exactly if the amount is not negative and at most the balance it
sees. -/
theorem C67_unstake_script_sends_iff {u st v oa xa pw m o : Pubkey} {a : Int} {i b1 b2 b3 b4 b5 : UInt8}
    (hst : StateAddr cr st b1) (hv : VaultAddr cr st v b2) (hoa : AtaAddr cr u ORCA_MINT_ID oa b3)
    (hxa : AtaAddr cr u XORCA_MINT_ID xa b4) (hpw : RecordAddr cr u i pw b5) (txa : TokenOk L xa m o)
    (hl : (L xa).lamports ≠ 0) :
    (∃ s, Scripts.unstake cr L u a (toString i.toNat).toList = some s) ↔ 0 ≤ a ∧ a ≤ balance L xa := by
  constructor
  · rintro ⟨s, h⟩
    obtain ⟨n, _, _, _, _, _, xa', hn, -, -, -, -, -, -, ⟨_, e⟩, hle, -⟩ := C67_unstake_script h
    cases e.symm.trans hxa
    omega
  · rintro ⟨h0, h1⟩
    obtain ⟨n, hn, hn'⟩ := txa.tokenAmount hl
    have := n.toNat_lt
    have hlt := i.toNat_lt
    have hp : Scripts.parseInt false (toString i.toNat).toList = some ((i.toNat : Nat) : Int) := by
      rw [parseInt_toString, toNumber_small (by simp; omega)]
    refine ⟨_, unstakeScript_iff.2 ⟨st, v, oa, xa, n, pw, _, [i], ⟨_, hst⟩, ⟨_, hv⟩, ataOf_iff.2 ⟨_, hoa⟩,
      ataOf_iff.2 ⟨_, hxa⟩, hn, by omega, ⟨b5, ?_⟩, if_neg (by omega), ?_, rfl⟩⟩
    · rw [hp, bufferFrom_small (by omega), UInt8.ofNat_toNat]; exact hpw
    · rw [hp, writeUInt8_some (by omega), UInt8.ofNat_toNat]

/-- `withdraw.ts` sends something for each open record. -/
theorem C67_withdraw_script_sends {u st v oa pw : Pubkey} {i b1 b2 b3 b4 : UInt8} {now : Int}
    (hr : Reachable cr L) (hst : StateAddr cr st b1) (hv : VaultAddr cr st v b2) (hoa : AtaAddr cr u ORCA_MINT_ID oa b3)
    (hpw : RecordAddr cr u i pw b4) (hrec : IsRecord L pw) :
    ∃ s r, Scripts.withdraw cr L u (toString i.toNat).toList now = some (s, r) := by
  have hlt := i.toNat_lt
  have hl := hrec.2.1
  have hp : Scripts.parseInt false (toString i.toNat).toList = some ((i.toNat : Nat) : Int) := by
    rw [parseInt_toString, toNumber_small (by simp; omega)]
  refine ⟨_, _, withdrawScript_iff.2 ⟨st, pw, v, oa, [i], ⟨_, hst⟩, ⟨b4, ?_⟩, ⟨_, hv⟩, ataOf_iff.2 ⟨_, hoa⟩,
    (hr.inv.isRec hrec).lam, by omega, ?_, rfl⟩⟩
  · rw [hp, bufferFrom_small (by omega), UInt8.ofNat_toNat]; exact hpw
  · rw [hp, writeUInt8_some (by omega), UInt8.ofNat_toNat]

/-! The demo user with associated accounts: staking, unstaking, withdrawing, setting, initialising by script. -/

example := C67_stake_script Demo.sentStake_eq
example := C67_unstake_script Demo.sentUnstake_eq
example := C67_withdraw_script Demo.sentWithdraw_eq
example := C67_set_script Demo.sentSet_eq
example := C67_initialize_script Demo.sentInit_eq
example : Demo.sentStake.data = 0 :: u64le 300000 ∧ Demo.sentUnstake.data = 1 :: u64le 600000 ++ [255] ∧
    Demo.sentWithdraw.1.data = [2, 255] ∧ Demo.sentWithdraw.2 = 5 ∧ Demo.sentSet.data = 4 :: 0 :: i64le 70 ∧
    Demo.sentInit.data = 3 :: i64le 100 := by decide +kernel
example : (∃ s, Scripts.stake Demo.cr Demo.S4 Demo.US 300000 = some s) ∧
    ¬ (∃ s, Scripts.stake Demo.cr Demo.S4 Demo.US 10000000000 = some s) := by
  have h := fun a => C67_stake_script_sends_iff (a := a) Demo.st_addr Demo.va_addr Demo.oa_addr Demo.xa_addr
    (L := Demo.S4) (m := ORCA_MINT_ID) (o := Demo.US) (by decide +kernel) (by decide +kernel)
  have hb : balance Demo.S4 Demo.OA < 10000000000 ∧ 300000 ≤ balance Demo.S4 Demo.OA := by decide +kernel
  rw [h, h]
  omega
example := C67_unstake_script_sends_iff (a := 600000) Demo.st_addr Demo.va_addr Demo.oa_addr Demo.xa_addr Demo.r255_addr
  (L := Demo.S4) (m := XORCA_MINT_ID) (o := Demo.US) (by decide +kernel) (by decide +kernel)
example := C67_withdraw_script_sends (now := 1098) Demo.reachS8 Demo.st_addr Demo.va_addr Demo.oa_addr Demo.r255_addr
  ⟨by decide +kernel, by decide +kernel, by decide +kernel⟩

/-- And it is accepted: in the ledger `L'` of execution (which may differ from the ledger `L` that the script saw), if
the pool and the user's accounts are as C47 asks. -/
theorem C67_stake_script_succeeds {u st v oa xa : Pubkey} {a : Int} {s : Scripts.Sent} {b1 b2 b3 b4 : UInt8}
    (h : Scripts.stake cr L u a = some s) (hp : Client.Passed s.keys accs)
    (hr : Reachable cr L') (hx : x.cr = cr) (hsig : SignersOk cr L' accs)
    (hst : StateAddr cr st b1) (hi : Initialised cr L' st) (hv : VaultAddr cr st v b2)
    (hoa : AtaAddr cr u ORCA_MINT_ID oa b3) (hxa : AtaAddr cr u XORCA_MINT_ID xa b4)
    (toa : TokenOk L' oa ORCA_MINT_ID u) (txa : TokenOk L' xa XORCA_MINT_ID u) (hms : NotMultisig L' u)
    (ha : a ≤ balance L' oa) (hm : 0 < mintFor a.toNat (backing L' v st) (supply L' XORCA_MINT_ID))
    (hfit : balance L' v + a.toNat < 2 ^ 64)
    (hfit2 : balance L' xa + mintFor a.toNat (backing L' v st) (supply L' XORCA_MINT_ID) < 2 ^ 64)
    (hthaw : readU8 (L' v).data 108 = 1) (hom : (L' ORCA_MINT_ID).owner = SPL_TOKEN_PROGRAM_ID) :
    ∃ L2 logs, entry x PROGRAM_ID L' accs s.data = .ok (L2, logs) := by
  obtain ⟨n, st', v', oa', xa', hn, hd, ⟨_, e1⟩, ⟨_, e2⟩, ⟨_, e3⟩, ⟨_, e4⟩, -, -, hk⟩ := C67_stake_script h
  obtain ⟨rfl, -⟩ := stateAddr_unique hst e1
  obtain ⟨rfl, -⟩ := vaultAddr_unique hv e2
  cases e3.symm.trans hoa
  cases e4.symm.trans hxa
  obtain ⟨mu, mv, moa, mxa, mxm, mst, mom, mtp, hc, rfl, rfl, rfl, rfl, rfl⟩ := hk accs hp
  have hna : n.toNat = a.toNat := by omega
  exact C47_stake_succeeds hr hx hsig hi hv hc toa txa hms (by omega) (by rwa [hna]) (by omega) (by rw [hna]; exact hfit2)
    hthaw hom _ hd

/-- Likewise for `unstake.ts`, by C48. -/
theorem C67_unstake_script_succeeds {u st v xa pw : Pubkey} {a : Int} {i : UInt8} {s : Scripts.Sent}
    {b1 b2 b3 b4 : UInt8} (h : Scripts.unstake cr L u a (toString i.toNat).toList = some s)
    (hp : Client.Passed s.keys accs)
    (hr : Reachable cr L') (hx : x.cr = cr) (hsig : SignersOk cr L' accs)
    (hst : StateAddr cr st b1) (hi : Initialised cr L' st) (hv : VaultAddr cr st v b2)
    (hpw : RecordAddr cr u i pw b3) (hxa : AtaAddr cr u XORCA_MINT_ID xa b4) (hfree : Blank (L' pw))
    (txa : TokenOk L' xa XORCA_MINT_ID u) (hu : Blank (L' u))
    (hrent : (x.rentMin 1024).toNat ≤ (L' u).lamports.toNat + (L' pw).lamports.toNat)
    (h0 : 0 < a) (ha : a ≤ balance L' xa) (has : a ≤ supply L' XORCA_MINT_ID)
    (hfit : a.toNat * (backing L' v st + 100) < 2 ^ 128) (hclk : x.now.toInt + coolDown L' st < 2 ^ 63)
    (hom : MintOk L' ORCA_MINT_ID) :
    ∃ L2 logs, entry x PROGRAM_ID L' accs s.data = .ok (L2, logs) := by
  obtain ⟨n, i', st', v', pw', oa', xa', hn, hd, hi', ⟨_, e1⟩, ⟨_, e2⟩, ⟨_, e3⟩, -, ⟨_, e4⟩, -, -, hk⟩ :=
    C67_unstake_script h
  have hii : i' = i := by
    have hlt := i.toNat_lt
    rw [parseInt_toString, toNumber_small (by simp; omega)] at hi'
    rcases hi' with ⟨h, -⟩ | h
    · cases h
    · exact UInt8.toNat_inj.1 (by simpa using h.symm)
  subst hii
  obtain ⟨rfl, -⟩ := stateAddr_unique hst e1
  obtain ⟨rfl, -⟩ := vaultAddr_unique hv e2
  obtain ⟨rfl, -⟩ := recordAddr_unique hpw e3
  cases e4.symm.trans hxa
  obtain ⟨mu, mst, mpw, mxa, mxm, mom, mv, msp, mtp, hc, rfl, rfl, rfl, rfl, rfl⟩ := hk accs hp
  have hna : n.toNat = a.toNat := by omega
  exact C48_unstake_succeeds hr hx hsig hi hv hc hpw hfree txa hu hrent (by omega) (by omega) (by omega)
    (by rwa [hna]) hclk hom _ hd

/-- Likewise for `withdraw.ts` and a matured record, by C21. -/
theorem C67_withdraw_script_succeeds {u st v oa pw : Pubkey} {now r : Int} {i : UInt8} {s : Scripts.Sent}
    {b1 b2 b3 b4 : UInt8} (h : Scripts.withdraw cr L u (toString i.toNat).toList now = some (s, r))
    (hp : Client.Passed s.keys accs)
    (hr : Reachable cr L') (hx : x.cr = cr) (hsig : SignersOk cr L' accs)
    (hst : StateAddr cr st b1) (hi : Initialised cr L' st) (hv : VaultAddr cr st v b2)
    (hpw : RecordAddr cr u i pw b3) (hoa : AtaAddr cr u ORCA_MINT_ID oa b4)
    (hrec : IsRecord L' pw) (hown : recOwner L' pw = u) (hidx : recIndex L' pw = i) (hmat : recTime L' pw ≤ x.now.toInt)
    (toa : TokenOk L' oa ORCA_MINT_ID u) (hfit : balance L' oa + recAmount L' pw < 2 ^ 64)
    (hthaw : readU8 (L' v).data 108 = 1) (hom : (L' ORCA_MINT_ID).owner = SPL_TOKEN_PROGRAM_ID) :
    ∃ L2 logs, entry x PROGRAM_ID L' accs s.data = .ok (L2, logs) := by
  obtain ⟨i', st', v', pw', oa', hd, hi', ⟨_, e1⟩, ⟨_, e2⟩, ⟨_, e3⟩, ⟨_, e4⟩, -, -, hk⟩ := C67_withdraw_script h
  have hii : i' = i := by
    have hlt := i.toNat_lt
    rw [parseInt_toString, toNumber_small (by simp; omega)] at hi'
    rcases hi' with ⟨h, -⟩ | h
    · cases h
    · exact UInt8.toNat_inj.1 (by simpa using h.symm)
  subst hii
  obtain ⟨rfl, -⟩ := stateAddr_unique hst e1
  obtain ⟨rfl, -⟩ := vaultAddr_unique hv e2
  obtain ⟨rfl, -⟩ := recordAddr_unique hpw e3
  cases e4.symm.trans hoa
  obtain ⟨mu, mst, mpw, moa, mv, mom, msp, mtp, hc, rfl, rfl, rfl, rfl, rfl⟩ := hk accs hp
  have := C21_matured_withdrawal_succeeds hr hx hsig hi hv hc hrec hown hmat toa hfit hthaw hom
  rw [hidx] at this
  exact this _ hd

/-- What `set.ts` sends is accepted exactly if the payer is the update authority. -/
theorem C67_set_script_accepted_iff {u st : Pubkey} {op : Scripts.SetOperation} {s : Scripts.Sent} {b1 : UInt8}
    (h : Scripts.setScript cr L u op = some s) (hp : Client.Passed s.keys accs)
    (hr : Reachable cr L') (hx : x.cr = cr) (hst : StateAddr cr st b1) (hi : Initialised cr L' st) :
    (∃ L2 logs, entry x PROGRAM_ID L' accs s.data = .ok (L2, logs)) ↔ u = authority L' st := by
  obtain ⟨w, st', hd, hw, ⟨_, e1⟩, hk⟩ := C67_set_script h
  obtain ⟨rfl, -⟩ := stateAddr_unique hst e1
  obtain ⟨mau, mst, hc, rfl, rfl⟩ := hk accs hp
  obtain ⟨rest, rfl⟩ := hc.accs_eq
  have key := C58_set_accepted_iff (x := x) (L := L') (au := mau) (st := mst) (rest := rest) (u := w) hr hx
  have hcool : ∀ c, w = .UpdateCoolDownPeriod c → 0 ≤ c.toInt := by
    intro c hcw
    cases op with
    | updateCooldown t => obtain ⟨c', rfl, -, h0⟩ := hw; cases hcw; exact h0
    | updateAuthority t => obtain ⟨k, rfl, -⟩ := hw; cases hcw
  have hs : Succeeds x L' (mau :: mst :: rest) (.Set w) ↔
      ∃ L2 logs, entry x PROGRAM_ID L' (mau :: mst :: rest) s.data = .ok (L2, logs) := by
    constructor
    · intro h; exact h _ hd
    · rintro ⟨L2, logs, h⟩ data hd'
      rw [entry_eq hd] at h
      rw [entry_eq hd']
      exact ⟨L2, logs, h⟩
  rw [← hs, key]
  exact ⟨fun h => h.2.2.1, fun h => ⟨hc, hi, h, hcool⟩⟩

/-- What `initialize.ts` sends is accepted on a chain as C55 asks, if the cool-down is not negative. -/
theorem C67_initialize_script_succeeds {d au st v : Pubkey} {t : List Char} {s : Scripts.Sent} {b vb : UInt8}
    (h : Scripts.initializeScript cr d au t = some s) (hp : Client.Passed s.keys accs)
    (hx : x.cr = cr) (hsig : SignersOk cr L' accs) (hst : StateAddr cr st b) (hv : VaultAddr cr st v vb) (hne : st ≠ v)
    (bst : Blank (L' st)) (bv : Blank (L' v)) (bd : Blank (L' d)) (hxm : FreshMint L' st) (hom : OrcaMint L')
    (hcool : ∀ c, Scripts.parseInt true t = some c → 0 ≤ c)
    (hrent : ((x.rentMin 2048).toNat - (L' st).lamports.toNat) +
      (max 1 (x.rentMin 165).toNat - (L' v).lamports.toNat) ≤ (L' d).lamports.toNat) :
    ∃ L2 logs, entry x PROGRAM_ID L' accs s.data = .ok (L2, logs) := by
  obtain ⟨c, st', v', hd, hc, -, ⟨_, e1⟩, ⟨_, e2⟩, hk⟩ := C67_initialize_script h
  obtain ⟨rfl, -⟩ := stateAddr_unique hst e1
  obtain ⟨rfl, -⟩ := vaultAddr_unique hv e2
  obtain ⟨mp, mau, mst, mv, mxm, mom, msp, mtp, map, hcall, rfl, rfl, rfl, rfl⟩ := hk accs hp
  exact C55_initialize_succeeds hx hsig hcall hst hv hne bst bv bd hxm hom (hcool _ hc) hrent _ hd

example : ∃ L2 logs, entry (Demo.ctx 1003) PROGRAM_ID Demo.S4 Demo.sentStake.keys Demo.sentStake.data = .ok (L2, logs) :=
  C67_stake_script_succeeds (st := Demo.ST) (v := Demo.VA) (oa := Demo.OA) (xa := Demo.XA) Demo.sentStake_eq
    (Demo.passed_refl _) Demo.reachS4 rfl Demo.signersStake Demo.st_addr ⟨⟨_, Demo.st_addr⟩, by decide +kernel, by decide +kernel⟩
    Demo.va_addr Demo.oa_addr Demo.xa_addr (by decide +kernel) (by decide +kernel) (by decide +kernel) (by decide +kernel)
    (by decide +kernel) (by decide +kernel) (by decide +kernel) (by decide +kernel) (by decide +kernel)
example : ∃ L2 logs, entry (Demo.ctx 1003) PROGRAM_ID Demo.S4 Demo.sentUnstake.keys Demo.sentUnstake.data =
    .ok (L2, logs) :=
  C67_unstake_script_succeeds (i := 255) (st := Demo.ST) (v := Demo.VA) (xa := Demo.XA) (pw := Demo.R255)
    Demo.sentUnstake_eq (Demo.passed_refl _) Demo.reachS4 rfl Demo.signersUnstake Demo.st_addr
    ⟨⟨_, Demo.st_addr⟩, by decide +kernel, by decide +kernel⟩ Demo.va_addr Demo.r255_addr Demo.xa_addr (by decide +kernel)
    (by decide +kernel) (by decide +kernel) (by decide +kernel) (by decide +kernel) (by decide +kernel) (by decide +kernel)
    (by decide +kernel) (by decide +kernel) (by decide +kernel)
example : ∃ L2 logs, entry (Demo.ctx 1103) PROGRAM_ID Demo.S8 Demo.sentWithdraw.1.keys Demo.sentWithdraw.1.data =
    .ok (L2, logs) :=
  C67_withdraw_script_succeeds (i := 255) (r := Demo.sentWithdraw.2) (st := Demo.ST) (v := Demo.VA) (oa := Demo.OA)
    (pw := Demo.R255) Demo.sentWithdraw_eq (Demo.passed_refl _) Demo.reachS8 rfl Demo.signersWithdraw Demo.st_addr
    ⟨⟨_, Demo.st_addr⟩, by decide +kernel, by decide +kernel⟩ Demo.va_addr Demo.r255_addr Demo.oa_addr
    ⟨by decide +kernel, by decide +kernel, by decide +kernel⟩ (by decide +kernel)
    (by decide +kernel) (by decide +kernel) (by decide +kernel) (by decide +kernel) (by decide +kernel) (by decide +kernel)
example : ∃ L2 logs, entry (Demo.ctx 1103) PROGRAM_ID Demo.S8 Demo.sentSet.keys Demo.sentSet.data = .ok (L2, logs) :=
  (C67_set_script_accepted_iff (st := Demo.ST) Demo.sentSet_eq (Demo.passed_refl _) Demo.reachS8 rfl Demo.st_addr
    ⟨⟨_, Demo.st_addr⟩, by decide +kernel, by decide +kernel⟩).2 (by decide +kernel)

example : ∃ L2 logs, entry (Demo.ctx 1000) PROGRAM_ID Demo.L0 Demo.sentInit.keys Demo.sentInit.data = .ok (L2, logs) :=
  C67_initialize_script_succeeds Demo.sentInit_eq (Demo.passed_refl _) rfl Demo.signersInit Demo.st_addr Demo.va_addr
    (by decide +kernel) ⟨by decide +kernel, by decide +kernel⟩ ⟨by decide +kernel, by decide +kernel⟩
    ⟨by decide +kernel, by decide +kernel⟩ Demo.freshMint0 Demo.orcaMint0
    (fun c h => by rw [show Scripts.parseInt true "100".toList = some 100 by decide +kernel] at h; cases h; decide)
    (by decide +kernel)

/-! ### C68: the rates of `status.ts` -/

/-- The figures that `status.ts` prints, read from one ledger: the non-escrowed ORCA and the supply, and two rates that
are each other's inverse. -/
theorem C68_status_figures {st v : Pubkey} {b vb : UInt8} {q : Scripts.Status} (h : Scripts.status cr L L L = some q)
    (hr : Reachable cr L) (hs : StateAddr cr st b) (hi : Initialised cr L st) (hv : VaultAddr cr st v vb) :
    q.nonEscrowed = backing L v st ∧ q.supply = supply L XORCA_MINT_ID ∧
    q.orcaToXorca = ((backing L v st : Int) + 100, (supply L XORCA_MINT_ID : Int) + 100) ∧
    q.xorcaToOrca = ((supply L XORCA_MINT_ID : Int) + 100, (backing L v st : Int) + 100) := by
  obtain ⟨st', v', ⟨_, e1⟩, ⟨_, e2⟩, h1, h2, h3, h4⟩ := status_iff h
  obtain ⟨rfl, -⟩ := stateAddr_unique hs e1
  obtain ⟨rfl, -⟩ := vaultAddr_unique hv e2
  have hesc := (reachable_pool hr hi hv).backed
  have h5 : q.nonEscrowed = backing L v st := by rw [h1, backing]; omega
  rw [h5, h2] at h3 h4
  exact ⟨h5, h2, h3, h4⟩

/-- The labels are swapped: what is printed as "1 xORCA = … ORCA" is the xORCA that one ORCA buys (rounded down, for
any amount), and what is printed as "1 ORCA = … xORCA" is the ORCA that one xORCA redeems for. -/
theorem C68_rates_are_crosswise {st v : Pubkey} {b vb : UInt8} {q : Scripts.Status} (h : Scripts.status cr L L L = some q)
    (hr : Reachable cr L) (hs : StateAddr cr st b) (hi : Initialised cr L st) (hv : VaultAddr cr st v vb)
    (h0 : supply L XORCA_MINT_ID ≠ 0) (h1 : backing L v st ≠ 0) (a : Nat) :
    (mintFor a (backing L v st) (supply L XORCA_MINT_ID) : Int) = a * q.xorcaToOrca.1 / q.xorcaToOrca.2 ∧
    (redeemFor a (backing L v st) (supply L XORCA_MINT_ID) : Int) = a * q.orcaToXorca.1 / q.orcaToXorca.2 := by
  obtain ⟨-, -, h3, h4⟩ := C68_status_figures h hr hs hi hv
  rw [h3, h4, mintFor, if_neg (by tauto), redeemFor]
  constructor <;> push_cast <;> rfl

/-- Read as printed, the rate for staking is right exactly if the two are equal, which is when the pool has not
earned anything; likewise the rate for unstaking. -/
theorem C68_labels_right_iff {st v : Pubkey} {b vb : UInt8} {q : Scripts.Status} (h : Scripts.status cr L L L = some q)
    (hr : Reachable cr L) (hs : StateAddr cr st b) (hi : Initialised cr L st) (hv : VaultAddr cr st v vb)
    (h0 : supply L XORCA_MINT_ID ≠ 0) (h1 : backing L v st ≠ 0) :
    ((∀ a : Nat, (mintFor a (backing L v st) (supply L XORCA_MINT_ID) : Int) = a * q.orcaToXorca.1 / q.orcaToXorca.2) ↔
      backing L v st = supply L XORCA_MINT_ID) ∧
    ((∀ a : Nat, (redeemFor a (backing L v st) (supply L XORCA_MINT_ID) : Int) = a * q.xorcaToOrca.1 / q.xorcaToOrca.2) ↔
      backing L v st = supply L XORCA_MINT_ID) := by
  have key := fun a => C68_rates_are_crosswise h hr hs hi hv h0 h1 a
  obtain ⟨-, -, h3, h4⟩ := C68_status_figures h hr hs hi hv
  rw [h3, h4]
  simp only [h3, h4] at key
  clear h3 h4 h hr hi
  generalize backing L v st = n at *
  generalize supply L XORCA_MINT_ID = m at *
  dsimp only at key ⊢
  have cross : ∀ n m : Nat, (n + 100) * (m + 100) * (m + 100) / (n + 100) = (n + 100) * (m + 100) * (n + 100) / (m + 100) →
      n = m := by
    intro n m he
    rw [Nat.mul_assoc, Nat.mul_div_cancel_left _ (by omega), Nat.mul_comm (n + 100) (m + 100), Nat.mul_assoc,
      Nat.mul_div_cancel_left _ (by omega)] at he
    have := Nat.mul_self_inj.1 he
    omega
  refine ⟨⟨fun hl => cross n m ?_, ?_⟩, ⟨fun hl => cross n m ?_, ?_⟩⟩
  · have e := (key ((n + 100) * (m + 100))).1.symm.trans (hl ((n + 100) * (m + 100)))
    exact_mod_cast e
  · rintro rfl a; exact (key a).1
  · have e := (key ((n + 100) * (m + 100))).2.symm.trans (hl ((n + 100) * (m + 100)))
    exact_mod_cast e.symm
  · rintro rfl a; exact (key a).2

/-- In the demo the pool has earned, so both labels are wrong: "1 ORCA = 1.4999… xORCA" is printed while 300000 ORCA buy
only 200005 xORCA. -/
theorem C68_labels_swapped_witness :
    ∃ (L : Ledger) (st v : Pubkey) (q : Scripts.Status), Reachable Real.crypto L ∧ Initialised Real.crypto L st ∧
      (∃ b, VaultAddr Real.crypto st v b) ∧ Scripts.status Real.crypto L L L = some q ∧
      (q.orcaToXorca.2 < q.orcaToXorca.1 ∧ ∀ a, mintFor a (backing L v st) (supply L XORCA_MINT_ID) ≤ a) ∧
      ¬ (∀ a : Nat, (mintFor a (backing L v st) (supply L XORCA_MINT_ID) : Int) = a * q.orcaToXorca.1 / q.orcaToXorca.2) ∧
      ¬ (∀ a : Nat, (redeemFor a (backing L v st) (supply L XORCA_MINT_ID) : Int) = a * q.xorcaToOrca.1 / q.xorcaToOrca.2) := by
  rw [← Demo.cr_eq]
  have hi : Initialised Demo.cr Demo.L4 Demo.ST := Demo.init4
  have hq : (Scripts.status Demo.cr Demo.L4 Demo.L4 Demo.L4).isSome = true := by decide +kernel
  obtain ⟨q, hq⟩ := Option.isSome_iff_exists.1 hq
  have h1 : backing Demo.L4 Demo.VA Demo.ST = 1800000 ∧ supply Demo.L4 XORCA_MINT_ID = 1200006 := by decide +kernel
  have hf := C68_status_figures hq Demo.reach4 Demo.st_addr hi Demo.va_addr
  have key := C68_labels_right_iff hq Demo.reach4 Demo.st_addr hi Demo.va_addr (by rw [h1.2]; decide)
    (by rw [h1.1]; decide)
  refine ⟨Demo.L4, Demo.ST, Demo.VA, q, Demo.reach4, hi, ⟨_, Demo.va_addr⟩, hq, ⟨?_, fun a => ?_⟩, ?_, ?_⟩
  · rw [hf.2.2.1, h1.1, h1.2]; decide
  · exact mintFor_le (by rw [h1.1, h1.2]; decide)
  · rw [key.1, h1.1, h1.2]; decide
  · rw [key.2, h1.1, h1.2]; decide

/-! ### C69: the list of `pending-withdraws.ts` -/

/-- Each row belongs to an open record of the user with an index below 15 and shows its index, amount (of ORCA, although
the heading says xORCA) and time; "ready" means that the program would accept the time.  "Created" is that time less the
cool-down of today. -/
theorem C69_rows_are_records {h : List Entry} {u st : Pubkey} {sb : UInt8} {now : Int} {rows : List Scripts.Row}
    {r : Scripts.Row} (hh : SealedHist cr h L) (hs : StateAddr cr st sb)
    (hrows : Scripts.pendingWithdraws cr L u now = some rows) (hr : r ∈ rows) :
    ∃ i k b, i < 15 ∧ RecordAddr cr u (UInt8.ofNat i) k b ∧ r.address = k ∧
      ((IsRecord L k ∧ recOwner L k = u ∧ recIndex L k = UInt8.ofNat i ∧ r.index = UInt8.ofNat i ∧
        r.xorcaAmount = recAmount L k ∧ r.timestamp = recTime L k ∧ (r.isReady = true ↔ recTime L k ≤ now) ∧
        (0 < r.timeRemaining ↔ now < recTime L k) ∧ r.createdAt = recTime L k - coolDown L st) ∨
        AddressClash cr L u k (UInt8.ofNat i) b) := by
  obtain ⟨st', ⟨_, e1⟩, hm⟩ := pendingRows_mem hrows
  obtain ⟨rfl, -⟩ := stateAddr_unique hs e1
  obtain ⟨i, hi, k, b, hk, hrow⟩ := (hm r).1 hr
  obtain ⟨h1, h2, rfl⟩ := rowOf_some.1 hrow
  refine ⟨i, k, b, hi, hk, rfl, ?_⟩
  rcases C60_record_address_states hh hk with h3 | ⟨h3, h4, h5⟩ | h3
  · rw [h3.2] at h2
    exact absurd h2 (by decide)
  · refine Or.inl ⟨h3, h4, h5, h5, rfl, rfl, by simp, ?_, rfl⟩
    dsimp only
    split <;> omega
  · exact Or.inr h3

/-- Each open record with an index below 15 has a row. -/
theorem C69_records_have_rows {k : Pubkey} {now : Int} {rows : List Scripts.Row} (hr : Reachable cr L) (hk : IsRecord L k)
    (hi : (recIndex L k).toNat < 15) (hrows : Scripts.pendingWithdraws cr L (recOwner L k) now = some rows) :
    ∃ r ∈ rows, r.address = k ∧ r.index = recIndex L k ∧ r.xorcaAmount = recAmount L k ∧ r.timestamp = recTime L k ∧
      (r.isReady = true ↔ recTime L k ≤ now) := by
  obtain ⟨st, -, hm⟩ := pendingRows_mem hrows
  have hacc := hr.inv.isRec hk
  have ha : RecordAddr cr (recOwner L k) (UInt8.ofNat (recIndex L k).toNat) k (readU8 (L k).data 6) := by
    rw [UInt8.ofNat_toNat]; exact hacc.addr
  have hl := hk.2.1
  exact ⟨_, (hm _).2 ⟨_, hi, k, _, ha, rowOf_some.2 ⟨hacc.lam, by omega, rfl⟩⟩, rfl, rfl, rfl, rfl, by simp⟩

/-- A record with an index from 15 on never has a row (unless two of the user's record addresses collide). -/
theorem C69_larger_indices_missing {u k : Pubkey} {i b : UInt8} {now : Int} {rows : List Scripts.Row}
    (hk : RecordAddr cr u i k b) (hi : 15 ≤ i.toNat) (hrows : Scripts.pendingWithdraws cr L u now = some rows)
    {r : Scripts.Row} (hr : r ∈ rows) :
    r.address ≠ k ∨ ∃ j b', j < 15 ∧ Clash cr (recordHashed u i b) (recordHashed u (UInt8.ofNat j) b') := by
  obtain ⟨st, -, hm⟩ := pendingRows_mem hrows
  obtain ⟨j, hj, k', b', hk', hrow⟩ := (hm r).1 hr
  obtain ⟨-, -, rfl⟩ := rowOf_some.1 hrow
  by_cases he : k' = k
  · subst he
    refine Or.inr ⟨j, b', hj, fun hh => ?_, by rw [← recordAddr_hash hk, ← recordAddr_hash hk']⟩
    have hij := (recordHashed_inj hh).2.1
    rw [hij, UInt8.toNat_ofNat_of_lt' (by change j < 256; omega)] at hi
    omega
  · exact Or.inl he

/-- The time shown as "Created" is the time of the Unstake exactly if the cool-down is still what it was then. -/
theorem C69_created_time {h : List Entry} {k st : Pubkey} {sb : UInt8} {now : Int} {rows : List Scripts.Row}
    {r : Scripts.Row} (hh : SealedHist cr h L) (hs : StateAddr cr st sb) (hk : IsRecord L k)
    (hrows : Scripts.pendingWithdraws cr L (recOwner L k) now = some rows) (hr : r ∈ rows) (ha : r.address = k) :
    ∃ h1 e0 h0 u i t, h = h1 ++ e0 :: h0 ∧ Creates e0 k u st i t ∧ (∀ f ∈ h1, ∀ u oa i t, ¬ Pays f k u oa i t) ∧
      r.createdAt = t + coolDown e0.pre st - coolDown L st ∧
      (r.createdAt = t ↔ coolDown L st = coolDown e0.pre st) := by
  obtain ⟨st', ⟨_, e1⟩, hm⟩ := pendingRows_mem hrows
  obtain ⟨rfl, -⟩ := stateAddr_unique hs e1
  obtain ⟨i, hi, k', b, hk', hrow⟩ := (hm r).1 hr
  obtain ⟨-, -, rfl⟩ := rowOf_some.1 hrow
  dsimp only at ha
  subst ha
  obtain ⟨h1, e0, h0, u0, st0, i0, now0, rfl, hc, hn, hd⟩ := hh.hist.origin hk
  obtain ⟨hh0, ok0, -⟩ := hh.hist.split
  have cf := hc.facts ok0 hh0.inv
  obtain ⟨_, e2⟩ := cf.state.1
  obtain ⟨rfl, -⟩ := stateAddr_unique hs e2
  have ht : recTime L k' = now0 + coolDown e0.pre st := by
    rw [← cf.time, recTime, recTime, hd]
  refine ⟨h1, e0, h0, u0, i0, now0, rfl, hc, hn, ?_, ?_⟩
  · dsimp only; rw [ht]
  · dsimp only; rw [ht]; omega

/-- Both defects, with the real hash functions: in the ledger after a change of the cool-down from 100 to 50, of the two
open records only that with index 0 is shown, with "Created" 50 seconds after the Unstake at 1004. -/
theorem C69_missing_and_wrong_time_witness :
    ∃ (L : Ledger) (u k1 k2 : Pubkey) (rows : List Scripts.Row), Reachable Real.crypto L ∧
      IsRecord L k1 ∧ recOwner L k1 = u ∧ IsRecord L k2 ∧ recOwner L k2 = u ∧ 0 < recAmount L k2 ∧
      Scripts.pendingWithdraws Real.crypto L u 1200 = some rows ∧
      rows.map (fun r => (r.address, r.createdAt)) = [(k1, 1054)] ∧ k2 ≠ k1 := by
  rw [← Demo.cr_eq]
  have hq : ((Scripts.pendingWithdraws Demo.cr Demo.L8 Demo.US 1200).map
      fun rows => rows.map fun r => (r.address, r.createdAt)) = some [(Demo.R0, 1054)] := by decide +kernel
  obtain ⟨rows, h1, h2⟩ := Option.map_eq_some_iff.1 hq
  exact ⟨Demo.L8, Demo.US, Demo.R0, Demo.R255, rows, Demo.reach8, Demo.record0.1, Demo.record0.2.1, Demo.record255.1,
    Demo.record255.2.1, by decide +kernel, h1, h2, by decide +kernel⟩

/-- The list of the demo user has a row for record 0, and the theorems apply to it. -/
example : ∃ rows r, Scripts.pendingWithdraws Demo.cr Demo.L8 Demo.US 1200 = some rows ∧ r ∈ rows ∧
    r.address = Demo.R0 ∧ r.xorcaAmount = recAmount Demo.L8 Demo.R0 ∧
    (∃ h1 e0 h0 u i t, [Demo.e8, Demo.e7, Demo.e6, Demo.e5, Demo.e4, Demo.e3, Demo.e2, Demo.e1] = h1 ++ e0 :: h0 ∧
      Creates e0 Demo.R0 u Demo.ST i t ∧ r.createdAt = t + coolDown e0.pre Demo.ST - coolDown Demo.L8 Demo.ST) ∧
    (∃ i k b, i < 15 ∧ RecordAddr Demo.cr Demo.US (UInt8.ofNat i) k b ∧ r.address = k) ∧
    (r.address ≠ Demo.R255 ∨ ∃ j b', j < 15 ∧ Clash Demo.cr (recordHashed Demo.US 255 255)
      (recordHashed Demo.US (UInt8.ofNat j) b')) := by
  have hq : (Scripts.pendingWithdraws Demo.cr Demo.L8 Demo.US 1200).isSome = true := by decide +kernel
  obtain ⟨rows, hq⟩ := Option.isSome_iff_exists.1 hq
  have hrow := C69_records_have_rows (k := Demo.R0) (now := 1200) Demo.reach8 Demo.record0.1
    (by rw [Demo.record0.2.2.1]; decide) (rows := rows) (by rw [Demo.record0.2.1]; exact hq)
  obtain ⟨r, hr, h1, -, h2, -⟩ := hrow
  obtain ⟨g1, e0, g0, u, i, t, a1, a2, -, a3, -⟩ := C69_created_time Demo.sealed8 Demo.st_addr Demo.record0.1
    (by rw [Demo.record0.2.1]; exact hq) hr h1
  obtain ⟨j, k, b, b1, b2, b3, -⟩ := C69_rows_are_records Demo.sealed8 Demo.st_addr hq hr
  exact ⟨rows, r, hq, hr, h1, h2, ⟨g1, e0, g0, u, i, t, a1, a2, a3⟩, ⟨j, k, b, b1, b2, b3⟩,
    C69_larger_indices_missing Demo.r255_addr (by decide) hq hr⟩

/-! ### C70: texts and numbers -/

/-- The decimal text of a number up to 2^53 is read as that number. -/
theorem C70_decimal_text (auto : Bool) {n : Nat} (h : n ≤ 2 ^ 53) :
    Scripts.parseInt auto (toString n).toList = some (n : Int) := by
  rw [parseInt_toString, toNumber_small (by simpa using h)]

/-- The index argument: the text of a number up to 255 is that index. -/
theorem C70_index_sent {u : Pubkey} {i : UInt8} {a now r : Int} {s : Scripts.Sent}
    (h : Scripts.unstake cr L u a (toString i.toNat).toList = some s ∨
      Scripts.withdraw cr L u (toString i.toNat).toList now = some (s, r)) :
    (∃ n, decodeIx s.data = some (.Unstake n i)) ∨ decodeIx s.data = some (.Withdraw i) := by
  have hlt := i.toNat_lt
  have hp := C70_decimal_text false (n := i.toNat) (by omega)
  rcases h with h | h
  · obtain ⟨n, i', _, _, _, _, _, -, hd, hi, -⟩ := C67_unstake_script h
    rw [hp] at hi
    rcases hi with ⟨h, -⟩ | h
    · cases h
    · rw [show i' = i from UInt8.toNat_inj.1 (by simpa using h.symm)] at hd
      exact Or.inl ⟨n, hd⟩
  · obtain ⟨i', _, _, _, _, hd, hi, -⟩ := C67_withdraw_script h
    rw [hp] at hi
    rcases hi with ⟨h, -⟩ | h
    · cases h
    · rw [show i' = i from UInt8.toNat_inj.1 (by simpa using h.symm)] at hd
      exact Or.inr hd

/-- A number that is no index is refused: nothing is sent. -/
theorem C70_index_out_of_range {u : Pubkey} {t : List Char} {a now i : Int} (ht : Scripts.parseInt false t = some i)
    (hi : i < 0 ∨ 255 < i) : Scripts.unstake cr L u a t = none ∧ Scripts.withdraw cr L u t now = none := by
  constructor
  · cases h : Scripts.unstake cr L u a t with
    | none => rfl
    | some s =>
      obtain ⟨_, i', _, _, _, _, _, -, -, hi', -⟩ := C67_unstake_script h
      have := i'.toNat_lt
      rw [ht] at hi'
      rcases hi' with ⟨h, -⟩ | h
      · cases h
      · cases h; omega
  · cases h : Scripts.withdraw cr L u t now with
    | none => rfl
    | some s =>
      obtain ⟨s, r⟩ := s
      obtain ⟨i', _, _, _, _, -, hi', -⟩ := C67_withdraw_script h
      have := i'.toNat_lt
      rw [ht] at hi'
      rcases hi' with ⟨h, -⟩ | h
      · cases h
      · cases h; omega

/-- But an argument that is not a number at all is not refused: it means index 0. -/
theorem C70_not_a_number_is_index_0 {u : Pubkey} {t : List Char} {a now r : Int} {s : Scripts.Sent}
    (ht : Scripts.parseInt false t = none)
    (h : Scripts.unstake cr L u a t = some s ∨ Scripts.withdraw cr L u t now = some (s, r)) :
    (∃ n, decodeIx s.data = some (.Unstake n 0)) ∨ decodeIx s.data = some (.Withdraw 0) := by
  rcases h with h | h
  · obtain ⟨n, i', _, _, _, _, _, -, hd, hi, -⟩ := C67_unstake_script h
    rw [ht] at hi
    rcases hi with ⟨-, rfl⟩ | h
    · exact Or.inl ⟨n, hd⟩
    · cases h
  · obtain ⟨i', _, _, _, _, hd, hi, -⟩ := C67_withdraw_script h
    rw [ht] at hi
    rcases hi with ⟨-, rfl⟩ | h
    · exact Or.inr hd
    · cases h

example := C70_index_sent (i := 255) (now := 0) (r := 0) (Or.inl Demo.sentUnstake_eq)
example := C70_index_out_of_range (cr := cr) (L := L) (u := Demo.US) (a := 5) (now := 0) (t := "256".toList) (i := 256)
  (by decide +kernel) (by decide)
/-- The demo user mistypes the index and still unstakes, with index 0. -/
example : Scripts.parseInt false "ten".toList = none ∧ (Scripts.parseInt false "1O".toList = some 1) ∧
    (Scripts.unstake Demo.cr Demo.S4 Demo.US 600000 "ten".toList).isSome = true := by decide +kernel
example : ∃ s, Scripts.unstake Demo.cr Demo.S4 Demo.US 600000 "ten".toList = some s ∧
    ((∃ n, decodeIx s.data = some (.Unstake n 0)) ∨ decodeIx s.data = some (.Withdraw 0)) := by
  have h : (Scripts.unstake Demo.cr Demo.S4 Demo.US 600000 "ten".toList).isSome = true := by decide +kernel
  obtain ⟨s, h⟩ := Option.isSome_iff_exists.1 h
  exact ⟨s, h, C70_not_a_number_is_index_0 (now := 0) (r := 0) (by decide +kernel) (Or.inl h)⟩

/-- The warning of `withdraw.ts`: seconds remain exactly if the record has not matured, whatever its time (the clock of
the script is below 2^53). -/
theorem C70_seconds_remaining {u pw : Pubkey} {i b : UInt8} {now r : Int} {s : Scripts.Sent}
    (h : Scripts.withdraw cr L u (toString i.toNat).toList now = some (s, r)) (hpw : RecordAddr cr u i pw b)
    (h0 : 0 ≤ now) (h1 : now < 2 ^ 53) : 0 < r ↔ now < recTime L pw := by
  obtain ⟨st, pw', v, oa, c, -, ⟨_, hk⟩, -, -, -, -, -, he⟩ := withdrawScript_iff.1 h
  cases he
  have hlt := i.toNat_lt
  rw [C70_decimal_text false (by omega), bufferFrom_small (by omega), UInt8.ofNat_toNat] at hk
  obtain ⟨rfl, -⟩ := recordAddr_unique hpw hk
  have := toNumber_le_iff (i := (readI64 (L pw).data 48).toInt) h0 h1
  have h2 : recTime L pw = (readI64 (L pw).data 48).toInt := rfl
  rw [h2]
  omega

/-- The cool-down given to `set.ts` and `initialize.ts` is used exactly up to 2^53 seconds; a larger one is rounded
without notice. -/
theorem C70_cool_down_argument {u d au : Pubkey} {n : Nat} {s : Scripts.Sent} (hn : n ≤ 2 ^ 53)
    (h : Scripts.setScript cr L u (.updateCooldown (toString n).toList) = some s ∨
      Scripts.initializeScript cr d au (toString n).toList = some s) :
    ∃ c : Int64, c.toInt = n ∧
      (decodeIx s.data = some (.Set (.UpdateCoolDownPeriod c)) ∨ decodeIx s.data = some (.Initialize c)) := by
  have hp := C70_decimal_text true hn
  rcases h with h | h
  · obtain ⟨w, st, hd, ⟨c, rfl, hc, -⟩, -⟩ := C67_set_script h
    rw [hp] at hc
    exact ⟨c, by simpa using hc.symm, Or.inl hd⟩
  · obtain ⟨c, st, v, hd, hc, -⟩ := C67_initialize_script h
    rw [hp] at hc
    exact ⟨c, by simpa using hc.symm, Or.inr hd⟩

/-- Five seconds early. -/
example : 0 < Demo.sentWithdraw.2 ↔ (1098 : Int) < recTime Demo.S8 Demo.R255 :=
  C70_seconds_remaining (i := 255) (r := Demo.sentWithdraw.2) Demo.sentWithdraw_eq Demo.r255_addr (by decide) (by decide)
example := C70_cool_down_argument (n := 70) (d := DEPLOYER_ADDRESS) (au := Demo.AU) (by decide) (Or.inl Demo.sentSet_eq)
example : Scripts.parseInt true "0x46".toList = some 70 ∧ Scripts.parseInt false "0x46".toList = some 0 ∧
    Scripts.parseInt true " -5 days".toList = some (-5) := by decide +kernel

/-- Beyond that the number sent is another one. -/
theorem C70_cool_down_rounded_witness :
    ∃ (t : String) (c : Int64), t = toString (2 ^ 53 + 1) ∧
      Scripts.setData (.updateCooldown t.toList) = some ([4, 0] ++ i64le c) ∧ c.toInt = 2 ^ 53 :=
  ⟨"9007199254740993", 9007199254740992, by decide +kernel, by decide +kernel, by decide +kernel⟩

/-- The code that `withdraw.ts` looks for is that of "cool-down still active" and of no other error of the program. -/
theorem C70_cool_down_error (e : ErrorCode) :
    Scripts.cooldownError (Client.rustErrorCode e) = true ↔ e = .CoolDownPeriodStillActive := by
  cases e <;> decide

end Xorca
