import Verif.Lemmas.RentRule
import Verif.Props.Rent
import Verif.Lemmas.DemoClient
/-
C99: the runtime's rent rule never stops a call, except when the payer is left with too little.
-/
namespace Xorca
open Spec

variable {cr : Crypto} {x : Ctx} {L L' : Ledger} {accs : List Meta} {logs : List Bytes} {ix : Instruction} {k : Pubkey}
  {h : List Entry}

/-- Stake and Set satisfy the rule at every account. -/
theorem C99_stake_and_set (hr : Runs x L accs ix L' logs) (hs : SignersOk x.cr L accs)
    (hix : (∃ a, ix = .Stake a) ∨ ∃ u, ix = .Set u) (k : Pubkey) : RentOk x.rentMin (L k) (L' k) := by
  have hd := hr.dispatch
  rcases hix with ⟨a, rfl⟩ | ⟨u, rfl⟩
  · obtain ⟨s, v, oa, xa, xm, st, om, tp, L1, m, r⟩ := processStake_run hd
    have f := r.eff hs
    refine rentOk_of_same (f.frame.lamports k) ?_
    obtain ⟨w1, a1, -⟩ := f.oa_data
    obtain ⟨w2, b1, -⟩ := f.v_data
    obtain ⟨w3, c1, -⟩ := f.xa_data
    obtain ⟨w4, d1, -⟩ := f.xm_data
    have l2 := f.v_ok.len
    have l3 := f.xa_ok.len
    have l4 := f.xm_ok.len
    by_cases h1 : k = oa.key
    · rw [h1]; exact a1.len
    by_cases h2 : k = v.key
    · rw [h2, b1, writeAt_length (by simp; omega)]
    by_cases h3 : k = xa.key
    · rw [h3, c1, writeAt_length (by simp; omega)]
    by_cases h4 : k = XORCA_MINT_ID
    · rw [h4, d1, writeAt_length (by simp; omega)]
    · rw [f.frame.other k (by simp [h1, h2, h3, h4])]
  · cases u with
    | UpdateCoolDownPeriod c =>
      obtain ⟨a, st, r, -, rfl, -⟩ := processSet_coolDown_run hd
      have l := r.st_len
      by_cases h1 : k = st.key
      · rw [h1]; exact rentOk_of_same (by simp) (by simp only [Ledger.setData_same]; rw [writeAt_length (by simp; omega)])
      · rw [Ledger.setData_other _ _ h1]; exact rentOk_of_same rfl rfl
    | UpdateUpdateAuthority n =>
      obtain ⟨a, st, r, rfl, -⟩ := processSet_authority_run hd
      have l := r.st_len
      by_cases h1 : k = st.key
      · rw [h1]; exact rentOk_of_same (by simp) (by
          simp only [Ledger.setData_same]; rw [writeAt_length (by rw [n.len]; omega)])
      · rw [Ledger.setData_other _ _ h1]; exact rentOk_of_same rfl rfl

/-- A call of the program leaves every account but its first one (the staker, unstaker, authority or payer) as the
runtime's rent rule demands. -/
theorem C99_rent_rule (hr : Runs x L accs ix L' logs) (hs : SignersOk x.cr L accs)
    (hk : ∀ m, accs[0]? = some m → k ≠ m.key) : RentOk x.rentMin (L k) (L' k) := by
  have hd := hr.dispatch
  cases ix with
  | Stake a =>
    exact C99_stake_and_set hr hs (Or.inl ⟨a, rfl⟩) k
  | Unstake a i =>
    obtain ⟨u, st, pw, xa, xm, om, v, sp, tp, L1, L3, w, e', ts, b, r⟩ := processUnstake_run hd
    obtain ⟨f, -⟩ := r.eff hs
    obtain ⟨rest, ha⟩ := r.accs_eq
    have hu := hk u (by rw [ha]; rfl)
    by_cases h1 : k = pw.key
    · obtain ⟨l, g1, g2⟩ := f.pw_new
      rw [h1, g1]
      refine rentOk_of_exempt ?_
      simp only [recordBytes_length]
      omega
    refine rentOk_of_same (f.lamports k (by simp [h1, hu])) ?_
    obtain ⟨w1, a1, -⟩ := f.xa_data
    obtain ⟨w4, d1, -⟩ := f.xm_data
    have l4 := f.xm_ok.len
    have l5 := r.st_len
    by_cases h2 : k = xa.key
    · rw [h2]; exact a1.len
    by_cases h3 : k = XORCA_MINT_ID
    · rw [h3, d1, writeAt_length (by simp; omega)]
    by_cases h4 : k = st.key
    · rw [h4, f.st_data, writeAt_length (by simp; omega)]
    · rw [f.data k (by simp [h1, h2, h3, h4])]
  | Withdraw i =>
    obtain ⟨u, st, pw, oa, v, om, sp, tp, L1, L2, e', r⟩ := processWithdraw_run hd
    obtain ⟨f, -⟩ := r.eff hs
    obtain ⟨rest, ha⟩ := r.accs_eq
    have hu := hk u (by rw [ha]; rfl)
    by_cases h1 : k = pw.key
    · rw [h1, f.pw_closed]; exact rentOk_of_empty rfl
    refine rentOk_of_same (f.lamports k (by simp [h1, hu])) ?_
    obtain ⟨w1, a1, -⟩ := f.v_data
    obtain ⟨w2, b1, -⟩ := f.oa_data
    have l2 := f.oa_ok.len
    have l5 := r.st_len
    by_cases h2 : k = v.key
    · rw [h2]; exact a1.len
    by_cases h3 : k = oa.key
    · rw [h3, b1, writeAt_length (by simp; omega)]
    by_cases h4 : k = st.key
    · rw [h4, f.st_data, writeAt_length (by simp; omega)]
    · rw [f.data k (by simp [h1, h2, h3, h4])]
  | Initialize c =>
    obtain ⟨p, au, st, v, xm, om, sp, tp, ap, L1, b, vb, r⟩ := processInitialize_run hd
    have f := r.eff hs
    obtain ⟨rest, ha⟩ := r.accs_eq
    have hp := hk p (by rw [ha]; rfl)
    by_cases h1 : k = st.key
    · obtain ⟨l, g1, g2⟩ := f.st_new
      rw [h1, g1]
      refine rentOk_of_exempt ?_
      have hl : (initialStateBytes b vb c au.key).length = 2048 :=
        State.serialize_length List.length_replicate List.length_replicate
      simp only [hl]
      omega
    by_cases h2 : k = v.key
    · obtain ⟨l, g1, g2⟩ := f.v_new
      rw [h2, g1]
      refine rentOk_of_exempt ?_
      simp only [show (freshTokenAccountData ORCA_MINT_ID st.key).length = 165 by
        simp [freshTokenAccountData, ORCA_MINT_ID.len, st.key.len]]
      omega
    · rw [f.other k (by simp [h1, h2, hp])]; exact rentOk_of_same rfl rfl
  | Set u =>
    exact C99_stake_and_set hr hs (Or.inr ⟨u, rfl⟩) k

/-- When the rule is broken at all: at the first account, by a call that moved its lamports, and because it is left with
some lamports but less than the minimum. -/
theorem C99_only_short_payer (hr : Runs x L accs ix L' logs) (hs : SignersOk x.cr L accs)
    (hn : ¬ RentOk x.rentMin (L k) (L' k)) :
    (∃ m, accs[0]? = some m ∧ k = m.key) ∧ (L' k).lamports ≠ 0 ∧
    (L' k).lamports.toNat < (x.rentMin (L' k).data.length).toNat ∧
    ((∃ a i, ix = .Unstake a i) ∨ (∃ i, ix = .Withdraw i) ∨ ∃ c, ix = .Initialize c) := by
  obtain ⟨h1, h2, -⟩ := not_rentOk.1 hn
  refine ⟨?_, h1, UInt64.lt_iff_toNat_lt.1 h2, ?_⟩
  · by_contra hc
    exact hn (C99_rent_rule hr hs fun m hm hk => hc ⟨m, hm, hk⟩)
  · cases ix with
    | Stake a => exact absurd (C99_stake_and_set hr hs (Or.inl ⟨a, rfl⟩) k) hn
    | Unstake a i => exact Or.inl ⟨a, i, rfl⟩
    | Withdraw i => exact Or.inr (Or.inl ⟨i, rfl⟩)
    | Initialize c => exact Or.inr (Or.inr ⟨c, rfl⟩)
    | Set u => exact absurd (C99_stake_and_set hr hs (Or.inr ⟨u, rfl⟩) k) hn

/-- Unstake: it is enough that the payer keeps the minimum of a wallet, or nothing at all. -/
theorem C99_unstake_payer {a : UInt64} {i : UInt8} {u st pw : Meta} {rest : List Meta}
    (hr : Runs x L (u :: st :: pw :: rest) (.Unstake a i) L' logs) (hs : SignersOk x.cr L (u :: st :: pw :: rest))
    (hw : (L u.key).data = [])
    (hkeep : (x.rentMin 1024).toNat + (x.rentMin 0).toNat ≤ (L u.key).lamports.toNat + (L pw.key).lamports.toNat ∨
      (x.rentMin 1024).toNat = (L u.key).lamports.toNat + (L pw.key).lamports.toNat) (k : Pubkey) :
    RentOk x.rentMin (L k) (L' k) := by
  by_cases hk : k = u.key
  · subst hk
    obtain ⟨u', st', pw', xa, xm, om, v, sp, tp, L1, L3, w, e', ts, b, r⟩ := processUnstake_run hr.dispatch
    obtain ⟨f, -⟩ := r.eff hs
    obtain ⟨rest', ha⟩ := r.accs_eq
    simp only [List.cons.injEq] at ha
    obtain ⟨rfl, rfl, rfl, -⟩ := ha
    have hp := f.paid
    have l2 := f.xa_ok.len
    have l4 := f.xm_ok.len
    have l5 := r.st_len
    have n1 : u.key ≠ xa.key := fun h => by rw [← h, hw] at l2; simp at l2
    have n2 : u.key ≠ XORCA_MINT_ID := fun h => by rw [← h, hw] at l4; simp at l4
    have n3 : u.key ≠ st.key := fun h => by rw [← h, hw] at l5; simp at l5
    have hd : (L' u.key).data = (L u.key).data := f.data _ (by simp [f.pw_ne.1.symm, n1, n2, n3])
    by_cases h1 : (x.rentMin 1024).toNat ≤ (L pw.key).lamports.toNat
    · exact rentOk_of_same (UInt64.toNat_inj.1 (by omega)) (by rw [hd])
    · rcases hkeep with h2 | h2
      · refine rentOk_of_exempt ?_
        rw [hd, hw]
        simp only [List.length_nil]
        omega
      · exact rentOk_of_empty (UInt64.toNat_inj.1 (by rw [UInt64.toNat_zero]; omega))
  · exact C99_rent_rule hr hs fun m hm => by simp only [List.getElem?_cons_zero, Option.some.injEq] at hm; rwa [← hm]

/-- Withdraw: the rule is kept at every account if the record holds the minimum of a wallet. -/
theorem C99_withdraw_receiver {i : UInt8} {u st pw : Meta} {rest : List Meta}
    (hr : Runs x L (u :: st :: pw :: rest) (.Withdraw i) L' logs) (hs : SignersOk x.cr L (u :: st :: pw :: rest))
    (hw : (L u.key).data = []) (hrec : (x.rentMin 0).toNat ≤ (L pw.key).lamports.toNat)
    (hfit : (L u.key).lamports.toNat + (L pw.key).lamports.toNat < 2 ^ 64) (k : Pubkey) :
    RentOk x.rentMin (L k) (L' k) := by
  by_cases hk : k = u.key
  · subst hk
    obtain ⟨u', st', pw', oa, v, om, sp, tp, L1, L2, e', r⟩ := processWithdraw_run hr.dispatch
    obtain ⟨f, -⟩ := r.eff hs
    obtain ⟨rest', ha⟩ := r.accs_eq
    simp only [List.cons.injEq] at ha
    obtain ⟨rfl, rfl, rfl, -⟩ := ha
    have l1 := f.v_ok.len
    have l2 := f.oa_ok.len
    have n1 : u.key ≠ v.key := fun h => by rw [← h, hw] at l1; simp at l1
    have n2 : u.key ≠ oa.key := fun h => by rw [← h, hw] at l2; simp at l2
    have hd : (L' u.key).data = (L u.key).data :=
      f.data _ (by simp [f.pw_ne.2.2.symm, n1, n2, f.st_ne.2.2.2.symm])
    refine rentOk_of_exempt ?_
    rw [hd, hw, f.refund, UInt64.toNat_add, Nat.mod_eq_of_lt hfit]
    simp only [List.length_nil]
    omega
  · exact C99_rent_rule hr hs fun m hm => by simp only [List.getElem?_cons_zero, Option.some.injEq] at hm; rwa [← hm]

/-- A record does hold the minimum of a wallet, in every history in which that minimum was never above the minimum of a
record's size. -/
theorem C99_record_covers_wallet (hh : Hist cr h L) (hk : IsRecord L k)
    (hrate : ∀ e ∈ h, ∀ x' accs ix logs, e.label = .call x' accs ix logs → (x.rentMin 0).toNat ≤ (x'.rentMin 1024).toNat) :
    (x.rentMin 0).toNat ≤ (L k).lamports.toNat := by
  obtain ⟨h2, e, h1, u, st, i, now, x', accs, ix, logs, rfl, -, hl, -, hm, -⟩ := C87_record_stays_rent_exempt hh hk
  have := hrate e (by simp) x' accs ix logs hl
  omega

/-- The rule is checked once for a whole transaction; if each instruction keeps it, the transaction does. -/
theorem C99_composes {f : Nat → UInt64} {a b c : Account} (h1 : RentOk f a b) (h2 : RentOk f b c) : RentOk f a c :=
  rentOk_trans h1 h2

/-! ### Examples -/

/-- Every instruction of the demo keeps the rule; the user's wallet keeps enough. -/
example : ∀ k ∈ Demo.used, RentOk (Demo.ctx 1003).rentMin (Demo.L4 k) (Demo.L5 k) ∧
    RentOk (Demo.ctx 1103).rentMin (Demo.L8 k) (Demo.L9 k) := by decide +kernel
example := C99_rent_rule (k := Demo.R255) Demo.run5 Demo.signers5 (fun m hm => by cases hm; decide +kernel)
example : ((Demo.ctx 1103).rentMin 0).toNat ≤ (Demo.L9 Demo.R0).lamports.toNat := by
  refine C99_record_covers_wallet Demo.hist9 ⟨by decide +kernel, by decide +kernel, by decide +kernel⟩ ?_
  intro e he x' accs ix logs hl
  have key : ∀ t, ((Demo.ctx 1103).rentMin 0).toNat ≤ ((Demo.ctx t).rentMin 1024).toNat := fun t => by
    unfold Demo.ctx; dsimp only; decide +kernel
  simp only [List.mem_cons, List.not_mem_nil, or_false] at he
  rcases he with rfl | rfl | rfl | rfl | rfl | rfl | rfl | rfl | rfl
  · unfold Demo.e9 at hl; cases hl; exact key _
  · unfold Demo.e8 at hl; cases hl; exact key _
  · unfold Demo.e7 at hl; cases hl; exact key _
  · unfold Demo.e6 at hl; cases hl; exact key _
  · unfold Demo.e5 at hl; cases hl; exact key _
  · unfold Demo.e4 at hl; cases hl; exact key _
  · unfold Demo.e3 at hl; cases hl
  · unfold Demo.e2 at hl; cases hl; exact key _
  · unfold Demo.e1 at hl; cases hl; exact key _
example := C99_unstake_payer Demo.run5 Demo.signers5 (by decide +kernel) (by decide +kernel) Demo.US
example := C99_withdraw_receiver Demo.run9 Demo.signers9 (by decide +kernel) (by decide +kernel) (by decide +kernel) Demo.US
/-- A wallet with 1000 lamports more than the deposit would be left with too little. -/
example : ¬ RentOk (fun n => 6960 * (128 + n.toUInt64)) ⟨8018920, SYSTEM_PROGRAM_ID, []⟩ ⟨1000, SYSTEM_PROGRAM_ID, []⟩ := by
  decide +kernel

end Xorca
