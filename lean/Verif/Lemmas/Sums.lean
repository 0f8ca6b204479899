import Verif.Totals
import Verif.Lemmas.Trace
import Mathlib.Algebra.BigOperators.Group.Finset.Piecewise
/-
Sums over accounts, and the effect of each instruction on tokens and lamports of single accounts.
-/
namespace Xorca
open Spec

theorem sum_upd1 {f g : Pubkey → Nat} {S : Finset Pubkey} {a : Pubkey} (ha : a ∈ S)
    (h : ∀ k, k ≠ a → g k = f k) : ∑ k ∈ S, g k + f a = ∑ k ∈ S, f k + g a := by
  rw [← Finset.add_sum_erase S g ha, ← Finset.add_sum_erase S f ha]
  have : ∑ k ∈ S.erase a, g k = ∑ k ∈ S.erase a, f k :=
    Finset.sum_congr rfl fun k hk => h k (Finset.ne_of_mem_erase hk)
  omega

theorem sum_upd2 {f g : Pubkey → Nat} {S : Finset Pubkey} {a b : Pubkey} (ha : a ∈ S) (hb : b ∈ S)
    (hab : a ≠ b) (h : ∀ k, k ≠ a → k ≠ b → g k = f k) :
    ∑ k ∈ S, g k + f a + f b = ∑ k ∈ S, f k + g a + g b := by
  have h1 := sum_upd1 (f := f) (g := fun k => if k = a then g a else f k) ha (fun k hk => by simp [hk])
  have h2 := sum_upd1 (f := fun k => if k = a then g a else f k) (g := g) hb (fun k hk => by
    by_cases hka : k = a
    · simp [hka]
    · simp [hka, h k hka hk])
  simp only [if_pos, if_neg hab.symm] at h1 h2
  omega

theorem sum_upd3 {f g : Pubkey → Nat} {S : Finset Pubkey} {a b c : Pubkey} (ha : a ∈ S) (hb : b ∈ S)
    (hc : c ∈ S) (hab : a ≠ b) (hac : a ≠ c) (hbc : b ≠ c)
    (h : ∀ k, k ≠ a → k ≠ b → k ≠ c → g k = f k) :
    ∑ k ∈ S, g k + f a + f b + f c = ∑ k ∈ S, f k + g a + g b + g c := by
  have h1 := sum_upd1 (f := f) (g := fun k => if k = a then g a else f k) ha (fun k hk => by simp [hk])
  have h2 := sum_upd2 (f := fun k => if k = a then g a else f k) (g := g) hb hc hbc (fun k hk hk' => by
    by_cases hka : k = a
    · simp [hka]
    · simp [hka, h k hka hk hk'])
  simp only [if_pos, if_neg hab.symm, if_neg hac.symm] at h1 h2
  omega

theorem sum_two_le {f : Pubkey → Nat} {S : Finset Pubkey} {a b : Pubkey} (ha : a ∈ S) (hb : b ∈ S)
    (hab : a ≠ b) : f a + f b ≤ ∑ k ∈ S, f k := by
  rw [← Finset.add_sum_erase S f ha, ← Finset.add_sum_erase _ f (Finset.mem_erase.2 ⟨hab.symm, hb⟩)]
  omega

/-! ### Tokens of one account -/

theorem tokensOf_congr {L L' : Ledger} {m k : Pubkey} (ho : (L' k).owner = (L k).owner)
    (hd : (L' k).data = (L k).data) : tokensOf L' m k = tokensOf L m k := by
  unfold tokensOf mintOf balance; rw [ho, hd]

theorem tokensOf_foreign {L : Ledger} {m k : Pubkey} (h : (L k).owner ≠ SPL_TOKEN_PROGRAM_ID) :
    tokensOf L m k = 0 := by
  unfold tokensOf; rw [if_neg (fun hh => h hh.1)]

theorem tokensOf_mint {L : Ledger} {m m' k : Pubkey} (h : mintOf L k = m')
    (ho : (L k).owner = SPL_TOKEN_PROGRAM_ID) (hl : (L k).data.length = 165) :
    tokensOf L m k = if m = m' then balance L k else 0 := by
  unfold tokensOf
  by_cases hm : m = m'
  · rw [if_pos ⟨ho, hl, by rw [h, hm]⟩, if_pos hm]
  · rw [if_neg (fun hh => hm (hh.2.2.symm.trans h)), if_neg hm]

theorem tokensOf_short {L : Ledger} {m k : Pubkey} (h : (L k).data.length ≠ 165) : tokensOf L m k = 0 := by
  unfold tokensOf; rw [if_neg (fun hh => h hh.2.1)]

theorem tokensOf_writeAt {L L' : Ledger} {m m' k : Pubkey} {w : UInt64} (hm : mintOf L k = m')
    (hk : TokUsable (L k)) (ho : (L' k).owner = (L k).owner)
    (h : (L' k).data = writeAt (L k).data 64 (u64le w)) :
    tokensOf L' m k = if m = m' then w.toNat else 0 := by
  have hl := hk.len
  rw [tokensOf_mint (m' := m') ?_ (ho.trans hk.owner) ?_, balance_of_writeAt (by omega) h]
  · rw [← hm]; unfold mintOf
    rw [h, readKey_writeAt_apart (by simp; omega) (by simp [Apart])]
  · rw [h, writeAt_length (by simp; omega), hl]

theorem tokensOf_amountSet {L L' : Ledger} {m m' k : Pubkey} {w : UInt64} (hm : mintOf L k = m')
    (hk : TokUsable (L k)) (ho : (L' k).owner = (L k).owner)
    (h : AmountSet (L k).data (L' k).data w) :
    tokensOf L' m k = if m = m' then w.toNat else 0 := by
  rw [tokensOf_mint (m' := m') ?_ (ho.trans hk.owner) (h.len.trans hk.len), balance_of_amountSet h]
  rw [← hm]; exact h.mint

/-! ### Tokens moved by each instruction -/

theorem StakeRun.tokens {x : Ctx} {L L' : Ledger} {accs : List Meta} {a : UInt64} {logs : List Bytes}
    {s v oa xa xm st om tp : Meta} {L1 : Ledger} {w : UInt64} (hsig : SignersOk x.cr L accs)
    (r : StakeRun x L accs a L' logs s v oa xa xm st om tp L1 w) (m k : Pubkey) :
    tokensOf L' m k + (if oa.key = k then if m = ORCA_MINT_ID then a.toNat else 0 else 0) =
    tokensOf L m k + (if v.key = k then if m = ORCA_MINT_ID then a.toNat else 0 else 0) +
      (if xa.key = k then if m = XORCA_MINT_ID then w.toNat else 0 else 0) := by
  have f := r.eff hsig
  obtain ⟨w1, a1, a2⟩ := f.oa_data
  obtain ⟨w2, b1, b2⟩ := f.v_data
  obtain ⟨w3, c1, c2⟩ := f.xa_data
  obtain ⟨w4, d1, d2⟩ := f.xm_data
  by_cases k1 : oa.key = k
  · subst k1
    rw [tokensOf_amountSet r.oa_mint f.oa_ok (f.frame.owner _) a1, tokensOf_mint r.oa_mint r.oa_prog f.oa_ok.len]
    rw [if_pos rfl, if_neg f.oa_ne_v.symm, if_neg f.oa_ne_xa.symm]
    split <;> omega
  by_cases k2 : v.key = k
  · subst k2
    rw [tokensOf_writeAt r.v_mint f.v_ok (f.frame.owner _) b1, tokensOf_mint r.v_mint r.v_prog f.v_ok.len]
    rw [if_pos rfl, if_neg k1, if_neg f.v_ne_xa.symm]
    split <;> omega
  by_cases k3 : xa.key = k
  · subst k3
    rw [tokensOf_writeAt r.xa_mint f.xa_ok (f.frame.owner _) c1, tokensOf_mint r.xa_mint r.xa_prog f.xa_ok.len]
    rw [if_pos rfl, if_neg k1, if_neg k2]
    split <;> omega
  rw [if_neg k1, if_neg k2, if_neg k3]
  by_cases k4 : k = XORCA_MINT_ID
  · subst k4
    have hl := f.xm_ok.len
    rw [tokensOf_short (by rw [d1, writeAt_length (by simp; omega)]; omega), tokensOf_short (by omega)]
  · rw [tokensOf_congr (f.frame.owner k)
      (by rw [f.frame.other k (by simp [Ne.symm k1, Ne.symm k2, Ne.symm k3, k4])])]

theorem UnstakeRun.tokens {x : Ctx} {L L' : Ledger} {accs : List Meta} {a : UInt64} {i : UInt8}
    {logs : List Bytes} {u st pw xa xm om v sp tp : Meta} {L1 L3 : Ledger} {w e : UInt64} {ts : Int64}
    {b : UInt8} (hsig : SignersOk x.cr L accs)
    (r : UnstakeRun x L accs a i L' logs u st pw xa xm om v sp tp L1 L3 w e ts b) (m k : Pubkey) :
    tokensOf L' m k + (if xa.key = k then if m = XORCA_MINT_ID then a.toNat else 0 else 0) =
    tokensOf L m k := by
  have f := (r.eff hsig).1
  obtain ⟨w1, a1, a2⟩ := f.xa_data
  obtain ⟨w4, d1, d2⟩ := f.xm_data
  obtain ⟨l, n1, n2⟩ := f.pw_new
  by_cases k1 : xa.key = k
  · subst k1
    rw [tokensOf_amountSet r.xa_mint f.xa_ok (f.owner _ f.pw_ne.2.1.symm) a1,
      tokensOf_mint r.xa_mint r.xa_prog f.xa_ok.len, if_pos rfl]
    split <;> omega
  rw [if_neg k1]
  by_cases kp : k = pw.key
  · subst kp
    rw [tokensOf_foreign (by rw [n1]; exact token_ne_program.symm),
      tokensOf_foreign (by rw [f.pw_fresh]; exact token_ne_system.symm)]
  by_cases ks : k = st.key
  · subst ks
    rw [tokensOf_foreign (by rw [f.owner _ f.st_ne.1, r.st_prog]; exact token_ne_program.symm),
      tokensOf_foreign (by rw [r.st_prog]; exact token_ne_program.symm)]
  by_cases km : k = XORCA_MINT_ID
  · subst km
    have hl := f.xm_ok.len
    rw [tokensOf_short (by rw [d1, writeAt_length (by simp; omega)]; omega), tokensOf_short (by omega)]
  exact tokensOf_congr (f.owner k kp) (f.data k (by simp [kp, ks, Ne.symm k1, km]))

theorem WithdrawRun.tokens {x : Ctx} {L L' : Ledger} {accs : List Meta} {i : UInt8}
    {logs : List Bytes} {u st pw oa v om sp tp : Meta} {L1 L2 : Ledger} {e : UInt64}
    (hsig : SignersOk x.cr L accs)
    (r : WithdrawRun x L accs i L' logs u st pw oa v om sp tp L1 L2 e) (m k : Pubkey) :
    tokensOf L' m k + (if v.key = k then if m = ORCA_MINT_ID then recAmount L pw.key else 0 else 0) =
    tokensOf L m k + (if oa.key = k then if m = ORCA_MINT_ID then recAmount L pw.key else 0 else 0) := by
  have f := (r.eff hsig).1
  obtain ⟨w1, a1, a2⟩ := f.v_data
  obtain ⟨w2, b1, b2⟩ := f.oa_data
  by_cases k1 : v.key = k
  · subst k1
    rw [tokensOf_amountSet r.v_mint f.v_ok (f.owner _ f.pw_ne.2.1.symm) a1,
      tokensOf_mint r.v_mint r.v_prog f.v_ok.len, if_pos rfl, if_neg f.v_ne.symm]
    split <;> omega
  by_cases k2 : oa.key = k
  · subst k2
    rw [tokensOf_writeAt r.oa_mint f.oa_ok (f.owner _ f.pw_ne.1.symm) b1,
      tokensOf_mint r.oa_mint r.oa_prog f.oa_ok.len, if_pos rfl, if_neg k1]
    split <;> omega
  rw [if_neg k1, if_neg k2]
  by_cases kp : k = pw.key
  · subst kp
    rw [tokensOf_foreign (by rw [f.pw_closed]; exact token_ne_system.symm),
      tokensOf_foreign (by rw [r.pw_prog]; exact token_ne_program.symm)]
  by_cases ks : k = st.key
  · subst ks
    rw [tokensOf_foreign (by rw [f.owner _ f.st_ne.1, r.st_prog]; exact token_ne_program.symm),
      tokensOf_foreign (by rw [r.st_prog]; exact token_ne_program.symm)]
  rw [tokensOf_congr (f.owner k kp) (f.data k (by simp [kp, ks, Ne.symm k1, Ne.symm k2]))]

theorem InitEff.tokens {x : Ctx} {L L' : Ledger} {c : Int64} {p au st v : Pubkey} {b vb : UInt8}
    (f : InitEff x L L' c p au st v b vb) (m k : Pubkey) : tokensOf L' m k = tokensOf L m k := by
  obtain ⟨l, n1, n2⟩ := f.st_new
  obtain ⟨l', v1, v2⟩ := f.v_new
  obtain ⟨l'', p1, _⟩ := f.paid
  by_cases ks : k = st
  · subst ks
    rw [tokensOf_foreign (by rw [n1]; exact token_ne_program.symm),
      tokensOf_foreign (by rw [f.st_fresh]; exact token_ne_system.symm)]
  by_cases kv : k = v
  · subst kv
    rw [tokensOf_foreign (L := L) (by rw [f.v_fresh]; exact token_ne_system.symm)]
    unfold tokensOf balance
    rw [v1]
    simp only [(freshToken_fields ORCA_MINT_ID st).2.2.2.1]
    simp
  by_cases kp : k = p
  · subst kp
    exact tokensOf_congr (by rw [p1]) (by rw [p1])
  rw [tokensOf, tokensOf, mintOf, mintOf, balance, balance, f.other k (by simp [ks, kv, kp])]

theorem processSet_run {x : Ctx} {L L' : Ledger} {accs : List Meta} {u : StateUpdateInstruction}
    {logs : List Bytes} (h : processSet x L accs u = .ok (L', logs)) :
    ∃ a st d, SetRun x L accs a st ∧ L' = L.setData st.key d := by
  cases u with
  | UpdateCoolDownPeriod c =>
    obtain ⟨a, st, r, _, h2, _⟩ := processSet_coolDown_run h
    exact ⟨a, st, _, r, h2⟩
  | UpdateUpdateAuthority k =>
    obtain ⟨a, st, r, h2, _⟩ := processSet_authority_run h
    exact ⟨a, st, _, r, h2⟩

theorem SetRun.tokens {x : Ctx} {L : Ledger} {accs : List Meta} {a st : Meta} (r : SetRun x L accs a st)
    (d : Bytes) (m k : Pubkey) : tokensOf (L.setData st.key d) m k = tokensOf L m k := by
  by_cases ks : k = st.key
  · subst ks
    rw [tokensOf_foreign (by rw [Ledger.setData_owner, r.st_prog]; exact token_ne_program.symm),
      tokensOf_foreign (by rw [r.st_prog]; exact token_ne_program.symm)]
  · exact tokensOf_congr (by simp) (by rw [Ledger.setData_other _ _ ks])

end Xorca
