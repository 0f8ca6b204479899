import Verif.Lemmas.IxCodec
import Verif.Lemmas.Stake
import Verif.Lemmas.Unstake
import Verif.Lemmas.Withdraw
import Verif.Lemmas.Set
import Verif.Lemmas.Initialize
/-
From executions to the inversion lemmas of the instructions.
-/
namespace Xorca
open Spec

variable {x : Ctx} {L L' : Ledger} {logs : List Bytes} {rest : List Meta}

theorem Spec.Runs.stake {s v oa xa xm st om tp : Meta} {a : UInt64}
    (h : Runs x L (s :: v :: oa :: xa :: xm :: st :: om :: tp :: rest) (.Stake a) L' logs) :
    ∃ L1 m, StakeRun x L (s :: v :: oa :: xa :: xm :: st :: om :: tp :: rest) a L' logs s v oa xa xm st om tp L1 m := by
  obtain ⟨s', v', oa', xa', xm', st', om', tp', L1, m, r⟩ := processStake_run h.dispatch
  obtain ⟨rest', hr⟩ := r.accs_eq
  simp only [List.cons.injEq] at hr
  obtain ⟨rfl, rfl, rfl, rfl, rfl, rfl, rfl, rfl, rfl⟩ := hr
  exact ⟨L1, m, r⟩

theorem Spec.Runs.unstake {u st pw xa xm om v sp tp : Meta} {a : UInt64} {i : UInt8}
    (h : Runs x L (u :: st :: pw :: xa :: xm :: om :: v :: sp :: tp :: rest) (.Unstake a i) L' logs) :
    ∃ L1 L3 w e ts b, UnstakeRun x L (u :: st :: pw :: xa :: xm :: om :: v :: sp :: tp :: rest) a i L' logs
      u st pw xa xm om v sp tp L1 L3 w e ts b := by
  obtain ⟨u', st', pw', xa', xm', om', v', sp', tp', L1, L3, w, e, ts, b, r⟩ := processUnstake_run h.dispatch
  obtain ⟨rest', hr⟩ := r.accs_eq
  simp only [List.cons.injEq] at hr
  obtain ⟨rfl, rfl, rfl, rfl, rfl, rfl, rfl, rfl, rfl, rfl⟩ := hr
  exact ⟨L1, L3, w, e, ts, b, r⟩

theorem Spec.Runs.withdraw {u st pw oa v om sp tp : Meta} {i : UInt8}
    (h : Runs x L (u :: st :: pw :: oa :: v :: om :: sp :: tp :: rest) (.Withdraw i) L' logs) :
    ∃ L1 L2 e, WithdrawRun x L (u :: st :: pw :: oa :: v :: om :: sp :: tp :: rest) i L' logs
      u st pw oa v om sp tp L1 L2 e := by
  obtain ⟨u', st', pw', oa', v', om', sp', tp', L1, L2, e, r⟩ := processWithdraw_run h.dispatch
  obtain ⟨rest', hr⟩ := r.accs_eq
  simp only [List.cons.injEq] at hr
  obtain ⟨rfl, rfl, rfl, rfl, rfl, rfl, rfl, rfl, rfl⟩ := hr
  exact ⟨L1, L2, e, r⟩

theorem Spec.Runs.init {p au st v xm om sp tp ap : Meta} {c : Int64}
    (h : Runs x L (p :: au :: st :: v :: xm :: om :: sp :: tp :: ap :: rest) (.Initialize c) L' logs) :
    ∃ L1 b vb, InitRun x L (p :: au :: st :: v :: xm :: om :: sp :: tp :: ap :: rest) c L' logs
      p au st v xm om sp tp ap L1 b vb := by
  obtain ⟨p', au', st', v', xm', om', sp', tp', ap', L1, b, vb, r⟩ := processInitialize_run h.dispatch
  obtain ⟨rest', hr⟩ := r.accs_eq
  simp only [List.cons.injEq] at hr
  obtain ⟨rfl, rfl, rfl, rfl, rfl, rfl, rfl, rfl, rfl, rfl⟩ := hr
  exact ⟨L1, b, vb, r⟩

theorem Spec.Runs.set_coolDown {a st : Meta} {c : Int64}
    (h : Runs x L (a :: st :: rest) (.Set (.UpdateCoolDownPeriod c)) L' logs) :
    SetRun x L (a :: st :: rest) a st ∧ 0 ≤ c.toInt ∧
      L' = L.setData st.key (writeAt (L st.key).data 16 (i64le c)) ∧ logs = [] := by
  obtain ⟨a', st', r, h1, h2, h3⟩ := processSet_coolDown_run h.dispatch
  obtain ⟨rest', hr⟩ := r.accs_eq
  simp only [List.cons.injEq] at hr
  obtain ⟨rfl, rfl, rfl⟩ := hr
  exact ⟨r, h1, h2, h3⟩

theorem Spec.Runs.set_authority {a st : Meta} {k : Pubkey}
    (h : Runs x L (a :: st :: rest) (.Set (.UpdateUpdateAuthority k)) L' logs) :
    SetRun x L (a :: st :: rest) a st ∧
      L' = L.setData st.key (writeAt (L st.key).data 24 k.bytes) ∧
      logs = [(Event.UpdateAuthoritySet k (authority L st.key)).serialize] := by
  obtain ⟨a', st', r, h1, h2⟩ := processSet_authority_run h.dispatch
  obtain ⟨rest', hr⟩ := r.accs_eq
  simp only [List.cons.injEq] at hr
  obtain ⟨rfl, rfl, rfl⟩ := hr
  exact ⟨r, h1, h2⟩

/-! ### Readings after an update -/

theorem sameExcept_writeAt {d b : Bytes} {o : Nat} (h : o + b.length ≤ d.length) :
    SameExcept o b.length d (writeAt d o b) := by
  refine ⟨writeAt_length h, ?_⟩
  intro j hj
  simp only [writeAt, List.append_assoc]
  have h1 : (d.take o).length = o := by simp; omega
  rcases hj with hj | hj
  · rw [List.getElem?_append_left (by omega), List.getElem?_take, if_pos hj]
  · rw [List.getElem?_append_right (by omega), h1, List.getElem?_append_right (by omega),
      List.getElem?_drop]
    congr 1; omega

theorem Spec.SameExcept.slice {d d' : Bytes} {o n p m : Nat} (h : SameExcept o n d d')
    (ha : p + m ≤ o ∨ o + n ≤ p) : slice d' p m = Xorca.slice d p m := by
  simp only [Xorca.slice]
  apply List.ext_getElem?
  intro i
  simp only [List.getElem?_take, List.getElem?_drop]
  split
  · exact h.2 _ (by omega)
  · rfl

theorem balance_of_writeAt {k : Pubkey} {w : UInt64} (hl : 72 ≤ (L k).data.length)
    (h : (L' k).data = writeAt (L k).data 64 (u64le w)) : balance L' k = w.toNat := by
  rw [balance, h, readU64_writeAt_same hl]

theorem balance_of_amountSet {d : Bytes} {k : Pubkey} {w : UInt64} (h : AmountSet d (L' k).data w) :
    balance L' k = w.toNat := by rw [balance, h.amount]

theorem supply_of_writeAt {k : Pubkey} {w : UInt64} (hl : 44 ≤ (L k).data.length)
    (h : (L' k).data = writeAt (L k).data 36 (u64le w)) : supply L' k = w.toNat := by
  rw [supply, h, readU64_writeAt_same hl]

theorem escrow_of_writeAt {k : Pubkey} {w : UInt64} (hl : 16 ≤ (L k).data.length)
    (h : (L' k).data = writeAt (L k).data 8 (u64le w)) : escrow L' k = w.toNat := by
  rw [escrow, h, readU64_writeAt_same hl]

end Xorca
