import Verif.Lemmas.DemoSchedule
import Verif.Lemmas.RoundTripsAux
/-
Lemmas for C117: calls that are sent twice.
-/
namespace Xorca
open Spec

theorem writeAt_again {d b : Bytes} {o : Nat} (h : o + b.length ≤ d.length) : writeAt (writeAt d o b) o b = writeAt d o b := by
  have h1 : (d.take o).length = o := by simp; omega
  have h2 : (d.take o ++ b).length = o + b.length := by rw [List.length_append, h1]
  have h3 : writeAt d o b = d.take o ++ b ++ d.drop (o + b.length) := rfl
  have h4 : (writeAt d o b).take o = d.take o := by rw [h3, List.append_assoc, List.take_left' h1]
  have h5 : (writeAt d o b).drop (o + b.length) = d.drop (o + b.length) := by rw [h3, List.drop_left' h2]
  rw [writeAt, h4, h5, h3]

theorem setData_again {L : Ledger} {k : Pubkey} {o : Nat} {b : Bytes} (h : o + b.length ≤ (L k).data.length) :
    (L.setData k (writeAt (L k).data o b)).setData k
      (writeAt ((L.setData k (writeAt (L k).data o b)) k).data o b) = L.setData k (writeAt (L k).data o b) := by
  funext j
  by_cases hj : j = k
  · subst hj
    rw [Ledger.setData_same, Ledger.setData_same]
    simp only
    rw [writeAt_again h]
  · rw [Ledger.setData_other _ _ hj]

/-- The same stake once more, at the price after the first. -/
theorem mint_again {a N S m : Nat} (hN : 0 < N) (h1 : m * N ≤ a * S) (h2 : a * S < (m + 1) * N) :
    a * (S + m) / (N + a) ≤ m ∧ m ≤ a * (S + m) / (N + a) + 1 := by
  constructor
  · have : a * (S + m) < (m + 1) * (N + a) := by nlinarith
    exact Nat.lt_succ_iff.1 ((Nat.div_lt_iff_lt_mul (by omega)).2 this)
  · rcases Nat.eq_zero_or_pos m with rfl | hm
    · exact Nat.zero_le _
    obtain ⟨q, rfl⟩ : ∃ q, m = q + 1 := ⟨m - 1, by omega⟩
    have : q ≤ a * (S + (q + 1)) / (N + a) := by
      rw [Nat.le_div_iff_mul_le (by omega)]
      nlinarith
    omega

/-- The same unstake once more. -/
theorem redeem_again {a N S w : Nat} (h1 : w * S ≤ a * N) (h2 : a * N < (w + 1) * S) (ha : 2 * a < S) (hw : w ≤ N) :
    w ≤ a * (N - w) / (S - a) ∧ a * (N - w) / (S - a) ≤ w + 1 := by
  obtain ⟨T, rfl⟩ := Nat.exists_eq_add_of_le (show a ≤ S by omega)
  obtain ⟨M, rfl⟩ := Nat.exists_eq_add_of_le hw
  rw [Nat.add_sub_cancel_left, Nat.add_sub_cancel_left]
  constructor
  · rw [Nat.le_div_iff_mul_le (by omega)]
    nlinarith
  · have : a * M < (w + 2) * T := by nlinarith
    exact Nat.lt_succ_iff.1 ((Nat.div_lt_iff_lt_mul (by omega)).2 this)

namespace Demo

/-- A second stake of the same amount, and a second unstake with another index. -/
def twice : Ledger := after 1003 L4 stakeAccs (0 :: u64le 300000)
def twiceOut : Ledger := after 1105 early (unstakeAccs R0) (1 :: u64le 2000 ++ [0])
/-- The authority hands over to itself. -/
def kept' : Res Outcome := entry (ctx 1005) PROGRAM_ID L6 setAccs (4 :: 1 :: US.bytes)
def kept : Ledger := outLedger kept'
def keptLogs : List Bytes := outLogs kept'

/-- What is used of them, evaluated together. -/
theorem stepsTwice :
    (Sign L4 stakeAccs ∧ isOk (entry (ctx 1003) PROGRAM_ID L4 stakeAccs (0 :: u64le 300000)) = true) ∧
    (Sign early (unstakeAccs R0) ∧
      isOk (entry (ctx 1105) PROGRAM_ID early (unstakeAccs R0) (1 :: u64le 2000 ++ [0])) = true) ∧
    supply L3 XORCA_MINT_ID = 1000000 ∧ supply L4 XORCA_MINT_ID = 1200006 ∧ supply twice XORCA_MINT_ID = 1400012 ∧
    escrow twiceOut ST = escrow early ST + 2999 ∧ isOk kept' = true := by decide +kernel
theorem supplyTwice : supply L3 XORCA_MINT_ID = 1000000 ∧ supply L4 XORCA_MINT_ID = 1200006 ∧
    supply twice XORCA_MINT_ID = 1400012 ∧ escrow twiceOut ST = escrow early ST + 2999 ∧ isOk kept' = true :=
  stepsTwice.2.2

theorem tookTwice : Took cr L4 (.Stake 300000) twice := took stepsTwice.1.1 (by decide +kernel) stepsTwice.1.2
theorem tookTwiceOut : Took cr early (.Unstake 2000 0) twiceOut :=
  took stepsTwice.2.1.1 (by decide +kernel) stepsTwice.2.1.2
theorem runKept : Runs (ctx 1005) L6 setAccs (.Set (.UpdateUpdateAuthority US)) kept keptLogs :=
  ⟨_, by decide +kernel, out_eq (r := kept') supplyTwice.2.2.2.2⟩

end Demo
end Xorca
