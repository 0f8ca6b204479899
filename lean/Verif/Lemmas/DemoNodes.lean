import Verif.Lemmas.DemoClient
/-
One more step of the concrete chain: a withdrawal request with index 200.
-/
namespace Xorca.Demo
open Xorca.Spec

/-- The user unstakes 500 more with index 200. -/
def n9 : Res Outcome := entry (ctx 1007) PROGRAM_ID L8 (unstakeAccs R200) (1 :: u64le 500 ++ [200])
def N9 : Ledger := outLedger n9

theorem runN9 : Runs (ctx 1007) L8 (unstakeAccs R200) (.Unstake 500 200) N9 (outLogs n9) :=
  ⟨_, by decide +kernel, out_eq (r := n9) (by decide +kernel)⟩
theorem signersN9 : SignersOk cr L8 (unstakeAccs R200) := signersOk (by decide +kernel)
theorem reachN9 : Reachable cr N9 := ⟨_, hist_call hist8 signersN9 runN9⟩

theorem record200 : IsRecord N9 R200 ∧ recOwner N9 R200 = US ∧ recIndex N9 R200 = 200 ∧ 0 < recAmount N9 R200 := by
  unfold IsRecord; decide +kernel
theorem recordN0 : IsRecord N9 R0 ∧ recOwner N9 R0 = US ∧ recIndex N9 R0 = 0 := by
  unfold IsRecord; decide +kernel

theorem unusedN9 {k : Pubkey} (hk : k ∉ used) (h2 : k ≠ R200) : N9 k = ⟨0, SYSTEM_PROGRAM_ID, []⟩ := by
  rw [C34_bystanders_untouched runN9 signersN9 fun m hm hw he => ?_, unused8 hk]
  have := (by decide +kernel : ∀ m ∈ unstakeAccs R200, m.isWritable = true → m.key ∈ R200 :: used) m hm hw
  rw [he] at this
  rcases List.mem_cons.1 this with h | h
  · exact h2 h
  · exact hk h

/-- Whatever is decoded at an address below index 200 has index 0. -/
theorem searchedN9 {i : Nat} (hi : i < 200) {k : Pubkey} {b : UInt8} (ha : RecordAddr cr US (UInt8.ofNat i) k b)
    {p : PendingWithdraw} (hp : PendingWithdraw.deserialize (N9 k).data = some p) : k = R0 := by
  obtain ⟨k', b', h1, h2⟩ := addresses200 (i := i) (by omega)
  obtain ⟨rfl, -⟩ := recordAddr_unique ha h1
  rcases h2 with ⟨-, h3⟩ | ⟨h2, h3⟩
  · exact h3
  · exfalso
    rw [unusedN9 h2 (fun h => by have := h3.2 h; omega), PendingWithdraw.deserialize_eq, if_neg (by decide)] at hp
    cases hp

/-- Without a limit both clients can list the user's withdrawals with every bound. -/
theorem rust_listsN (max : Option UInt8) : ∃ l, Client.fetchPendingWithdraws cr N9 US max = some l := by
  rw [fetchPending_isSome]
  intro i hi
  have h255 : (max.getD 15).toNat ≤ 255 := by have := (max.getD 15).toNat_lt; omega
  obtain ⟨k, b, h1, h2⟩ := addresses200 (i := i) (by omega)
  refine ⟨k, b, h1, ?_⟩
  rcases h2 with ⟨-, rfl⟩ | ⟨h2, -⟩
  · exact Or.inr (IsRecord.deserialize recordN0.1)
  · by_cases hk : k = R200
    · exact Or.inr (hk ▸ IsRecord.deserialize record200.1)
    · left; rw [unusedN9 h2 hk]

theorem js_listsN {max : Option Int} (h0 : 0 ≤ max.getD 15) (h255 : max.getD 15 ≤ 255) :
    ∃ l, Client.jsFetchPendingWithdraws cr N9 US max = some l := by
  rw [jsFetchPending_isSome]
  refine ⟨h0, h255, fun i hi => ?_⟩
  obtain ⟨k, b, h1, -⟩ := addresses (i := i) (by omega)
  exact ⟨k, b, h1⟩

end Xorca.Demo
