import Verif.Lemmas.Demo
import Verif.Lemmas.Search
import Verif.Lemmas.Client
import Verif.Props.Conservation
/-
What the clients see on the concrete chain.
-/
namespace Xorca.Demo
open Xorca.Spec

/-- A call that lists only used accounts as writable leaves the others alone. -/
theorem frame_call {x : Ctx} {L L' : Ledger} {accs : List Meta} {ix : Instruction} {logs : List Bytes}
    (hr : Runs x L accs ix L' logs) (hs : SignersOk x.cr L accs)
    (hu : ∀ m ∈ accs, m.isWritable = true → m.key ∈ used) {k : Pubkey} (hk : k ∉ used) : L' k = L k :=
  C34_bystanders_untouched hr hs fun m hm hw he => hk (he ▸ hu m hm hw)

/-- No other account exists after the eighth step. -/
theorem unused8 {k : Pubkey} (hk : k ∉ used) : L8 k = ⟨0, SYSTEM_PROGRAM_ID, []⟩ := by
  rw [frame_call run8 signers8 (by decide +kernel) hk, frame_call run7 signers7 (by decide +kernel) hk,
    frame_call run6 signers6 (by decide +kernel) hk, frame_call run5 signers5 (by decide +kernel) hk,
    frame_call run4 signers4 (by decide +kernel) hk,
    (splTransfer_eff (by decide +kernel) transfer3).frame.other k (by
      intro h
      exact hk ((by decide +kernel : ∀ k ∈ [UO, VA], k ∈ used) k h)),
    frame_call run2 signers2 (by decide +kernel) hk, frame_call run1 signers1 (by decide +kernel) hk]
  unfold L0 ledgerOf
  split
  · next e he =>
    exfalso
    have h1 := List.mem_of_find?_eq_some he
    have h2 := List.find?_some he
    simp only [decide_eq_true_eq] at h2
    exact hk (h2 ▸ (by decide +kernel : ∀ e ∈ [
      (DEPLOYER_ADDRESS, (⟨1000000000, SYSTEM_PROGRAM_ID, []⟩ : Account)),
      (US, ⟨1000000000, SYSTEM_PROGRAM_ID, []⟩),
      (AU, ⟨1000000000, SYSTEM_PROGRAM_ID, []⟩),
      (ORCA_MINT_ID, ⟨1461600, SPL_TOKEN_PROGRAM_ID, mintData US 100000000⟩),
      (XORCA_MINT_ID, ⟨1461600, SPL_TOKEN_PROGRAM_ID, mintData ST 0⟩),
      (UO, ⟨2039280, SPL_TOKEN_PROGRAM_ID, tokenData ORCA_MINT_ID US 10000000⟩),
      (UX, ⟨2039280, SPL_TOKEN_PROGRAM_ID, tokenData XORCA_MINT_ID US 0⟩)], e.1 ∈ used) e h1)
  · rfl

theorem addresses200 {i : Nat} (hi : i < 255) :
    ∃ k b, RecordAddr cr US (UInt8.ofNat i) k b ∧ ((i = 0 ∧ k = R0) ∨ (k ∉ used ∧ (i = 200 ↔ k = R200))) := by
  obtain ⟨k, b, h1, h2⟩ := search_spec hi
  refine ⟨k, b, ?_, h2⟩
  unfold RecordAddr
  rw [cr_eq]
  exact h1

/-- The record addresses of the user below index 255: that of index 0 and unused accounts. -/
theorem addresses {i : Nat} (hi : i < 255) :
    ∃ k b, RecordAddr cr US (UInt8.ofNat i) k b ∧ ((i = 0 ∧ k = R0) ∨ k ∉ used) := by
  obtain ⟨k, b, h1, h2⟩ := addresses200 hi
  exact ⟨k, b, h1, h2.imp_right And.left⟩

/-- The user has an open record with index 255. -/
theorem record255 : IsRecord L8 R255 ∧ recOwner L8 R255 = US ∧ recIndex L8 R255 = 255 ∧
    (L8 R255).lamports ≠ 0 := by
  unfold IsRecord; decide +kernel

theorem record0 : IsRecord L8 R0 ∧ recOwner L8 R0 = US ∧ recIndex L8 R0 = 0 ∧ (L8 R0).lamports ≠ 0 := by
  unfold IsRecord; decide +kernel

/-- Whatever is decoded at a searched address does not have index 255. -/
theorem searched8 {i : Nat} (hi : i < 255) {k : Pubkey} {b : UInt8} (ha : RecordAddr cr US (UInt8.ofNat i) k b)
    {p : PendingWithdraw} (hp : PendingWithdraw.deserialize (L8 k).data = some p) : k = R0 ∧ i = 0 := by
  obtain ⟨k', b', h1, h2⟩ := addresses hi
  obtain ⟨rfl, -⟩ := recordAddr_unique ha h1
  rcases h2 with ⟨h2, h3⟩ | h2
  · exact ⟨h3, h2⟩
  · exfalso
    rw [unused8 h2, PendingWithdraw.deserialize_eq, if_neg (by decide)] at hp
    cases hp

/-- Both clients can list the user's withdrawals, with every bound. -/
theorem rust_lists (max : Option UInt8) : ∃ l, Client.fetchPendingWithdraws cr L8 US max = some l := by
  rw [fetchPending_isSome]
  intro i hi
  have h255 : (max.getD 15).toNat ≤ 255 := by have := (max.getD 15).toNat_lt; omega
  obtain ⟨k, b, h1, h2⟩ := addresses (i := i) (by omega)
  refine ⟨k, b, h1, ?_⟩
  rcases h2 with ⟨-, rfl⟩ | h2
  · exact Or.inr (IsRecord.deserialize record0.1)
  · left; rw [unused8 h2]

theorem js_lists {max : Option Int} (h0 : 0 ≤ max.getD 15) (h255 : max.getD 15 ≤ 255) :
    ∃ l, Client.jsFetchPendingWithdraws cr L8 US max = some l := by
  rw [jsFetchPending_isSome]
  refine ⟨h0, h255, fun i hi => ?_⟩
  obtain ⟨k, b, h1, -⟩ := addresses (i := i) (by omega)
  exact ⟨k, b, h1⟩

end Xorca.Demo
