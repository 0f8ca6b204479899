import Verif.Lemmas.Sealed
import Verif.Lemmas.DemoCalls
/-
The history of the concrete chain is sealed.
-/
namespace Xorca.Demo
open Xorca.Spec

theorem derived_off_curve {k : Pubkey} (h : Derived cr k) : cr.onCurve k = false := by
  by_contra hc
  rw [Bool.not_eq_false] at hc
  rcases h with ⟨b, h⟩ | ⟨u, i, b, h⟩
  · exact onCurve_ne hc h
  · exact onCurve_ne hc h

theorem on_curve : ∀ k ∈ [UO, UX, ORCA_MINT_ID, XORCA_MINT_ID], cr.onCurve k = true := by
  rw [cr_eq]; decide +kernel

theorem blank0 {k : Pubkey} (hk : Derived cr k) : Blank (L0 k) := by
  have hoff := derived_off_curve hk
  unfold L0 ledgerOf
  split
  · next e he =>
    have h1 := List.mem_of_find?_eq_some he
    have h2 := List.find?_some he
    simp only [decide_eq_true_eq] at h2
    rw [← h2] at hoff
    have key : ∀ e ∈ [
      (DEPLOYER_ADDRESS, (⟨1000000000, SYSTEM_PROGRAM_ID, []⟩ : Account)),
      (US, ⟨1000000000, SYSTEM_PROGRAM_ID, []⟩),
      (AU, ⟨1000000000, SYSTEM_PROGRAM_ID, []⟩),
      (ORCA_MINT_ID, ⟨1461600, SPL_TOKEN_PROGRAM_ID, mintData US 100000000⟩),
      (XORCA_MINT_ID, ⟨1461600, SPL_TOKEN_PROGRAM_ID, mintData ST 0⟩),
      (UO, ⟨2039280, SPL_TOKEN_PROGRAM_ID, tokenData ORCA_MINT_ID US 10000000⟩),
      (UX, ⟨2039280, SPL_TOKEN_PROGRAM_ID, tokenData XORCA_MINT_ID US 0⟩)],
      Blank e.2 ∨ e.1 ∈ [UO, UX, ORCA_MINT_ID, XORCA_MINT_ID] := by decide +kernel
    rcases key e h1 with h | h
    · exact h
    · rw [on_curve _ h] at hoff; cases hoff
  · exact ⟨rfl, rfl⟩

theorem blank3 {k : Pubkey} (hb : Blank (L2 k)) : Blank (L3 k) := by
  have f := (splTransfer_eff (by decide +kernel) transfer3).frame
  have : L3 k = L2 k := f.other k (by
    intro hm
    have ho : ∀ k ∈ [UO, VA], (L2 k).owner = SPL_TOKEN_PROGRAM_ID := by decide +kernel
    exact token_ne_system ((ho k hm).symm.trans hb.1))
  rw [this]; exact hb

theorem sealed0 : SealedHist cr [] L0 :=
  ⟨L0, genesis, fun _ => blank0, .nil, by intro e he; cases he⟩

theorem sealed_call {h : List Entry} {L L' : Ledger} {x : Ctx} {accs : List Meta} {ix : Instruction}
    {logs : List Bytes} (hh : SealedHist cr h L) (hx : x.cr = cr) (hr : ∀ n, x.rentMin n ≠ 0)
    (hs : SignersOk cr L accs) (r : Runs x L accs ix L' logs) :
    SealedHist cr (⟨L, .call x accs ix logs, L'⟩ :: h) L' := by
  obtain ⟨G, g, b, p, k⟩ := hh
  refine ⟨G, g, b, .step p (.call hx hr hs r), ?_⟩
  intro e he hl
  rcases List.mem_cons.1 he with rfl | he
  · cases hl
  · exact k e he hl

theorem sealed_env {h : List Entry} {L L' : Ledger} (hh : SealedHist cr h L) (he : EnvStep cr L L')
    (hb : ∀ k, Blank (L k) → Blank (L' k)) : SealedHist cr (⟨L, .env, L'⟩ :: h) L' := by
  obtain ⟨G, g, b, p, k⟩ := hh
  refine ⟨G, g, b, .step p (.env he), ?_⟩
  intro e he hl
  rcases List.mem_cons.1 he with rfl | he
  · exact fun q _ => hb q
  · exact k e he hl

theorem sealed1 : SealedHist cr [e1] L1 := sealed_call sealed0 rfl rent_ne signers1 run1
theorem sealed2 : SealedHist cr [e2, e1] L2 := sealed_call sealed1 rfl rent_ne signers2 run2
theorem sealed3 : SealedHist cr [e3, e2, e1] L3 := sealed_env sealed2 env3 (fun _ => blank3)
theorem sealed4 : SealedHist cr [e4, e3, e2, e1] L4 := sealed_call sealed3 rfl rent_ne signers4 run4
theorem sealed5 : SealedHist cr [e5, e4, e3, e2, e1] L5 := sealed_call sealed4 rfl rent_ne signers5 run5
theorem sealed6 : SealedHist cr [e6, e5, e4, e3, e2, e1] L6 := sealed_call sealed5 rfl rent_ne signers6 run6
theorem sealed7 : SealedHist cr [e7, e6, e5, e4, e3, e2, e1] L7 := sealed_call sealed6 rfl rent_ne signers7 run7
theorem sealed8 : SealedHist cr [e8, e7, e6, e5, e4, e3, e2, e1] L8 := sealed_call sealed7 rfl rent_ne signers8 run8

end Xorca.Demo
