import Verif.Outside
import Verif.Lemmas.Token
/-
The token operations of the program's calls (`Runtime.lean`) are instructions of the full token program
(`Outside.lean`).
-/
namespace Xorca
open Spec

variable {L L' : Ledger} {sg : Pubkey → Bool} {auth : Pubkey}

/-- The account is a multisig of the token program. -/
def IsMultisig (L : Ledger) (k : Pubkey) : Prop :=
  (L k).owner = SPL_TOKEN_PROGRAM_ID ∧ (L k).data.length = TOKEN_MULTISIG_LEN

theorem checkOwner_eq {e : Pubkey} {ms : List Pubkey} (hs : sg auth = true) (hm : ¬ IsMultisig L auth) :
    checkOwner sg L e auth ms = validateOwner L e auth := by
  unfold checkOwner validateOwner
  unfold IsMultisig at hm
  rw [if_neg hm, hs]
  unfold ensure
  rw [if_pos rfl, if_pos hm]

theorem checkDebit_eq {t : TokenAccount} {d : Bytes} {ms : List Pubkey} {n : UInt64} {keep : Bool} (hs : sg auth = true)
    (hm : ¬ IsMultisig L auth) : checkDebit sg L t d auth ms n keep = authorizeDebit L t d auth n keep := by
  unfold checkDebit authorizeDebit
  rw [checkOwner_eq hs hm, checkOwner_eq hs hm]

theorem validateOwner_multisig {e : Pubkey} {u : Unit} (h : validateOwner L e auth = .ok u) : ¬ IsMultisig L auth := by
  unfold validateOwner at h
  simp only [bind_eq_ok, exists_unit, ensure_eq_ok] at h
  exact h.2

theorem transfer_agrees {src dst : Pubkey} {n : UInt64} (hs : sg auth = true)
    (h : splTransfer L src dst auth n = .ok L') : tokTransfer sg L src dst auth [] n none = .ok L' := by
  unfold splTransfer at h
  simp only [bind_eq_ok, exists_unit, ensure_eq_ok] at h
  obtain ⟨⟨o1, o2⟩, s, hs1, t, ht1, h1, h2, h3, ⟨h4, _⟩, sd, h5, h6⟩ := h
  have hm := authorizeDebit_multisig h5
  unfold tokTransfer
  simp only [bind_eq_ok, exists_unit, ensure_eq_ok, needToken, checkDecimals]
  refine ⟨s, ⟨o1, hs1⟩, t, ⟨o2, ht1⟩, h1, h2, h3, trivial, sd, by rw [checkDebit_eq hs hm]; exact h5, ?_⟩
  by_cases hc : src = dst
  · rw [if_pos hc] at h6 ⊢; exact h6
  · rw [if_neg hc] at h6 ⊢
    rw [h4]; exact h6

theorem mintTo_agrees {mint dst : Pubkey} {n : UInt64} (hs : sg auth = true)
    (h : splMintTo L mint dst auth n = .ok L') : tokMintTo sg L mint dst auth [] n none = .ok L' := by
  unfold splMintTo at h
  simp only [bind_eq_ok, exists_unit, ensure_eq_ok] at h
  obtain ⟨⟨o1, o2⟩, t, ht, h1, h2, h3, m, hm, h4, h5, h6⟩ := h
  have hms := validateOwner_multisig h5
  unfold tokMintTo
  simp only [bind_eq_ok, exists_unit, ensure_eq_ok, needToken, needMint, checkDecimals]
  exact ⟨t, ⟨o2, ht⟩, h1, h2, h3, m, ⟨o1, hm⟩, trivial, h4, by rw [checkOwner_eq hs hms]; exact h5, h6⟩

theorem burn_agrees {src mint : Pubkey} {n : UInt64} (hs : sg auth = true)
    (h : splBurn L src mint auth n = .ok L') : tokBurn sg L src mint auth [] n none = .ok L' := by
  unfold splBurn at h
  simp only [bind_eq_ok, exists_unit, ensure_eq_ok] at h
  obtain ⟨⟨o1, o2⟩, s, hs', m, hm, h1, h2, h3, h4, h⟩ := h
  unfold tokBurn
  simp only [bind_eq_ok, exists_unit, ensure_eq_ok, needToken, needMint, checkDecimals]
  refine ⟨s, ⟨o2, hs'⟩, m, ⟨o1, hm⟩, h1, h2, h3, h4, trivial, ?_⟩
  by_cases hc : s.owner = SYSTEM_PROGRAM_ID ∨ s.owner = INCINERATOR_ID
  · rw [if_pos hc] at h
    simp only [bind_eq_ok] at h
    obtain ⟨sd, h5, h6⟩ := h
    refine ⟨sd, ?_, h6⟩
    unfold checkBurn
    rw [if_pos (show burnable s from hc)]; exact h5
  · rw [if_neg hc] at h
    simp only [bind_eq_ok] at h
    obtain ⟨sd, h5, h6⟩ := h
    refine ⟨sd, ?_, h6⟩
    unfold checkBurn
    rw [if_neg (show ¬ burnable s from hc), checkDebit_eq hs (authorizeDebit_multisig h5)]; exact h5

end Xorca
