import Verif.Lemmas.Sums
import Verif.Lemmas.EnvOk
/-
The books of xORCA: transfers and burns of the SPL token program keep them in order.
-/
namespace Xorca
open Spec

variable {L L' : Ledger}

theorem Spec.Accounted.of {A : Finset Pubkey} (h : Accounted L)
    (hk : ∀ S, A ⊆ S → totalTokens L' XORCA_MINT_ID S + supply L XORCA_MINT_ID ≤
      totalTokens L XORCA_MINT_ID S + supply L' XORCA_MINT_ID) : Accounted L' := by
  intro S
  have h1 := hk (S ∪ A) Finset.subset_union_right
  have h2 := h (S ∪ A)
  have h3 : totalTokens L' XORCA_MINT_ID S ≤ totalTokens L' XORCA_MINT_ID (S ∪ A) :=
    Finset.sum_le_sum_of_subset Finset.subset_union_left
  omega

theorem TransferEff.tokens {src dst auth : Pubkey} {n : UInt64} (hne : src ≠ dst) (e : TransferEff L L' src dst auth n)
    (m k : Pubkey) :
    tokensOf L' m k + (if src = k then if m = mintOf L src then n.toNat else 0 else 0) =
    tokensOf L m k + (if dst = k then if m = mintOf L src then n.toNat else 0 else 0) := by
  obtain ⟨w1, a1, a2⟩ := e.debit
  obtain ⟨w2, b1, b2⟩ := e.credit
  change _ = balance L src at a2
  change w2.toNat = balance L dst + _ at b2
  by_cases k1 : src = k
  · subst k1
    rw [tokensOf_amountSet rfl e.src_ok (e.frame.owner _) a1, tokensOf_mint rfl e.src_ok.owner e.src_ok.len,
      if_pos rfl, if_neg (Ne.symm hne)]
    split <;> omega
  rw [if_neg k1]
  by_cases k2 : dst = k
  · subst k2
    rw [tokensOf_writeAt (m' := mintOf L src) e.mint.symm e.dst_ok (e.frame.owner _) b1,
      tokensOf_mint (m' := mintOf L src) e.mint.symm e.dst_ok.owner e.dst_ok.len, if_pos rfl]
    split <;> omega
  rw [if_neg k2, tokensOf_congr (e.frame.owner k) (by rw [e.frame.other k (by simp [Ne.symm k1, Ne.symm k2])])]

theorem books_transfer {src dst auth : Pubkey} {n : UInt64} (h : splTransfer L src dst auth n = .ok L')
    (hs : MintShape (L XORCA_MINT_ID)) (ha : Accounted L) : Accounted L' := by
  by_cases hne : src = dst
  · subst hne
    unfold splTransfer at h
    simp only [bind_eq_ok, exists_unit, ensure_eq_ok, if_true, Except.ok.injEq] at h
    obtain ⟨_, _, _, _, _, _, _, _, _, _, _, rfl⟩ := h
    exact ha
  have e := splTransfer_eff hne h
  have hsup : supply L' XORCA_MINT_ID = supply L XORCA_MINT_ID := by
    apply supply_of_data
    rw [e.frame.other _ (by
      simp only [List.mem_cons, List.not_mem_nil, or_false, not_or]
      exact ⟨(mintShape_ne_token hs e.src_ok).symm, (mintShape_ne_token hs e.dst_ok).symm⟩)]
  refine ha.of (A := {src, dst}) fun S hS => ?_
  have h1 := Finset.sum_congr (s₁ := S) rfl fun k _ => e.tokens hne XORCA_MINT_ID k
  simp only [Finset.sum_add_distrib, Finset.sum_ite_eq, hS (Finset.mem_insert_self src {dst}),
    hS (Finset.mem_insert_of_mem (Finset.mem_singleton_self dst)), if_true] at h1
  unfold totalTokens
  omega

end Xorca
