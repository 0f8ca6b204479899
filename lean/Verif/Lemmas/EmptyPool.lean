import Verif.Lemmas.RoundTripsAux
import Verif.Lemmas.Moves
import Verif.Lemmas.Token
import Verif.Outside
import Verif.Calls
/-
Arithmetic of a pool that has lost all its xORCA, and a burn that needs no signature.
-/
namespace Xorca
open Spec

/-- Who owns all xORCA of a pool in which nobody had any before. -/
theorem redeem_after_empty (x n : Nat) : redeemFor x (n + x) x = x + x * n / (x + 100) := by
  unfold redeemFor
  rw [show x * (n + x + 100) = x * n + x * (x + 100) by ring, Nat.add_mul_div_right _ _ (by omega), Nat.add_comm]

/-- A stake of a hundred times the residue takes all of it but one unit. -/
theorem residue_taken {x n : Nat} (h : 100 * n ≤ x) : n ≤ x * n / (x + 100) + 1 := by
  have h1 : x * n < (x + 100) * (x * n / (x + 100) + 1) := Nat.lt_mul_div_succ _ (by omega)
  by_contra hc
  have h2 : x * n / (x + 100) + 2 ≤ n := by omega
  have h3 : (x + 100) * (x * n / (x + 100) + 2) ≤ (x + 100) * n := Nat.mul_le_mul_left _ h2
  have h4 : (x + 100) * n = x * n + 100 * n := by ring
  have h5 : (x + 100) * (x * n / (x + 100) + 2) = (x + 100) * (x * n / (x + 100) + 1) + (x + 100) := by ring
  omega

/-- What stays when all xORCA is redeemed at once. -/
theorem residue_bounds {n s r : Nat} (hr : redeemFor s n s + r = n) :
    100 * n ≤ 100 * s + r * (s + 100) ∧ r * (s + 100) + 100 * s < 100 * n + (s + 100) := by
  unfold redeemFor at hr
  have h1 := Nat.div_mul_le_self (s * (n + 100)) (s + 100)
  have h2 : s * (n + 100) < (s + 100) * (s * (n + 100) / (s + 100) + 1) := Nat.lt_mul_div_succ _ (by omega)
  generalize s * (n + 100) / (s + 100) = q at *
  have e1 : n * (s + 100) = q * (s + 100) + r * (s + 100) := by rw [← hr]; ring
  have e2 : n * (s + 100) = s * n + 100 * n := by ring
  have e3 : s * (n + 100) = s * n + 100 * s := by ring
  have e4 : (s + 100) * (q + 1) = q * (s + 100) + (s + 100) := by ring
  omega

/-- A stake that buys nothing. -/
theorem mintFor_zero {a n s : Nat} (h : mintFor a n s = 0) : a * (s + 100) < n + 100 := by
  unfold mintFor at h
  split at h
  · subst h; omega
  · rcases Nat.div_eq_zero_iff.1 h with h | h <;> omega

/-- The price of a ledger in which a stake of `a` buys nothing, carried to a later one. -/
theorem refused_later {a n s n' s' : Nat} (h : a * (s + 100) < n + 100)
    (hp : (n + 100) * (s' + 100) ≤ (n' + 100) * (s + 100)) : a * (s' + 100) < n' + 100 := by
  have h1 : a * (s + 100) * (s' + 100) < (n + 100) * (s' + 100) := Nat.mul_lt_mul_of_pos_right h (by omega)
  refine Nat.lt_of_mul_lt_mul_right (a := s + 100) ?_
  calc a * (s' + 100) * (s + 100) = a * (s + 100) * (s' + 100) := by ring
    _ < (n + 100) * (s' + 100) := h1
    _ ≤ (n' + 100) * (s + 100) := hp

/-- A burn from an account of the incinerator needs no authority. -/
theorem tokBurn_incinerated {sg : Pubkey → Bool} {L : Ledger} {t mint auth : Pubkey} {ms : List Pubkey} {n : UInt64}
    (ht : TokenOk L t mint INCINERATOR_ID) (um : MintUsable (L mint)) (hn : n.toNat ≤ balance L t)
    (hs : n.toNat ≤ supply L mint) :
    ∃ L', tokBurn sg L t mint auth ms n none = .ok L' ∧ supply L' mint = supply L mint - n.toNat ∧
      balance L' t = balance L t - n.toNat ∧ ∀ k, k ≠ t → k ≠ mint → L' k = L k := by
  have us : TokUsable (L t) := ⟨ht.prog, ht.len, ht.state, ht.native, ht.delegate, ht.close⟩
  have hne : t ≠ mint := by
    rintro rfl; have := us.len; rw [um.len] at this; omega
  obtain ⟨ta, hta⟩ : ∃ ta, checkedSubU64 (readU64 (L mint).data 36) n = some ta := by
    unfold checkedSubU64; exact ⟨_, if_pos hs⟩
  obtain ⟨sa, hsa⟩ : ∃ sa, checkedSubU64 (readU64 (L t).data 64) n = some sa := by
    unfold checkedSubU64; exact ⟨_, if_pos hn⟩
  refine ⟨(L.setData t (writeAt (L t).data TA_AMOUNT (u64le sa))).setData mint
      (writeAt (L mint).data MINT_SUPPLY (u64le ta)), ?_, ?_, ?_, ?_⟩
  · unfold tokBurn
    simp only [bind_eq_ok, exists_unit, ensure_eq_ok, needToken, needMint, checkDecimals, okOr_eq_ok, Except.ok.injEq]
    refine ⟨_, ⟨us.owner, us.unpack⟩, _, ⟨um.owner, um.unpack⟩, by simp [tokenAccountAt], us.native, hn, ht.mint,
      trivial, _, ?_, sa, hsa, ta, hta, rfl⟩
    unfold checkBurn
    rw [if_pos (show burnable _ from Or.inr ht.owner)]
  · have e := checkedSubU64_eq_some.1 hta
    rw [supply, Ledger.setData_same, MINT_SUPPLY, readU64_writeAt_same (by rw [um.len]; omega), supply]
    omega
  · have e := checkedSubU64_eq_some.1 hsa
    rw [balance, Ledger.setData_other _ _ hne, Ledger.setData_same, TA_AMOUNT,
      readU64_writeAt_same (by rw [us.len]; omega), balance]
    omega
  · intro k h1 h2
    rw [Ledger.setData_other _ _ h2, Ledger.setData_other _ _ h1]

end Xorca
