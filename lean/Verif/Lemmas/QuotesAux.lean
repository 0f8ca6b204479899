import Verif.Lemmas.DemoClient
import Verif.Lemmas.DemoCalls
import Verif.Lemmas.EnvOk
import Verif.Props.Liveness
import Verif.Props.Effects
import Verif.Props.Histories
import Verif.Props.Client
/-
Lemmas for `Props/Quotes.lean`.
-/
namespace Xorca
open Spec

variable {cr : Crypto} {x : Ctx} {L L' : Ledger} {accs rest : List Meta} {logs : List Bytes}

/-- A higher price mints less. -/
theorem mintFor_anti {a n s n' s' : Nat} (hs : s ≤ n) (hs' : s' ≤ n')
    (h : (n + 100) * (s' + 100) ≤ (n' + 100) * (s + 100)) (h0 : s' = 0 → n' = 0) :
    mintFor a n' s' ≤ mintFor a n s := by
  by_cases h1 : s = 0
  · have : mintFor a n s = a := by unfold mintFor; rw [if_pos (Or.inl h1)]
    rw [this]; exact mintFor_le hs'
  · by_cases h2 : s' = 0
    · have h3 := h0 h2
      subst h2; subst h3
      have : n = s := by omega
      subst this
      unfold mintFor
      rw [if_pos (Or.inl rfl), if_neg (by omega), Nat.mul_div_cancel _ (by omega)]
    · have h3 := mintFor_mul_le (a := a) (n := n') h2 (by omega)
      unfold mintFor at h3 ⊢
      rw [if_neg (by omega)] at h3
      rw [if_neg (by omega), if_neg (by omega), Nat.le_div_iff_mul_le (by omega)]
      refine Nat.le_of_mul_le_mul_right (c := n' + 100) ?_ (by omega)
      calc a * (s' + 100) / (n' + 100) * (n + 100) * (n' + 100)
          = (a * (s' + 100) / (n' + 100) * (n' + 100)) * (n + 100) := by ring
        _ ≤ (a * (s' + 100)) * (n + 100) := Nat.mul_le_mul_right _ h3
        _ = a * ((n + 100) * (s' + 100)) := by ring
        _ ≤ a * ((n' + 100) * (s + 100)) := Nat.mul_le_mul_left _ h
        _ = a * (s + 100) * (n' + 100) := by ring

theorem jsFetch_congr {L1 : Ledger} {u : Pubkey} {max : Option Int}
    (h : ∀ k, ((L1 k).lamports ≠ 0 ∧ (L k).lamports ≠ 0 ∧ (L1 k).data = (L k).data) ∨
      (((L1 k).lamports = 0 ∨ PendingWithdraw.deserialize (L1 k).data = none) ∧
       ((L k).lamports = 0 ∨ PendingWithdraw.deserialize (L k).data = none))) :
    Client.jsFetchPendingWithdraws cr L1 u max = Client.jsFetchPendingWithdraws cr L u max := by
  unfold Client.jsFetchPendingWithdraws
  have key : ∀ l : List Pubkey,
      ((l.filterMap (Client.getAccount L1)).map fun a => PendingWithdraw.deserialize a.data).filterMap id =
      ((l.filterMap (Client.getAccount L)).map fun a => PendingWithdraw.deserialize a.data).filterMap id := by
    intro l
    rw [List.filterMap_map, List.filterMap_map, List.filterMap_filterMap, List.filterMap_filterMap]
    congr 1
    funext k
    unfold Client.getAccount
    rcases h k with ⟨h1, h2, h3⟩ | ⟨h1, h2⟩
    · rw [if_neg h1, if_neg h2]
      simp [h3]
    · have none_of : ∀ M : Ledger, ((M k).lamports = 0 ∨ PendingWithdraw.deserialize (M k).data = none) →
          ((if (M k).lamports = 0 then none else some (M k)).bind
            (id ∘ fun a => PendingWithdraw.deserialize a.data)) = none := by
        intro M hM
        split
        · rfl
        · next h0 => simpa using hM.resolve_left h0
      rw [none_of L1 h1, none_of L h2]
  simp only [key]

end Xorca
