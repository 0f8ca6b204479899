import Verif.Props.Rent
import Verif.Props.Liveness
import Verif.Props.Effects
import Verif.Props.Accept
import Verif.Lemmas.Replay
/-
Lemmas for `Props/Exit.lean`.
-/
namespace Xorca
open Spec

/-- A path has no payment of `k`, or it has a first one. -/
theorem first_payment {cr : Crypto} {L L' : Ledger} {h : List Entry} (k : Pubkey) (hp : Path cr L h L') :
    (∀ e ∈ h, ∀ u oa i now, ¬ Pays e k u oa i now) ∨
    ∃ h3 e h2 u oa i now, h = h3 ++ e :: h2 ∧ Pays e k u oa i now ∧ ∀ f ∈ h2, ∀ u oa i now, ¬ Pays f k u oa i now := by
  induction hp with
  | nil => exact Or.inl nofun
  | @step h e q ok ih =>
    rcases ih with h1 | ⟨h3, f, h2, u, oa, i, now, rfl, h4, h5⟩
    · by_cases he : ∃ u oa i now, Pays e k u oa i now
      · obtain ⟨u, oa, i, now, he⟩ := he
        exact Or.inr ⟨[], e, h, u, oa, i, now, rfl, he, h1⟩
      · refine Or.inl fun f hf => ?_
        rcases List.mem_cons.1 hf with rfl | hf
        · exact fun u oa i now hp => he ⟨u, oa, i, now, hp⟩
        · exact h1 f hf
    · exact Or.inr ⟨e :: h3, f, h2, u, oa, i, now, rfl, h4, h5⟩

end Xorca
