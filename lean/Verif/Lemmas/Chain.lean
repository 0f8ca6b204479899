import Verif.Chain
import Verif.Lemmas.World
/-
A sequence of transactions is a sequence of steps.
-/
namespace Xorca
open Spec

variable {cr : Crypto} {L L' M : Ledger} {h h' : List Entry} {t : Tx} {ts : List Tx}

theorem fee_outside (hp : t.Payable) : Outside cr t.pre t.charged := by
  refine .program (sg := fun _ => false) (p := SYSTEM_PROGRAM_ID) (by decide) (by decide) (fun _ _ _ => rfl) ?_
  intro k
  by_cases hk : k = t.payer
  · subst hk
    exact ⟨fun h => absurd hp.1 h, fun _ => .inl (by simp [Tx.charged, hp.1])⟩
  · have e : t.charged k = t.pre k := Ledger.setLamports_other _ _ hk
    rw [e]
    exact ⟨fun _ => ⟨rfl, rfl, Nat.le_refl _⟩, fun h => .inl h⟩

theorem Spec.World.trans (h1 : World cr L h M) (h2 : World cr M h' L') : World cr L (h' ++ h) L' := by
  induction h2 with
  | nil => exact h1
  | step _ hr ih => exact .step ih hr

theorem Spec.Tx.Runs.world (r : t.Runs cr L') : World cr t.pre t.entries L' := by
  have fee : t.Payable → World cr t.pre [⟨t.pre, .env, t.charged⟩] t.charged := fun hp =>
    .step (e := ⟨t.pre, .env, t.charged⟩) .nil (.out (fee_outside hp))
  cases r with
  | commit hc hp hw =>
    rw [Tx.entries, if_pos hc]
    exact (fee hp).trans hw
  | abort hc hp _ =>
    rw [Tx.entries, if_neg (by rw [hc]; decide)]
    exact fee hp

theorem Spec.Chain.world (c : Chain cr L ts L') : World cr L (stepsOf ts) L' := by
  induction c with
  | nil => exact .nil
  | step _ r ih => exact ih.trans r.world

end Xorca
