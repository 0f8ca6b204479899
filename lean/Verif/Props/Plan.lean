import Verif.Lemmas.PlanAux
/-
C115: what can be planned with the figures of the pool can be done with the program, and nothing else.
-/
namespace Xorca
open Spec

/-- There is a ledger, reached by real steps, from which every plan is carried out step by step, by exactly the calls of
the plan; and at each point the program accepts precisely the calls by which the plan can go on. -/
theorem C115_plans_are_exact : ∃ g G, World Real.crypto Demo.Z0 g G ∧ ∀ acts V e, Plan acts V e →
    ∃ h L, World Real.crypto G h L ∧ List.Forall₂ Does h acts ∧ view L Demo.ST Demo.VA = V ∧ escrow L Demo.ST = e ∧
      ∀ act t accs ix, act.call = some (t, accs, ix) → NoClash V act →
        (Succeeds (Demo.ctx t) L accs ix ↔ ∃ V' e', Plan (act :: acts) V' e') := by
  rw [← Demo.cr_eq]
  obtain ⟨g, G, hg, h0⟩ := Demo.opened
  refine ⟨g, G, hg, fun acts V e hp => ?_⟩
  obtain ⟨h, L, l, w1, w2, hd, hh⟩ := Demo.carried hg h0 hp
  exact ⟨h, L, w2, hd, hh.view, hh.escrow, fun act t accs ix hc hcl =>
    Demo.accepts hh ⟨_, _, Demo.genesisZ, (world_path Demo.steadyZ w1).1⟩ hp hc hcl⟩

/-- The first staker stakes one unit and sends a million to the vault. -/
theorem attack_begins : Plan [.gift 1000000, .stake 1001 1] ⟨1, 1000001, 100, Demo.US, fun _ => none⟩ 0 :=
  .gift (d := 1000000) (.stake (t := 1001) (a := 1) .start (by decide) (by decide)) (by decide)

/-- Then they take their unit out again and get 9901 of the million. -/
theorem attack_ends : ∃ V, Plan [.withdraw 1105 255 Demo.R255, .unstake 1004 1 255 Demo.R255, .gift 1000000, .stake 1001 1]
    V 0 ∧ V.supply = 0 ∧ V.backing = 990100 := by
  have p3 := Plan.unstake (t := 1004) (a := 1) attack_begins (by rw [← Demo.cr_eq]; exact Demo.r255_addr)
    (by decide +kernel) rfl (by decide) (by decide) (by decide) (by decide)
  have p4 := Plan.withdraw (t := 1105) (i := 255) p3 (if_pos rfl) rfl (by decide)
  exact ⟨_, p4, by decide, by decide⟩

/-- So all this happens in real histories: the attack, which loses 990100 of 1000001, and in the middle of it the refusal
of a stake of 9901, but not of 9902. -/
example : ∃ g G, World Real.crypto Demo.Z0 g G ∧
    (∃ h L, World Real.crypto G h L ∧ supply L XORCA_MINT_ID = 0 ∧ backing L Demo.VA Demo.ST = 990100 ∧
      escrow L Demo.ST = 0) ∧
    ∃ h L, World Real.crypto G h L ∧ ¬ Succeeds (Demo.ctx 1002) L Demo.stakeAccs (.Stake 9901) ∧
      Succeeds (Demo.ctx 1002) L Demo.stakeAccs (.Stake 9902) := by
  obtain ⟨g, G, hg, key⟩ := C115_plans_are_exact
  refine ⟨g, G, hg, ?_, ?_⟩
  · obtain ⟨V, hp, h1, h2⟩ := attack_ends
    obtain ⟨h, L, hw, -, rfl, he, -⟩ := key _ _ _ hp
    exact ⟨h, L, hw, h1, h2, he⟩
  · obtain ⟨h, L, hw, -, -, -, hx⟩ := key _ _ _ attack_begins
    refine ⟨h, L, hw, ?_, ?_⟩
    · rw [hx (.stake 1002 9901) _ _ _ rfl trivial]
      rintro ⟨V', e', hp⟩
      cases hp with
      | stake q hm _ =>
        obtain ⟨rfl, rfl⟩ := Demo.plan_unique attack_begins q
        revert hm
        decide
    · rw [hx (.stake 1002 9902) _ _ _ rfl trivial]
      exact ⟨_, _, .stake attack_begins (by decide) (by decide)⟩

end Xorca
