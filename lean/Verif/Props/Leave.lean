import Verif.Lemmas.LeaveAux
import Verif.Props.Plan
/-
C116: whatever one user has done with the pool, they can take everything out again but for the share of the offset.
-/
namespace Xorca
open Spec

/-- There is a ledger, reached by real steps, such that after every plan the user can go on and take everything out, by
Unstakes and Withdraws in three waves a cool-down apart.  No xORCA, no request and nothing set aside is left, all rent
deposits are back, and of their ORCA less than `100 * (backing - supply) / (supply + 100) + 2` stays in the vault. -/
theorem C116_everything_comes_back : ∃ g G, World Real.crypto Demo.Z0 g G ∧ ∀ acts V e, Plan acts V e →
    ∃ h L, World Real.crypto G h L ∧ List.Forall₂ Does h acts ∧ view L Demo.ST Demo.VA = V ∧ escrow L Demo.ST = e ∧
      ∀ t1 t2 t3 : Int64, (∀ k r, V.requests k = some r → r.due ≤ t1.toInt) → t1.toInt + V.coolDown ≤ t2.toInt →
        t2.toInt + V.coolDown ≤ t3.toInt →
        ∃ m1 m2 m3 h' L', World Real.crypto L h' L' ∧ List.Forall₂ Does h' (m3 ++ m2 ++ m1) ∧
          (∀ m ∈ m1, m.takesOut = some t1) ∧ (∀ m ∈ m2, m.takesOut = some t2) ∧ (∀ m ∈ m3, m.takesOut = some t3) ∧
          supply L' XORCA_MINT_ID = 0 ∧ (∀ k, requestAt L' k = none) ∧ escrow L' Demo.ST = 0 ∧
          (L' Demo.US).lamports = (G Demo.US).lamports ∧
          balance L' Demo.UO + backing L' Demo.VA Demo.ST = balance G Demo.UO ∧
          backing L' Demo.VA Demo.ST * (V.supply + 100) < 100 * (V.backing - V.supply) + 2 * (V.supply + 100) := by
  rw [← Demo.cr_eq]
  obtain ⟨g, G, hg, h0⟩ := Demo.opened
  refine ⟨g, G, hg, fun acts V e hp => ?_⟩
  obtain ⟨h, L, l, w1, w2, hd, hh⟩ := Demo.carried hg h0 hp
  have reach : ∀ {h L}, World Demo.cr Demo.Z0 h L → Reachable Demo.cr L := fun hw =>
    ⟨_, _, Demo.genesisZ, (world_path Demo.steadyZ hw).1⟩
  refine ⟨h, L, w2, hd, hh.view, hh.escrow, fun t1 t2 t3 hdue h12 h23 => ?_⟩
  obtain ⟨-, -, -, -, -, f6, f7, -⟩ := hh.figures (reach w1)
  have hpu := hh.purse
  obtain ⟨m1, m2, m3, V', hq, k1, k2, k3, k4, k5, k6⟩ := Demo.drained hp f7 (by omega) hdue h12 h23
  obtain ⟨h', L', l', x1, x2, hd', hh'⟩ := Demo.carry_on w1 hh hp hq fun m hm => by
    rcases List.mem_append.1 hm with hm | hm
    · rcases List.mem_append.1 hm with hm | hm
      · exact ⟨_, k3 m hm⟩
      · exact ⟨_, k2 m hm⟩
    · exact ⟨_, k1 m hm⟩
  obtain ⟨g1, g2, -, -, g5, g6, -, -⟩ := hh'.figures (reach x1)
  obtain ⟨-, z2, -, -, -, z6, -, -⟩ := h0.figures (reach hg)
  have hl : l' = [] := List.eq_nil_iff_forall_not_mem.2 fun i hi => by
    obtain ⟨k, r, hr, -⟩ := hh'.back i hi
    rw [k5 k] at hr
    cases hr
  have c1 := hh'.cash
  have c0 := h0.cash
  have p1 := hh'.purse
  have p0 := h0.purse
  subst hl
  refine ⟨m1, m2, m3, h', L', x2, hd', k1, k2, k3, g1.trans k4, fun k => (g5 k).trans (k5 k), hh'.escrow,
    UInt64.toNat_inj.1 ?_, ?_, ?_⟩
  · rw [List.length_nil, Nat.mul_zero] at c1 c0
    omega
  · rw [g2]
    simp only at z6
    omega
  · rw [g2]
    exact k6

/-- In the middle of the attack of C115, where a million was given away for one unit: from there at most 990101
stays behind. -/
example : ∃ g G h L h' L', World Real.crypto Demo.Z0 g G ∧ World Real.crypto G h L ∧ supply L XORCA_MINT_ID = 1 ∧
    backing L Demo.VA Demo.ST = 1000001 ∧ World Real.crypto L h' L' ∧ supply L' XORCA_MINT_ID = 0 ∧
    balance L' Demo.UO + backing L' Demo.VA Demo.ST = balance G Demo.UO ∧ backing L' Demo.VA Demo.ST ≤ 990100 + 1 := by
  obtain ⟨g, G, hg, key⟩ := C116_everything_comes_back
  obtain ⟨h, L, hw, -, hv, -, hx⟩ := key _ _ _ attack_begins
  obtain ⟨m1, m2, m3, h', L', x1, -, -, -, -, x2, -, -, -, x3, x4⟩ := hx 1005 1105 1205 (fun k r hr => by cases hr)
    (by decide) (by decide)
  exact ⟨g, G, h, L, h', L', hg, hw, congrArg View.supply hv, congrArg View.backing hv, x1, x2, x3, by
    simp only at x4
    omega⟩

end Xorca
