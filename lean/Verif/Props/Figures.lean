import Verif.Lemmas.FiguresAux
import Verif.Props.Invariants
/-
C114: which figures a pool can have.
-/
namespace Xorca
open Spec

/-- With the real hash function and curve, and by nothing but real calls: from a ledger with two mints without
supply there is a history of steps after which supply, free ORCA and escrow are `s`, `n` and `e` exactly if every
xORCA is backed and the vault's balance fits. -/
theorem C114_by_real_steps {s n e : Nat} :
    Genesis Demo.Z0 ∧ Steady Real.crypto Demo.Z0 ∧
    ((∃ h L, World Real.crypto Demo.Z0 h L ∧ Initialised Real.crypto L Demo.ST ∧ supply L XORCA_MINT_ID = s ∧
      backing L Demo.VA Demo.ST = n ∧ escrow L Demo.ST = e) ↔ s ≤ n ∧ n + e < 2 ^ 64) := by
  rw [← Demo.cr_eq]
  refine ⟨Demo.genesisZ, Demo.steadyZ, ?_, ?_⟩
  · rintro ⟨h, L, hw, hi, rfl, rfl, rfl⟩
    have h := C13_backing ⟨_, _, Demo.genesisZ, (world_path Demo.steadyZ hw).1⟩ hi Demo.va_addr
    have hb : balance L Demo.VA < 2 ^ 64 := (readU64 (L Demo.VA).data 64).toNat_lt
    rw [backing]
    omega
  · rintro ⟨h1, h2⟩
    obtain ⟨L, c, hf⟩ := Demo.split (s := s) (e := e) (u := n - s) (by omega)
    obtain ⟨L', g⟩ := hf.deposit (by omega)
    obtain ⟨h, hw⟩ := g.world
    exact ⟨h, L', hw, g.init, g.supply, by rw [backing, g.vault, g.escrow]; omega, g.escrow⟩

/-- One xORCA can come to be worth nearly all ORCA there is; two of them cannot come to be worth one. -/
example : (∃ h L, World Real.crypto Demo.Z0 h L ∧ Initialised Real.crypto L Demo.ST ∧ supply L XORCA_MINT_ID = 1 ∧
      backing L Demo.VA Demo.ST = 18446744073709551615 ∧ escrow L Demo.ST = 0) ∧
    ¬ (∃ h L, World Real.crypto Demo.Z0 h L ∧ Initialised Real.crypto L Demo.ST ∧ supply L XORCA_MINT_ID = 2 ∧
      backing L Demo.VA Demo.ST = 1 ∧ escrow L Demo.ST = 0) := by
  rw [C114_by_real_steps.2.2, C114_by_real_steps.2.2]
  decide

/-- The same of the reachable ledgers of the model, in which other programs and people may do anything within
`EnvStep`: that generality adds no figures. -/
theorem C114_possible_figures {s n e : Nat} :
    (∃ L, Reachable Real.crypto L ∧ Initialised Real.crypto L Demo.ST ∧ supply L XORCA_MINT_ID = s ∧
      backing L Demo.VA Demo.ST = n ∧ escrow L Demo.ST = e) ↔ s ≤ n ∧ n + e < 2 ^ 64 := by
  constructor
  · rw [← Demo.cr_eq]
    rintro ⟨L, hr, hi, rfl, rfl, rfl⟩
    have h := C13_backing hr hi Demo.va_addr
    have hb : balance L Demo.VA < 2 ^ 64 := (readU64 (L Demo.VA).data 64).toNat_lt
    rw [backing]
    omega
  · intro hsn
    obtain ⟨hg, hs, hw⟩ := C114_by_real_steps (s := s) (n := n) (e := e)
    obtain ⟨h, L, hw, hi⟩ := hw.2 hsn
    exact ⟨L, ⟨_, _, hg, (world_path hs hw).1⟩, hi⟩

/-- A pool with no supply, one unit free and nearly everything else set aside; but not with one unit more. -/
example : (∃ L, Reachable Real.crypto L ∧ Initialised Real.crypto L Demo.ST ∧ supply L XORCA_MINT_ID = 0 ∧
      backing L Demo.VA Demo.ST = 1 ∧ escrow L Demo.ST = 18446744073709551614) ∧
    ¬ (∃ L, Reachable Real.crypto L ∧ Initialised Real.crypto L Demo.ST ∧ supply L XORCA_MINT_ID = 0 ∧
      backing L Demo.VA Demo.ST = 1 ∧ escrow L Demo.ST = 18446744073709551615) := by
  rw [C114_possible_figures, C114_possible_figures]
  decide

/-- So the two facts imply everything that holds of the three figures in all reachable pools: no stronger
invariant about them exists. -/
theorem C114_strongest_invariant {P : Nat → Nat → Nat → Prop} :
    (∀ L, Reachable Real.crypto L → Initialised Real.crypto L Demo.ST →
      P (supply L XORCA_MINT_ID) (backing L Demo.VA Demo.ST) (escrow L Demo.ST)) ↔
    ∀ s n e, s ≤ n → n + e < 2 ^ 64 → P s n e := by
  constructor
  · intro h s n e h1 h2
    obtain ⟨L, hr, hi, rfl, rfl, rfl⟩ := C114_possible_figures.2 ⟨h1, h2⟩
    exact h L hr hi
  · intro h L hr hi
    obtain ⟨h1, h2⟩ := C114_possible_figures.1 ⟨L, hr, hi, rfl, rfl, rfl⟩
    exact h _ _ _ h1 h2

/-- An empty pool may hold free ORCA: it is not true that no supply means nothing free. -/
example : ¬ ∀ L, Reachable Real.crypto L → Initialised Real.crypto L Demo.ST →
    supply L XORCA_MINT_ID = 0 → backing L Demo.VA Demo.ST = 0 := by
  intro h
  have := (C114_strongest_invariant (P := fun s n _ => s = 0 → n = 0)).1 h 0 5 0 (by omega) (by omega) rfl
  omega

/-- Hence every exchange rate not below par occurs: for any two positive numbers `p ≥ q` that leave room for
the virtual offset there is a reachable pool in which `q` xORCA are worth exactly `p` ORCA, rounding aside. -/
theorem C114_every_rate {p q : Nat} (hq : 100 ≤ q) (hp : q ≤ p) (hf : p < 2 ^ 64) :
    ∃ L, Reachable Real.crypto L ∧ Initialised Real.crypto L Demo.ST ∧
      redeemFor q (backing L Demo.VA Demo.ST) (supply L XORCA_MINT_ID) = p := by
  obtain ⟨L, hr, hi, h1, h2, -⟩ := (C114_possible_figures (s := q - 100) (n := p - 100) (e := 0)).2 ⟨by omega, by omega⟩
  refine ⟨L, hr, hi, ?_⟩
  rw [h1, h2, redeemFor, Nat.sub_add_cancel hq, Nat.sub_add_cancel (by omega), Nat.mul_comm]
  exact Nat.mul_div_cancel _ (by omega)

example : ∃ L, Reachable Real.crypto L ∧ Initialised Real.crypto L Demo.ST ∧
    redeemFor 1000 (backing L Demo.VA Demo.ST) (supply L XORCA_MINT_ID) = 1000000 :=
  C114_every_rate (by omega) (by omega) (by omega)

end Xorca
