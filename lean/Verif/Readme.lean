import Verif.Spec
/-
The conversion formulas as the program's own documentation gives them
(`solana-program/README.md:198-204`).
-/
namespace Xorca.Spec

/-- "If both `xorca_supply` and `non_escrowed_orca` are non-zero: `xorca_to_mint = orca_amount * xorca_supply /
non_escrowed_orca`. Else: `xorca_to_mint = orca_amount`." -/
def readmeMint (a n s : Nat) : Nat := if s ≠ 0 ∧ n ≠ 0 then a * s / n else a

/-- "Requires `xorca_supply > 0` and `non_escrowed_orca > 0`: `withdrawable_orca = xorca_amount * non_escrowed_orca /
xorca_supply`." -/
def readmeRedeem (x n s : Nat) : Nat := x * n / s

end Xorca.Spec
