import Verif.Basic
/-
The two conversion functions of the program, transcribed from `solana-program/src/util/math.rs`.
-/
namespace Xorca

/-- `solana-program/src/util/math.rs:4`. -/
def VIRTUAL_XORCA_SUPPLY : Nat := 100
/-- `solana-program/src/util/math.rs:5`. -/
def VIRTUAL_NON_ESCROWED_ORCA_AMOUNT : Nat := 100

/-- `solana-program/src/util/math.rs:7-46`.  A `u128` is a `Nat` with explicit bound checks. -/
def convertOrcaToXorca (orcaAmountToConvert nonEscrowedOrcaAmount xorcaSupply : UInt64) : Res UInt64 :=
  if xorcaSupply = 0 ∨ nonEscrowedOrcaAmount = 0 then
    .ok orcaAmountToConvert
  else do
    let xorcaSupplyU128 := xorcaSupply.toNat
    let orcaAmountToConvertU128 := orcaAmountToConvert.toNat
    let nonEscrowedOrcaAmountU128 := nonEscrowedOrcaAmount.toNat
    let supplyV ← okOr (checkedAddU128 xorcaSupplyU128 VIRTUAL_XORCA_SUPPLY)
      (.custom .ArithmeticError)
    let nonEscrowedV ← okOr (checkedAddU128 nonEscrowedOrcaAmountU128 VIRTUAL_NON_ESCROWED_ORCA_AMOUNT)
      (.custom .ArithmeticError)
    let prod ← okOr (checkedMulU128 orcaAmountToConvertU128 supplyV) (.custom .ArithmeticError)
    let out ← okOr (checkedDivU128 prod nonEscrowedV) (.custom .ArithmeticError)
    okOr (u64OfU128 out) (.custom .ArithmeticError)

/-- `solana-program/src/util/math.rs:48-85`. -/
def convertXorcaToOrca (xorcaAmountToConvert nonEscrowedOrcaAmount xorcaSupply : UInt64) : Res UInt64 :=
  if xorcaSupply = 0 ∨ nonEscrowedOrcaAmount = 0 then
    .error (.custom .ArithmeticError)
  else do
    let nonEscrowedOrcaAmountU128 := nonEscrowedOrcaAmount.toNat
    let xorcaAmountToConvertU128 := xorcaAmountToConvert.toNat
    let xorcaSupplyU128 := xorcaSupply.toNat
    let supplyV ← okOr (checkedAddU128 xorcaSupplyU128 VIRTUAL_XORCA_SUPPLY)
      (.custom .ArithmeticError)
    let nonEscrowedV ← okOr (checkedAddU128 nonEscrowedOrcaAmountU128 VIRTUAL_NON_ESCROWED_ORCA_AMOUNT)
      (.custom .ArithmeticError)
    let prod ← okOr (checkedMulU128 xorcaAmountToConvertU128 nonEscrowedV) (.custom .ArithmeticError)
    let out ← okOr (checkedDivU128 prod supplyV) (.custom .ArithmeticError)
    okOr (u64OfU128 out) (.custom .ArithmeticError)

end Xorca
