import Verif.Basic
/-
The conversion helpers of the two client libraries.
-/
namespace Xorca.Client

/-! ### Rust client: `rust-client/src/conversion.rs` -/

/-- `rust-client/src/conversion.rs:64-72`. -/
inductive ConversionError
  | Arithmetic | ZeroSupplyOrNonEscrowed
deriving DecidableEq, Repr

/-- `opt.ok_or(ConversionError::Arithmetic)?`. -/
def orArithmetic {α : Type} : Option α → Except ConversionError α
  | some a => .ok a
  | none => .error .Arithmetic

/-- `rust-client/src/conversion.rs:79`. -/
def VIRTUAL_XORCA_SUPPLY : Nat := 100
/-- `rust-client/src/conversion.rs:81`. -/
def VIRTUAL_NON_ESCROWED_ORCA_AMOUNT : Nat := 100

/-- `rust-client/src/conversion.rs:83-97`: (non-escrowed, supply) with the offsets. -/
def applyVirtualOffsets (nonEscrowedOrcaAmount xorcaSupply : UInt64) : Except ConversionError (Nat × Nat) := do
  let supplyV ← orArithmetic (checkedAddU128 xorcaSupply.toNat VIRTUAL_XORCA_SUPPLY)
  let nonEscrowedV ← orArithmetic (checkedAddU128 nonEscrowedOrcaAmount.toNat VIRTUAL_NON_ESCROWED_ORCA_AMOUNT)
  .ok (nonEscrowedV, supplyV)

/-- `rust-client/src/conversion.rs:13-35`. -/
def convertOrcaToXorca (orcaAmountToConvert nonEscrowedOrcaAmount xorcaSupply : UInt64) :
    Except ConversionError UInt64 :=
  if xorcaSupply = 0 ∨ nonEscrowedOrcaAmount = 0 then .ok orcaAmountToConvert
  else do
    let (nonEscrowedV, supplyV) ← applyVirtualOffsets nonEscrowedOrcaAmount xorcaSupply
    let prod ← orArithmetic (checkedMulU128 orcaAmountToConvert.toNat supplyV)
    let out ← orArithmetic (checkedDivU128 prod nonEscrowedV)
    orArithmetic (u64OfU128 out)

/-- `rust-client/src/conversion.rs:39-58`. -/
def convertXorcaToOrca (xorcaAmountToConvert nonEscrowedOrcaAmount xorcaSupply : UInt64) :
    Except ConversionError UInt64 :=
  if xorcaSupply = 0 ∨ nonEscrowedOrcaAmount = 0 then .error .ZeroSupplyOrNonEscrowed
  else do
    let (nonEscrowedV, supplyV) ← applyVirtualOffsets nonEscrowedOrcaAmount xorcaSupply
    let prod ← orArithmetic (checkedMulU128 xorcaAmountToConvert.toNat nonEscrowedV)
    let out ← orArithmetic (checkedDivU128 prod supplyV)
    orArithmetic (u64OfU128 out)

/-! ### JS client: `js-client/src/utils/conversion.ts`

A `bigint` is an `Int`; `none` is a thrown error. -/

/-- `/` on `bigint`: rounds towards zero, throws on a zero divisor. -/
def bigintDiv (a b : Int) : Option Int := if b = 0 then none else some (a.tdiv b)

/-- `js-client/src/utils/conversion.ts:3`. -/
def JS_VIRTUAL_XORCA_SUPPLY : Int := 100
/-- `js-client/src/utils/conversion.ts:4`. -/
def JS_VIRTUAL_NON_ESCROWED_ORCA_AMOUNT : Int := 100

/-- `js-client/src/utils/conversion.ts:10-21`. -/
def jsConvertOrcaToXorca (orcaAmountToConvert nonEscrowedOrcaAmount xorcaSupply : Int) : Option Int :=
  if xorcaSupply = 0 ∨ nonEscrowedOrcaAmount = 0 then some orcaAmountToConvert
  else
    let supplyV := xorcaSupply + JS_VIRTUAL_XORCA_SUPPLY
    let nonEscrowedV := nonEscrowedOrcaAmount + JS_VIRTUAL_NON_ESCROWED_ORCA_AMOUNT
    bigintDiv (orcaAmountToConvert * supplyV) nonEscrowedV

/-- `js-client/src/utils/conversion.ts:28-39`. -/
def jsConvertXorcaToOrca (xorcaAmountToConvert nonEscrowedOrcaAmount xorcaSupply : Int) : Option Int :=
  if xorcaSupply = 0 ∨ nonEscrowedOrcaAmount = 0 then none
  else
    let supplyV := xorcaSupply + JS_VIRTUAL_XORCA_SUPPLY
    let nonEscrowedV := nonEscrowedOrcaAmount + JS_VIRTUAL_NON_ESCROWED_ORCA_AMOUNT
    bigintDiv (xorcaAmountToConvert * nonEscrowedV) supplyV

end Xorca.Client
