import Verif.Assertions
import Verif.Math
/-
Functions of an earlier version of the program (commit 8affaea), as they are quoted in the audit report
`.audits/2025-09-24.pdf` of the repository.  They are not part of the program; C106 shows that the attacks of the report
work against them.
-/
namespace Xorca.Audited

/-- Report, finding H-01, page 4: `util/math.rs:4-31` before the virtual offset. -/
def convertOrcaToXorca (orcaAmountToConvert nonEscrowedOrcaAmount xorcaSupply : UInt64) : Res UInt64 :=
  if xorcaSupply = 0 ∨ nonEscrowedOrcaAmount = 0 then
    .ok orcaAmountToConvert
  else do
    let prod ← okOr (checkedMulU128 orcaAmountToConvert.toNat xorcaSupply.toNat) (.custom .ArithmeticError)
    let out ← okOr (checkedDivU128 prod nonEscrowedOrcaAmount.toNat) (.custom .ArithmeticError)
    okOr (u64OfU128 out) (.custom .ArithmeticError)

/-- The inverse conversion.  It is not quoted; the report gives the rate as `non_escrowed_orca_amount / xorca_supply`. -/
def convertXorcaToOrca (xorcaAmountToConvert nonEscrowedOrcaAmount xorcaSupply : UInt64) : Res UInt64 :=
  if xorcaSupply = 0 ∨ nonEscrowedOrcaAmount = 0 then
    .error (.custom .ArithmeticError)
  else do
    let prod ← okOr (checkedMulU128 xorcaAmountToConvert.toNat nonEscrowedOrcaAmount.toNat) (.custom .ArithmeticError)
    let out ← okOr (checkedDivU128 prod xorcaSupply.toNat) (.custom .ArithmeticError)
    okOr (u64OfU128 out) (.custom .ArithmeticError)

/-- Report, finding L-04, page 11: `util/account.rs:29-53`. -/
def createAccount (x : Ctx) (c : Caller) (L : Ledger) (funder newAccount : Pubkey) (space : Nat) (owner : Pubkey) :
    Res Ledger :=
  if (L newAccount).owner ≠ SYSTEM_PROGRAM_ID then .ok L
  else cpiCreateAccount c L funder newAccount (x.rentMin space) space owner

/-- Report, finding I-03, page 14: `util/account.rs:104-113`.  The tag of a closed account was 2 (finding I-04). -/
def closeProgramAccount (L : Ledger) (toClose receiver : Pubkey) : Res Ledger := do
  let d ← setByte0 (L toClose).data 2
  let L1 := L.setData toClose d
  let L2 := L1.setLamports receiver ((L1 receiver).lamports + (L1 toClose).lamports)
  .ok (L2.setLamports toClose 0)

end Xorca.Audited
