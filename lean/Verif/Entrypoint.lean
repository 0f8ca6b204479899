import Verif.Instr.Stake
import Verif.Instr.Unstake
import Verif.Instr.Withdraw
import Verif.Instr.Set
import Verif.Instr.Initialize
namespace Xorca

/-- The `match` of `solana-program/src/entrypoint.rs:28-51`. -/
def dispatch (x : Ctx) (L : Ledger) (accounts : List Meta) : Instruction → Res Outcome
  | .Initialize coolDownPeriodS => processInitialize x L accounts coolDownPeriodS
  | .Stake orcaStakeAmount => processStake x L accounts orcaStakeAmount
  | .Unstake xorcaUnstakeAmount withdrawIndex => processUnstake x L accounts xorcaUnstakeAmount withdrawIndex
  | .Withdraw withdrawIndex => processWithdraw x L accounts withdrawIndex
  | .Set u => processSet x L accounts u

/-- `solana-program/src/entrypoint.rs:16-53`: `process_instruction`. -/
def entry (x : Ctx) (programId : Pubkey) (L : Ledger) (accounts : List Meta) (data : Bytes) : Res Outcome := do
  ensure (programId = PROGRAM_ID) (.custom .IncorrectProgramId)
  let (instruction, _) ← okOr (Instruction.deserialize data) (.custom .UnknownInstructionDiscriminator)
  dispatch x L accounts instruction

end Xorca
