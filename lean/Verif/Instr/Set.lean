import Verif.Instr.Stake
namespace Xorca

/-- `solana-program/src/instructions/set.rs:14-58`, statement by statement. -/
def processSet (x : Ctx) (L : Ledger) (accounts : List Meta) (u : StateUpdateInstruction) : Res Outcome := do
  let updateAuthorityAccount ← getAccountInfo accounts 0
  let stateAccount ← getAccountInfo accounts 1
  assertAccountRole updateAuthorityAccount [.Signer, .Writable]
  assertAccountRole stateAccount [.Writable]
  assertAccountOwner L stateAccount PROGRAM_ID
  let stateView ← assertStateData L stateAccount
  verifyStateAddress x.cr stateAccount (stBump stateView)
  assertAccountAddress updateAuthorityAccount (stAuthority stateView)
  match u with
  | .UpdateCoolDownPeriod newCoolDownPeriodS => do
    ensure (¬ newCoolDownPeriodS.toInt < 0) (.custom .InvalidCoolDownPeriod)
    .ok (L.setData stateAccount.key (setStCoolDown stateView newCoolDownPeriodS), [])
  | .UpdateUpdateAuthority newAuthority =>
    let oldAuthority := stAuthority stateView
    .ok (L.setData stateAccount.key (setStAuthority stateView newAuthority),
      [(Event.UpdateAuthoritySet newAuthority oldAuthority).serialize])

end Xorca
