import Lean.Elab.Command
import Lean.Util.CollectAxioms
import Verif.Props.Accept
import Verif.Props.Audited
import Verif.Props.EmptyPool
import Verif.Props.Griefing
import Verif.Props.Work
import Verif.Props.DeadShare
import Verif.Props.BankRun
import Verif.Props.Builders
import Verif.Props.Chain
import Verif.Props.Checks
import Verif.Props.Client
import Verif.Props.Commute
import Verif.Props.Types
import Verif.Props.ClientErrors
import Verif.Props.Schedule
import Verif.Props.Conservation
import Verif.Props.Conversion
import Verif.Props.Effects
import Verif.Props.Errors
import Verif.Props.ErrorOrder
import Verif.Props.Nodes
import Verif.Props.Accounts
import Verif.Props.RentRule
import Verif.Props.Exit
import Verif.Props.Histories
import Verif.Props.Init
import Verif.Props.Invariants
import Verif.Props.Limits
import Verif.Props.Listing
import Verif.Props.Liveness
import Verif.Props.Local
import Verif.Props.Machine
import Verif.Props.NoProfit
import Verif.Props.Outside
import Verif.Props.Price
import Verif.Props.Quotes
import Verif.Props.Readme
import Verif.Props.Refinement
import Verif.Props.Rent
import Verif.Props.Replay
import Verif.Props.Parallel
import Verif.Props.Freeze
import Verif.Props.Surroundings
import Verif.Props.Input
import Verif.Props.RoundTrips
import Verif.Props.Scripts
import Verif.Props.TokenScripts
import Verif.Props.Yield
import Verif.Props.Figures
import Verif.Props.Plan
import Verif.Props.Leave
import Verif.Props.GivenUp
import Verif.Props.AllBytes
import Verif.Props.Parts
import Verif.Props.Twice
/-
Axioms of the property theorems.  The build fails if a theorem `Cnn_…` depends on an axiom other than
`propext`, `Classical.choice` and `Quot.sound`, or if fewer than the known number are found.
-/
open Lean

/-- The last component of the name is `C`, two or more digits and an underscore. -/
def isClaim : Name → Bool
  | .str _ s => match s.toList with
    | 'C' :: a :: b :: r => a.isDigit && b.isDigit && (r.dropWhile (·.isDigit)).head? == some '_'
    | _ => false
  | _ => false

run_cmd do
  let allowed := [``propext, ``Classical.choice, ``Quot.sound]
  let mut found : Nat := 0
  for (n, c) in (← getEnv).constants.map₁.toList do
    if c.isTheorem && n.getRoot == `Xorca && isClaim n then
      found := found + 1
      for a in ← Elab.Command.liftCoreM (collectAxioms n) do
        unless allowed.contains a do throwError "{n} uses {a}"
  if found < 386 then throwError "only {found} property theorems found"
  logInfo m!"{found} property theorems"
