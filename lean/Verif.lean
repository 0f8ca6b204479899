import Verif.Assertions
import Verif.Audit
import Verif.Audited
import Verif.BankRun
import Verif.Basic
import Verif.Calls
import Verif.Chain
import Verif.Client.Accounts
import Verif.Client.Base58
import Verif.Client.Builders
import Verif.Client.Codec
import Verif.Client.Conversion
import Verif.Client.Errors
import Verif.Client.Fetch
import Verif.Client.Instructions
import Verif.Client.Scripts
import Verif.Client.TokenScripts
import Verif.Client.Types
import Verif.ClientTests
import Verif.Constants
import Verif.Declared
import Verif.Demo
import Verif.Entrypoint
import Verif.ErrorTable
import Verif.Event
import Verif.Exec
import Verif.Freeze
import Verif.History
import Verif.Input
import Verif.Instr.Initialize
import Verif.Instr.Set
import Verif.Instr.Stake
import Verif.Instr.Unstake
import Verif.Instr.Withdraw
import Verif.Layout
import Verif.Leave
import Verif.Lemmas.AcceptAux
import Verif.Lemmas.Accounts
import Verif.Lemmas.Arith
import Verif.Lemmas.Audited
import Verif.Lemmas.BankRun
import Verif.Lemmas.Books
import Verif.Lemmas.Builders
import Verif.Lemmas.BytesAux
import Verif.Lemmas.Chain
import Verif.Lemmas.Client
import Verif.Lemmas.ClientCodec
import Verif.Lemmas.Codec
import Verif.Lemmas.Codes
import Verif.Lemmas.Commute
import Verif.Lemmas.DeadShare
import Verif.Lemmas.Demo
import Verif.Lemmas.DemoBank
import Verif.Lemmas.DemoBooks
import Verif.Lemmas.DemoCalls
import Verif.Lemmas.DemoClient
import Verif.Lemmas.DemoCommute
import Verif.Lemmas.DemoDeadShare
import Verif.Lemmas.DemoEmptyPool
import Verif.Lemmas.DemoFreeze
import Verif.Lemmas.DemoNodes
import Verif.Lemmas.DemoParallel
import Verif.Lemmas.DemoSchedule
import Verif.Lemmas.DemoScripts
import Verif.Lemmas.DemoSealed
import Verif.Lemmas.DemoTokenScripts
import Verif.Lemmas.DemoWork
import Verif.Lemmas.DemoWorld
import Verif.Lemmas.EmptyPool
import Verif.Lemmas.EnvOk
import Verif.Lemmas.ErrorTable
import Verif.Lemmas.Errors
import Verif.Lemmas.Exec
import Verif.Lemmas.ExitAux
import Verif.Lemmas.Fail
import Verif.Lemmas.FiguresAux
import Verif.Lemmas.Freeze
import Verif.Lemmas.GivenUpAux
import Verif.Lemmas.GriefingAux
import Verif.Lemmas.InitOk
import Verif.Lemmas.Initialize
import Verif.Lemmas.Input
import Verif.Lemmas.Inv
import Verif.Lemmas.IxCodec
import Verif.Lemmas.LeaveAux
import Verif.Lemmas.ListingAux
import Verif.Lemmas.Live
import Verif.Lemmas.LivenessAux
import Verif.Lemmas.Local
import Verif.Lemmas.LocalInstr
import Verif.Lemmas.Machine
import Verif.Lemmas.MachineAux
import Verif.Lemmas.Moves
import Verif.Lemmas.NoProfitAux
import Verif.Lemmas.Outside
import Verif.Lemmas.OutsideTok
import Verif.Lemmas.Parallel
import Verif.Lemmas.PartsAux
import Verif.Lemmas.PlanAux
import Verif.Lemmas.Prefund
import Verif.Lemmas.PriceAux
import Verif.Lemmas.QuotesAux
import Verif.Lemmas.ReadmeAux
import Verif.Lemmas.Rent
import Verif.Lemmas.RentRule
import Verif.Lemmas.Replay
import Verif.Lemmas.Roles
import Verif.Lemmas.RoundTripsAux
import Verif.Lemmas.Runtime
import Verif.Lemmas.Schedule
import Verif.Lemmas.Scripts
import Verif.Lemmas.Sealed
import Verif.Lemmas.Search
import Verif.Lemmas.Serial
import Verif.Lemmas.Set
import Verif.Lemmas.Stake
import Verif.Lemmas.Success
import Verif.Lemmas.Sums
import Verif.Lemmas.Surroundings
import Verif.Lemmas.System
import Verif.Lemmas.TokAgree
import Verif.Lemmas.Token
import Verif.Lemmas.TokenScripts
import Verif.Lemmas.Trace
import Verif.Lemmas.TwiceAux
import Verif.Lemmas.Types
import Verif.Lemmas.Unstake
import Verif.Lemmas.View
import Verif.Lemmas.Withdraw
import Verif.Lemmas.Work
import Verif.Lemmas.WorkExact
import Verif.Lemmas.World
import Verif.Lemmas.YieldAux
import Verif.Machine
import Verif.Math
import Verif.Outside
import Verif.Parallel
import Verif.Pda
import Verif.Plan
import Verif.ProgramTests
import Verif.Props.Accept
import Verif.Props.Accounts
import Verif.Props.AllBytes
import Verif.Props.Audited
import Verif.Props.BankRun
import Verif.Props.Builders
import Verif.Props.Chain
import Verif.Props.Checks
import Verif.Props.Client
import Verif.Props.ClientErrors
import Verif.Props.Commute
import Verif.Props.Conservation
import Verif.Props.Conversion
import Verif.Props.DeadShare
import Verif.Props.Effects
import Verif.Props.EmptyPool
import Verif.Props.ErrorOrder
import Verif.Props.Errors
import Verif.Props.Exit
import Verif.Props.Figures
import Verif.Props.Freeze
import Verif.Props.GivenUp
import Verif.Props.Griefing
import Verif.Props.Histories
import Verif.Props.Init
import Verif.Props.Input
import Verif.Props.Invariants
import Verif.Props.Leave
import Verif.Props.Limits
import Verif.Props.Listing
import Verif.Props.Liveness
import Verif.Props.Local
import Verif.Props.Machine
import Verif.Props.NoProfit
import Verif.Props.Nodes
import Verif.Props.Outside
import Verif.Props.Parallel
import Verif.Props.Parts
import Verif.Props.Plan
import Verif.Props.Price
import Verif.Props.Quotes
import Verif.Props.Readme
import Verif.Props.Refinement
import Verif.Props.Rent
import Verif.Props.RentRule
import Verif.Props.Replay
import Verif.Props.RoundTrips
import Verif.Props.Schedule
import Verif.Props.Scripts
import Verif.Props.Surroundings
import Verif.Props.TokenScripts
import Verif.Props.Twice
import Verif.Props.Types
import Verif.Props.Work
import Verif.Props.Yield
import Verif.Readme
import Verif.Real
import Verif.RentRule
import Verif.Replay
import Verif.Runtime
import Verif.Sealed
import Verif.Spec
import Verif.Surroundings
import Verif.Totals
import Verif.Trades
import Verif.View
import Verif.Work
