import Verif.History
import Verif.Client.Codec
/-
An indexer: what can be learned about the pool from the program's events alone.
-/
namespace Xorca.Spec

/-- What an indexer keeps. -/
structure Index where
  escrow : Nat
  supply : Nat
  vault : Nat
  authority : Pubkey
  opened : Nat
deriving DecidableEq

/-- How it takes in one event.  A Withdraw event does not report the vault, so its amount is subtracted. -/
def Index.event (I : Index) : Event → Index
  | .Stake _ vault escrow supply _ => { I with escrow := escrow.toNat, supply := supply.toNat, vault := vault.toNat }
  | .Unstake _ vault escrow supply _ _ _ =>
    { I with escrow := escrow.toNat, supply := supply.toNat, vault := vault.toNat, opened := I.opened + 1 }
  | .Withdraw escrow amount _ _ =>
    { I with escrow := escrow.toNat, vault := I.vault - amount.toNat, opened := I.opened - 1 }
  | .UpdateAuthoritySet new _ => { I with authority := new }

/-- How it takes in a list of events, oldest first. -/
def Index.replay (I : Index) (evs : List Event) : Index := evs.foldl Index.event I

/-- The log lines of a step. -/
def Label.logs : Label → List Bytes
  | .call _ _ _ logs => logs
  | .env => []

/-- The events of a step, as the clients decode them. -/
def Label.events (l : Label) : List Event := l.logs.filterMap Client.decodeEvent

/-- The events of a history (newest step first), oldest first. -/
def eventsOf : List Entry → List Event
  | [] => []
  | e :: h => eventsOf h ++ e.label.events

/-- The list has every open record once. -/
def Lists (L : Ledger) (rs : List Pubkey) : Prop := rs.Nodup ∧ ∀ k, k ∈ rs ↔ IsRecord L k

/-- The indexer is right about a ledger: exactly about the escrow, the authority and the number of open requests; its
supply is too high by what others burned, and its vault too low by what others gave, since the last trade. -/
structure Index.Tracks (I : Index) (L : Ledger) (st v : Pubkey) : Prop where
  escrow : I.escrow = Spec.escrow L st
  authority : I.authority = Spec.authority L st
  opened : ∀ rs, Lists L rs → rs.length = I.opened
  supply : Spec.supply L XORCA_MINT_ID ≤ I.supply
  vault : I.vault ≤ balance L v

/-- ORCA set aside according to an event. -/
def Event.setAside : Event → Nat
  | .Unstake _ _ _ _ amount _ _ => amount.toNat
  | _ => 0
/-- ORCA paid out according to an event. -/
def Event.paidOut : Event → Nat
  | .Withdraw _ amount _ _ => amount.toNat
  | _ => 0
/-- ORCA paid in according to an event. -/
def Event.paidIn : Event → Nat
  | .Stake amount _ _ _ _ => amount.toNat
  | _ => 0

end Xorca.Spec
