import Verif.Props.Histories
import Verif.Props.Liveness
import Verif.Lemmas.Moves
import Verif.Lemmas.DemoBooks
/-
Lemmas for `Props/RoundTrips.lean`.
-/
namespace Xorca
open Spec

variable {cr : Crypto} {L L' L1 L2 L3 L4 : Ledger} {st v : Pubkey} {bump : UInt8} {h : List Entry}

theorem Spec.Took.reach {ix : Instruction} (h : Took cr L ix L') (hr : Reachable cr L) : Reachable cr L' := by
  obtain ⟨x, accs, logs, rfl, h1, h2, h3⟩ := h
  exact reach_call hr h1 h2 h3

theorem Spec.Took.pool {ix : Instruction} (h : Took cr L ix L') (hr : Reachable cr L) (p : Pool cr L st v) :
    Pool cr L' st v := by
  obtain ⟨x, accs, logs, rfl, h1, h2, h3⟩ := h
  exact pool_call hr h1 h2 h3 p

theorem Spec.Took.stake {a : UInt64} (h : Took cr L (.Stake a) L') (hr : Reachable cr L) (p : Pool cr L st v) :
    supply L' XORCA_MINT_ID = supply L XORCA_MINT_ID + mintFor a.toNat (backing L v st) (supply L XORCA_MINT_ID) ∧
    backing L' v st = backing L v st + a.toNat ∧ escrow L' st = escrow L st := by
  obtain ⟨x, accs, logs, rfl, h1, h2, h3⟩ := h
  exact stake_move hr h1 h2 h3 p

theorem Spec.Took.unstake {a : UInt64} {i : UInt8} (h : Took cr L (.Unstake a i) L') (hr : Reachable cr L)
    (p : Pool cr L st v) :
    supply L' XORCA_MINT_ID + a.toNat = supply L XORCA_MINT_ID ∧
    backing L' v st + redeemFor a.toNat (backing L v st) (supply L XORCA_MINT_ID) = backing L v st ∧
    escrow L' st = escrow L st + redeemFor a.toNat (backing L v st) (supply L XORCA_MINT_ID) := by
  obtain ⟨x, accs, logs, rfl, h1, h2, h3⟩ := h
  exact unstake_move hr h1 h2 h3 p

theorem backed (p : Pool cr L st v) : supply L XORCA_MINT_ID ≤ backing L v st := by
  have := p.backed
  unfold backing
  omega

end Xorca
