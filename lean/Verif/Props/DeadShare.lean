import Verif.Lemmas.DeadShare
import Verif.Lemmas.DemoDeadShare
import Verif.Props.Histories
import Verif.Props.NoProfit
import Verif.Props.Outside
/-
C107: one unit of xORCA in a token account of the pool itself closes the gap of C105.
-/
namespace Xorca
open Spec

variable {cr : Crypto} {L0 L L' : Ledger} {st v t : Pubkey} {b : UInt8} {h : List Entry}

/-- xORCA in a token account whose owner is the state address stays there for ever: no call changes the account, and
others can only add to it. -/
theorem C107_dead_share_stays (hp : Path cr L h L') (ht : PoolToken cr (L t)) (hm : mintOf L t = XORCA_MINT_ID) :
    PoolToken cr (L' t) ∧ mintOf L' t = XORCA_MINT_ID ∧ ownerOf L' t = ownerOf L t ∧ balance L t ≤ balance L' t :=
  deadShare_path hp ht hm

example : balance Demo.K3 Demo.SX = 1 ∧ balance Demo.K3 Demo.SX ≤ balance Demo.K6 Demo.SX :=
  ⟨Demo.figuresK.2.1, (C107_dead_share_stays Demo.pathK36 Demo.deadK3 Demo.figuresK.1).2.2.2⟩

/-- From then on the supply is never below that balance, and no stake meets a pool that has ORCA but no xORCA. -/
theorem C107_never_ownerless (hr : Reachable cr L) (ha : Accounted L) (ht : PoolToken cr (L t))
    (hm : mintOf L t = XORCA_MINT_ID) (hpos : 0 < balance L t) (hp : Path cr L h L') (hk : ∀ e ∈ h, KeepsBooks e) :
    balance L t ≤ supply L' XORCA_MINT_ID ∧ ∀ e ∈ h, ¬ OrphanStake e st v :=
  deadShare_never_ownerless hr ha ht hm hpos hp hk

/-- The only holder leaves, and 4950982 units stay; the next stake still meets one unit of xORCA. -/
example : ∀ e ∈ Demo.restK, ¬ OrphanStake e Demo.ST Demo.VA :=
  (deadShare_world Demo.genesisK Demo.steadyK Demo.accountedK Demo.worldK3 Demo.worldK36 Demo.deadK3 Demo.figuresK.1
    (by rw [Demo.figuresK.2.1]; decide)).2.2.2
example : supply Demo.K5 XORCA_MINT_ID = 1 ∧ backing Demo.K5 Demo.VA Demo.ST = 4950982 :=
  ⟨Demo.figuresK.2.2.1, Demo.figuresK.2.2.2.1⟩

/-- The price of xORCA never falls again, whatever anybody does; nothing is asked of the steps. -/
theorem C107_no_dilution (hg : Genesis L0) (hs : Steady cr L0) (ha : Accounted L0) {h0 : List Entry}
    (hw0 : World cr L0 h0 L) (hi : Initialised cr L st) (hv : VaultAddr cr st v b) (ht : PoolToken cr (L t))
    (hm : mintOf L t = XORCA_MINT_ID) (hpos : 0 < balance L t) (hw : World cr L h L') :
    (backing L v st + 100) * (supply L' XORCA_MINT_ID + 100) ≤
      (backing L' v st + 100) * (supply L XORCA_MINT_ID + 100) ∧
    ∀ x, redeemFor x (backing L v st) (supply L XORCA_MINT_ID) ≤
      redeemFor x (backing L' v st) (supply L' XORCA_MINT_ID) := by
  obtain ⟨hr, hp, _, hno⟩ := deadShare_world (st := st) (v := v) hg hs ha hw0 hw ht hm hpos
  exact C09_no_dilution hr hi hv hp hno

example := C107_no_dilution Demo.genesisK Demo.steadyK Demo.accountedK Demo.worldK3 Demo.initK3 Demo.va_addr Demo.deadK3
  Demo.figuresK.1 (by rw [Demo.figuresK.2.1]; decide) Demo.worldK36

/-- Nobody profits from trading any more: let the others hold `y` xORCA at both ends.  What the rest is worth at the
end, plus all ORCA set aside on the way, is at most all ORCA staked and donated, plus what the rest was worth at the
start. -/
theorem C107_no_coalition_profits {y : Nat} (hg : Genesis L0) (hs : Steady cr L0) (ha : Accounted L0) {h0 : List Entry}
    (hw0 : World cr L0 h0 L) (hi : Initialised cr L st) (hv : VaultAddr cr st v b) (ht : PoolToken cr (L t))
    (hm : mintOf L t = XORCA_MINT_ID) (hpos : 0 < balance L t) (hw : World cr L h L')
    (hy : y ≤ supply L XORCA_MINT_ID) (hy' : y ≤ supply L' XORCA_MINT_ID) :
    (redeemFor (supply L' XORCA_MINT_ID - y) (backing L' v st) (supply L' XORCA_MINT_ID) +
        (h.map (setAside st v)).sum) * (supply L XORCA_MINT_ID + 100) ≤
      ((h.map staked).sum + (h.map (donated st v)).sum) * (supply L XORCA_MINT_ID + 100) +
        (supply L XORCA_MINT_ID - y) * (backing L v st + 100) := by
  obtain ⟨hr, hp, _, hno⟩ := deadShare_world (st := st) (v := v) hg hs ha hw0 hw ht hm hpos
  exact C64_no_coalition_profits hr hi hv hp hno hy hy'

/-- With `y` the one unit that belongs to the pool: everybody else together gains nothing. -/
example := C107_no_coalition_profits (y := 1) Demo.genesisK Demo.steadyK Demo.accountedK Demo.worldK3 Demo.initK3 Demo.va_addr
  Demo.deadK3 Demo.figuresK.1 (by rw [Demo.figuresK.2.1]; decide) Demo.worldK36 (by decide +kernel) (by decide +kernel)

end Xorca
