import Verif.Lemmas.GriefingAux
import Verif.Lemmas.DemoEmptyPool
import Verif.Props.RoundTrips
import Verif.Props.Price
/-
C112: what it costs to make others lose.
-/
namespace Xorca
open Spec

variable {cr : Crypto} {L L1 L2 L3 L4 L5 : Ledger} {st v : Pubkey} {b : UInt8} {h : List Entry}

/-- The attacker has `a` xORCA and gives `d` ORCA to the vault, a victim stakes `u`, the attacker leaves with `w`, and
later, whatever has happened, the victim leaves with `wv`.  Without the attack the attacker's xORCA were worth
`redeemFor a backing supply`.  So the victim lost `u - wv`, the attack cost `redeemFor a backing supply + d - w`, and 99 times
the loss is at most the cost, up to 100 units and 100 times the price before the attack (both sides are multiplied by
`supply + 100`).  No Stake in between may be one into a pool without xORCA. -/
theorem C112_griefing_is_expensive {a u m : UInt64} {i j : UInt8} {d w wv : Nat} (hr : Reachable cr L)
    (hi : Initialised cr L st) (hv : VaultAddr cr st v b) (h0 : supply L XORCA_MINT_ID ≠ 0)
    (ha : a.toNat ≤ supply L XORCA_MINT_ID)
    (h1 : EnvStep cr L L1) (hs : supply L1 XORCA_MINT_ID = supply L XORCA_MINT_ID) (hd : balance L1 v = balance L v + d)
    (h2 : Took cr L1 (.Stake u) L2) (hm : supply L2 XORCA_MINT_ID = supply L1 XORCA_MINT_ID + m.toNat)
    (h3 : Took cr L2 (.Unstake a i) L3) (hw : escrow L3 st = escrow L2 st + w)
    (hp : Path cr L3 h L4) (hno : ∀ e ∈ h, ¬ OrphanStake e st v)
    (h4 : Took cr L4 (.Unstake m j) L5) (hwv : escrow L5 st = escrow L4 st + wv) :
    (99 * u.toNat + w) * (supply L XORCA_MINT_ID + 100) ≤
      (99 * wv + redeemFor a.toNat (backing L v st) (supply L XORCA_MINT_ID) + d + 100) * (supply L XORCA_MINT_ID + 100) +
        100 * (backing L v st + 100) := by
  have p := reachable_pool hr hi hv
  have hr1 := reach_env hr h1
  have p1 := pool_env hr h1 p
  have hi1 : Initialised cr L1 st := ⟨hi.1, p1.prog, p1.acc.tag⟩
  have hr2 := h2.reach hr1
  have p2 := h2.pool hr1 p1
  obtain ⟨_, _, s3⟩ := h3.unstake hr2 p2
  have he : escrow L1 st = escrow L st := escrow_of_data (h1.owned st p.prog p.acc.lam).2.1
  have hb := p.backed
  have e1 : backing L1 v st = backing L v st + d := by
    have : backing L v st = balance L v - escrow L st := rfl
    have : backing L1 v st = balance L1 v - escrow L1 st := rfl
    omega
  obtain ⟨x, accs, logs, q⟩ := h3.path
  have loss := (C65_staker_loses_dust hr1 hi1 hv h2 (q.append hp)
    (by
      intro e he
      rcases List.mem_append.1 he with he | he
      · exact hno e he
      · rw [List.mem_singleton.1 he]
        rintro ⟨⟨_, _, _, _, hl⟩, _⟩
        cases hl)
    h4 hm hwv).2 (by omega)
  have rise := C71_price_rise_of_a_call hr1 hi1 hv h2
  rw [hs, e1] at loss rise
  have ew : w = redeemFor a.toNat (backing L2 v st) (supply L2 XORCA_MINT_ID) := by omega
  have k := redeemFor_mul_le a.toNat (backing L2 v st) (supply L2 XORCA_MINT_ID)
  rw [← ew] at k
  exact griefing_arith ha (payout_after_stake ha (by omega) k rise) loss

/-- 5 ORCA given to a pool with one unit: the victim loses 48019 of 98000 units, the attack costs 4950020. -/
example := C112_griefing_is_expensive (d := 5000000) (w := 49981) (wv := 49981) Demo.reachP2 Demo.initP2 Demo.va_addr
  Demo.figuresG.2.1 Demo.figuresG.2.2.1 Demo.envP3 Demo.figuresG.2.2.2.1 Demo.figuresG.2.2.2.2.1
  (Demo.took_run Demo.signersP4 Demo.runP4) Demo.figuresG.2.2.2.2.2.1 (Demo.took_run Demo.signersP5 Demo.runP5)
  Demo.figuresG.2.2.2.2.2.2.1 .nil (by simp) (Demo.took_run Demo.signersP6 Demo.runP6) Demo.figuresG.2.2.2.2.2.2.2

/-- The factor is sharp: 10000 units given to a pool with one unit make a victim who stakes 200 lose 99, and cost 9901, less
than 101 times as much. -/
theorem C112_factor_is_sharp :
    mintFor 200 10001 1 = 1 ∧ redeemFor 1 10201 2 = 100 ∧ redeemFor 1 10101 1 = 101 ∧
      redeemFor 1 1 1 + 10000 - 100 < 101 * (200 - 101) := by decide

end Xorca
