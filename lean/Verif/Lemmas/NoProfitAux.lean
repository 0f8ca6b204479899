import Verif.Props.Histories
import Verif.Props.Conservation
import Verif.Props.Liveness
import Verif.Lemmas.DemoBooks
import Mathlib.Algebra.BigOperators.Ring.Finset
import Mathlib.Algebra.Order.BigOperators.Group.Finset
/-
Lemmas for `Props/NoProfit.lean`.
-/
namespace Xorca
open Spec

variable {cr : Crypto} {L L' : Ledger} {st v : Pubkey} {b : UInt8} {h : List Entry}

theorem backing_flow {h0 : List Entry} (hh : Hist cr h0 L) (hi : Initialised cr L st) (hv : VaultAddr cr st v b)
    (hp : Path cr L h L') :
    backing L' v st + (h.map (setAside st v)).sum =
      backing L v st + (h.map staked).sum + (h.map (donated st v)).sum := by
  obtain ⟨L0, g, q⟩ := hh
  have hr : Reachable cr L := ⟨h0, L0, g, q⟩
  have p := reachable_pool hr hi hv
  have p' := (hp.inv hr.inv).2 st v p
  have hi' : Initialised cr L' st := ⟨hi.1, p'.prog, p'.acc.tag⟩
  have f1 := C45_flow_accounting ⟨L0, g, q⟩ hi hv
  have f2 := C45_flow_accounting ⟨L0, g, q.append hp⟩ hi' hv
  simp only [List.map_append, List.sum_append] at f2
  have b1 := p.backed
  have b2 := p'.backed
  unfold backing
  omega

theorem no_profit_arith {n s n' s' y i o : Nat} (hy : y ≤ s) (hy' : y ≤ s') (hflow : n' + o = n + i)
    (hprice : (n + 100) * (s' + 100) ≤ (n' + 100) * (s + 100)) :
    (redeemFor (s' - y) n' s' + o) * (s + 100) ≤ i * (s + 100) + (s - y) * (n + 100) := by
  have h1 := redeemFor_mul_le (s' - y) n' s'
  generalize redeemFor (s' - y) n' s' = w at *
  obtain ⟨c, rfl⟩ := Nat.exists_eq_add_of_le hy
  obtain ⟨c', rfl⟩ := Nat.exists_eq_add_of_le hy'
  rw [Nat.add_sub_cancel_left] at *
  -- everything times (y + c' + 100)
  refine Nat.le_of_mul_le_mul_right ?_ (show 0 < y + c' + 100 by omega)
  have h2 : w * (y + c' + 100) * (y + c + 100) ≤ c' * (n' + 100) * (y + c + 100) := Nat.mul_le_mul_right _ h1
  have h3 : (y + 100) * ((n + 100) * (y + c' + 100)) ≤ (y + 100) * ((n' + 100) * (y + c + 100)) :=
    Nat.mul_le_mul_left _ hprice
  have h4 : (n' + o) * ((y + c + 100) * (y + c' + 100)) = (n + i) * ((y + c + 100) * (y + c' + 100)) := by rw [hflow]
  nlinarith

theorem mintOk_of_runs {x : Ctx} {accs : List Meta} {ix : Instruction} {logs : List Bytes} (i : Inv x.cr L)
    (h : Runs x L accs ix L' logs) : MintOk L XORCA_MINT_ID := by
  have hd := h.dispatch
  have ofPool : ∀ {st v}, Pool x.cr L st v → MintOk L XORCA_MINT_ID := fun p =>
    ⟨p.mint.prog, p.mint.len, p.mint.init⟩
  cases ix with
  | Stake a =>
    obtain ⟨s, v, oa, xa, xm, st, om, tp, L1, m, r⟩ := processStake_run hd
    exact ofPool (i.poolOf r.st_prog r.st_disc).choose_spec
  | Unstake a j =>
    obtain ⟨u, st, pw, xa, xm, om, v, sp, tp, L1, L3, w, e, ts, b, r⟩ := processUnstake_run hd
    exact ofPool (i.poolOf r.st_prog r.st_disc).choose_spec
  | Withdraw j =>
    obtain ⟨u, st, pw, oa, v, om, sp, tp, L1, L2, e, r⟩ := processWithdraw_run hd
    exact ofPool (i.poolOf r.st_prog r.st_disc).choose_spec
  | Initialize c =>
    obtain ⟨p, au, st, v, xm, om, sp, tp, ap, L1, b, vb, r⟩ := processInitialize_run hd
    rcases i.shape r.xm_prog with h0 | ⟨h1, h2⟩
    · exact absurd h0 (not_allZero (o := 44) (by rw [r.xm_decimals]; decide))
    · exact ⟨r.xm_prog, h1, h2⟩
  | Set u =>
    obtain ⟨a, st, d, r, rfl⟩ := processSet_run hd
    exact ofPool (i.poolOf r.st_prog r.st_disc).choose_spec

theorem sum_redeemFor_le (n s : Nat) (f : Pubkey → Nat) (S : Finset Pubkey) :
    ∑ k ∈ S, redeemFor (f k) n s ≤ redeemFor (∑ k ∈ S, f k) n s := by
  unfold redeemFor
  rw [Nat.le_div_iff_mul_le (by omega), Finset.sum_mul, Finset.sum_mul]
  exact Finset.sum_le_sum fun k _ => Nat.div_mul_le_self _ _

end Xorca
