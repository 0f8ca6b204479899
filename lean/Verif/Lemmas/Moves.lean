import Verif.Lemmas.Trace
/-
The effect of single calls on the supply, the escrow and the vault balance of a pool.
-/
namespace Xorca
open Spec

variable {x : Ctx} {L L' : Ledger} {st v : Pubkey} {b : UInt8} {accs : List Meta} {logs : List Bytes}

theorem reach_call {ix : Instruction} (hr : Reachable x.cr L) (hrent : ∀ n, x.rentMin n ≠ 0)
    (hs : SignersOk x.cr L accs) (h : Runs x L accs ix L' logs) : Reachable x.cr L' := by
  obtain ⟨h0, L0, g, p⟩ := hr
  exact ⟨_, L0, g, .step (e := ⟨L, .call x accs ix logs, L'⟩) p (.call rfl hrent hs h)⟩

theorem reach_env {cr : Crypto} (hr : Reachable cr L) (he : EnvStep cr L L') : Reachable cr L' := by
  obtain ⟨h0, L0, g, p⟩ := hr
  exact ⟨_, L0, g, .step (e := ⟨L, .env, L'⟩) p (.env he)⟩

theorem pool_call {ix : Instruction} (hr : Reachable x.cr L) (hrent : ∀ n, x.rentMin n ≠ 0)
    (hs : SignersOk x.cr L accs) (h : Runs x L accs ix L' logs) (p : Pool x.cr L st v) : Pool x.cr L' st v :=
  ((Path.step (e := ⟨L, .call x accs ix logs, L'⟩) .nil (.call rfl hrent hs h)).inv hr.inv).2 st v p

theorem pool_env {cr : Crypto} (hr : Reachable cr L) (he : EnvStep cr L L') (p : Pool cr L st v) : Pool cr L' st v :=
  ((Path.step (e := ⟨L, .env, L'⟩) .nil (.env he)).inv hr.inv).2 st v p

theorem stake_move {a : UInt64} (hr : Reachable x.cr L) (hrent : ∀ n, x.rentMin n ≠ 0) (hs : SignersOk x.cr L accs)
    (h : Runs x L accs (.Stake a) L' logs) (p : Pool x.cr L st v) :
    supply L' XORCA_MINT_ID = supply L XORCA_MINT_ID + mintFor a.toNat (backing L v st) (supply L XORCA_MINT_ID) ∧
    backing L' v st = backing L v st + a.toNat ∧ escrow L' st = escrow L st := by
  have m := Spec.Entry.Ok.move (e := ⟨L, .call x accs (.Stake a) logs, L'⟩) (.call rfl hrent hs h) hr.inv p
  have hb := p.backed
  cases m with
  | stake n hl h1 h2 h3 =>
    obtain ⟨_, _, n', _, he, hn⟩ := hl
    simp only [Label.call.injEq, Instruction.Stake.injEq] at he
    obtain ⟨_, _, rfl, _⟩ := he
    subst hn
    refine ⟨h1, ?_, h2⟩
    unfold backing
    simp only at h2 h3
    omega
  | unstake n hl => obtain ⟨_, _, _, _, _, he, _⟩ := hl; simp at he
  | withdraw n hl => obtain ⟨_, _, _, _, _, he, _⟩ := hl; simp at he
  | set hl => obtain ⟨_, _, _, _, he⟩ := hl; simp at he
  | env hl => simp at hl

theorem unstake_move {a : UInt64} {i : UInt8} (hr : Reachable x.cr L) (hrent : ∀ n, x.rentMin n ≠ 0)
    (hs : SignersOk x.cr L accs) (h : Runs x L accs (.Unstake a i) L' logs) (p : Pool x.cr L st v) :
    supply L' XORCA_MINT_ID + a.toNat = supply L XORCA_MINT_ID ∧
    backing L' v st + redeemFor a.toNat (backing L v st) (supply L XORCA_MINT_ID) = backing L v st ∧
    escrow L' st = escrow L st + redeemFor a.toNat (backing L v st) (supply L XORCA_MINT_ID) := by
  have p' := pool_call hr hrent hs h p
  have m := Spec.Entry.Ok.move (e := ⟨L, .call x accs (.Unstake a i) logs, L'⟩) (.call rfl hrent hs h) hr.inv p
  have hb := p'.backed
  cases m with
  | unstake n hl h1 h2 h3 =>
    obtain ⟨_, _, n', _, _, he, hn⟩ := hl
    simp only [Label.call.injEq, Instruction.Unstake.injEq] at he
    obtain ⟨_, _, ⟨rfl, _⟩, _⟩ := he
    subst hn
    refine ⟨h1, ?_, h2⟩
    simp only at h2 h3
    have e1 : backing L' v st = balance L' v - escrow L' st := rfl
    have e2 : backing L v st = balance L v - escrow L st := rfl
    have b1 := p.backed
    omega
  | stake n hl => obtain ⟨_, _, _, _, he, _⟩ := hl; simp at he
  | withdraw n hl => obtain ⟨_, _, _, _, _, he, _⟩ := hl; simp at he
  | set hl => obtain ⟨_, _, _, _, he⟩ := hl; simp at he
  | env hl => simp at hl

end Xorca
