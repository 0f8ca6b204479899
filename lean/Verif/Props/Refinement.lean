import Verif.Lemmas.View
/-
C73: the program refines the abstract pool machine of `View`.
-/
namespace Xorca
open Spec

variable {cr : Crypto} {L L' : Ledger} {st v : Pubkey} {b : UInt8} {h : List Entry}

/-- Every path from a reachable ledger with a pool is, step for step, a run of the abstract machine. -/
theorem C73_every_path_is_a_run (hr : Reachable cr L) (hi : Initialised cr L st) (hv : VaultAddr cr st v b)
    (hp : Path cr L h L') : ViewRun cr (view L st v) (h.map (·.label)) (view L' st v) := by
  have p : ∃ v', Pool cr L st v' := hr.inv.ofInitialised hi
  induction hp with
  | nil => exact .nil
  | @step h e q ok ih =>
    obtain ⟨v', p⟩ := p
    have p1 := (q.inv hr.inv).2 st v' p
    have hr1 : Reachable cr e.pre := by
      obtain ⟨g0, L0, g, q0⟩ := hr
      exact ⟨_, L0, g, q0.append q⟩
    exact .step ih (view_step ok hr1 ⟨hi.1, p1.prog, p1.acc.tag⟩ hv)

/-- Stake, donation, stake. -/
example := C73_every_path_is_a_run Demo.reach2 Demo.init2 Demo.va_addr Demo.path24
/-- Two Unstakes, two Sets, a Withdraw. -/
example := C73_every_path_is_a_run Demo.reach4 Demo.init4 Demo.va_addr Demo.path49

/-- The machine is not trivial: its view of the demo ledger before and after the Withdraw. -/
example : (view Demo.L8 Demo.ST Demo.VA).requests Demo.R255 = some ⟨Demo.US, 255, 899970, 1103⟩ ∧
    (view Demo.L9 Demo.ST Demo.VA).requests Demo.R255 = none ∧
    (view Demo.L9 Demo.ST Demo.VA).requests Demo.R0 = some ⟨Demo.US, 0, 1499, 1104⟩ := by decide +kernel

/-- A ledger with a pool has one Initialize in its history.  It started the machine with no xORCA, no ORCA and no
requests, and with the cool-down and the authority of that call; all that came later is a run from there. -/
theorem C73_every_history_is_a_run (hh : Hist cr h L) (hi : Initialised cr L st) (hv : VaultAddr cr st v b) :
    ∃ h2 e h1 x accs c logs au, h = h2 ++ e :: h1 ∧ e.label = .call x accs (.Initialize c) logs ∧
      SignedBy accs 0 DEPLOYER_ADDRESS ∧ SignedBy accs 1 au ∧ Names accs 2 st ∧ 0 ≤ c.toInt ∧
      ViewRun cr ⟨0, 0, c.toInt, au, fun _ => none⟩ (h2.map (·.label)) (view L st v) := by
  obtain ⟨L0, g, q⟩ := hh
  induction q with
  | nil => exact absurd (g.blank st hi.2.1) (not_allZero (o := 0) (by rw [hi.2.2]; decide))
  | @step h e q ok ih =>
    have hr : Reachable cr e.pre := ⟨h, L0, g, q⟩
    by_cases hpre : Initialised cr e.pre st
    · obtain ⟨h2, e0, h1, x, accs, c, logs, au, rfl, hl, s0, s1, n2, hc, hrun⟩ := ih hpre
      exact ⟨e :: h2, e0, h1, x, accs, c, logs, au, rfl, hl, s0, s1, n2, hc, .step hrun (view_step ok hr hpre hv)⟩
    · -- this step is the Initialize
      have nopool : ∀ st' v', ¬ Pool cr e.pre st' v' := by
        intro st' v' p
        have p' := (ok.inv hr.inv).2 _ _ p
        obtain ⟨b', hb'⟩ := hi.1
        obtain ⟨rfl, _⟩ := stateAddr_unique hb' p'.acc.addr
        exact hpre ⟨⟨_, p.acc.addr⟩, p.prog, p.acc.tag⟩
      refine ⟨[], e, h, ?_⟩
      cases ok with
      | @env M M' s =>
        rcases s.given st hi.2.1 with h0 | ⟨h1, h2⟩
        · exact absurd h0 (not_allZero (o := 0) (by rw [hi.2.2]; decide))
        · exact absurd ⟨hi.1, h1, by rw [← h2]; exact hi.2.2⟩ hpre
      | @call x accs ix logs M M' hcr hrent hs hrun =>
        subst hcr
        have inv := hr.inv
        simp only at inv nopool hi
        cases ix with
        | Stake a =>
          obtain ⟨s, v', oa, xa, xm, st', om, tp, L1, w, r, f, p, -⟩ := inv.stake hs hrun.dispatch
          exact absurd p (nopool _ _)
        | Unstake a i =>
          obtain ⟨u, st', pw, xa, xm, om, v', sp, tp, L1, L3, w, e', ts, b', r, f, p, -⟩ :=
            inv.unstake hrent hs hrun.dispatch
          exact absurd p (nopool _ _)
        | Withdraw i =>
          obtain ⟨u, st', pw, oa, v', om, sp, tp, L1, L2, e', r, f, p, -⟩ := inv.withdraw hs hrun.dispatch
          exact absurd p (nopool _ _)
        | Set ins =>
          obtain ⟨a, st', v', r, p, -⟩ := inv.set hrun.dispatch
          exact absurd p (nopool _ _)
        | Initialize c =>
          obtain ⟨pay, au, st', v', xm, om, sp, tp, ap, L1, b', vb, r, f, hbl, p', i', hno⟩ :=
            inv.initialize hrent hs hrun.dispatch
          obtain ⟨b0, hb0⟩ := hi.1
          obtain ⟨rfl, _⟩ := stateAddr_unique hb0 p'.acc.addr
          obtain ⟨rfl, _⟩ := vaultAddr_unique hv p'.v_addr
          obtain ⟨rest, ha⟩ := r.accs_eq
          obtain ⟨a0, a1, a2, a3⟩ := getElem?_of_cons9 ha
          obtain ⟨l, g1, g2⟩ := f.st_new
          obtain ⟨l2, g3, g4⟩ := f.v_new
          obtain ⟨c0, c6, c7, c8, c16, c24⟩ := initialStateBytes_fields b' vb c au.key
          have hs0 : supply M' XORCA_MINT_ID = 0 := by
            subst ha
            obtain ⟨_, _, _, _, k1, _, _, _, _, _, k2, _⟩ := Props.C27_fresh_safe_mint hrun hs
            rw [← k1, supply, supply, k2]
          have hb0 : backing M' v'.key st'.key = 0 := by
            have : balance M' v'.key = 0 := by
              rw [balance, g3]
              simp only
              rw [(freshToken_fields ORCA_MINT_ID st'.key).2.2.2.1]
              rfl
            rw [backing, this, Nat.zero_sub]
          refine ⟨x, accs, c, logs, au.key, rfl, rfl, ⟨pay, a0, r.deployer, r.signer⟩, ⟨au, a1, rfl, r.au_signer⟩,
            ⟨st', a2, rfl⟩, r.cool, ?_⟩
          have : view M' st'.key v'.key = ⟨0, 0, c.toInt, au.key, fun _ => none⟩ := by
            refine view_ext hs0 hb0 ?_ ?_ (fun k => requestAt_none (hno k))
            · show coolDown M' st'.key = c.toInt
              rw [coolDown, g1]; simp only; rw [c16]
            · show authority M' st'.key = au.key
              rw [authority, g1]; simp only; rw [c24]
          simp only
          rw [this]
          exact .nil

example := C73_every_history_is_a_run Demo.hist4 Demo.init4 Demo.va_addr

end Xorca
