import Verif.Lemmas.Replay
import Verif.Lemmas.DemoCalls
/-
C85: what an indexer that reads only the program's events knows about the pool.
-/
namespace Xorca
open Spec

variable {cr : Crypto} {L L' : Ledger} {st v : Pubkey} {b : UInt8} {h : List Entry} {I : Index}

/-- An indexer that is right once stays right by reading the events, whatever happens: about the escrow, the authority
and the number of open requests exactly, about the supply from above and the vault from below. -/
theorem C85_events_track_pool (hr : Reachable cr L) (hi : Initialised cr L st) (hv : VaultAddr cr st v b)
    (t : I.Tracks L st v) (hp : Path cr L h L') : (I.replay (eventsOf h)).Tracks L' st v := by
  induction hp with
  | nil => exact t
  | @step h e q ok ih =>
    rw [eventsOf, Index.replay_append]
    exact ih.step ok (hr.path q) (C26_state_permanent hr hi q).1 hv

/-- If moreover nobody gave ORCA to the vault or burned xORCA outside the program, it also knows the vault and the
supply exactly, and so the exchange rate. -/
theorem C85_events_give_price (hr : Reachable cr L) (hi : Initialised cr L st) (hv : VaultAddr cr st v b)
    (hs : I.supply = supply L XORCA_MINT_ID) (hb : I.vault = balance L v)
    (hp : Path cr L h L') (hq : ∀ e ∈ h, Quiet v e) :
    (I.replay (eventsOf h)).supply = supply L' XORCA_MINT_ID ∧ (I.replay (eventsOf h)).vault = balance L' v := by
  induction hp with
  | nil => exact ⟨hs, hb⟩
  | @step h e q ok ih =>
    rw [eventsOf, Index.replay_append]
    obtain ⟨i1, i2⟩ := ih fun f hf => hq f (List.mem_cons_of_mem _ hf)
    have qe := hq e List.mem_cons_self
    have key := emits ok (hr.path q) (C26_state_permanent hr hi q).1 hv
    revert key
    generalize e.label.events = evs
    generalize I.replay (eventsOf h) = J at i1 i2
    intro key
    cases key with
    | stake _ h1 h2 h3 => exact ⟨h3, h1⟩
    | unstake _ h1 h2 h3 => exact ⟨h3, h1⟩
    | @withdraw es w c i k _ h2 h3 h5 h6 h7 h8 h9 _ =>
      refine ⟨i1.trans h9.symm, ?_⟩
      show J.vault - w.toNat = balance e.post v
      omega
    | authority _ h1 h2 h3 h4 h5 h6 => exact ⟨i1.trans h6.symm, i2.trans h5.symm⟩
    | silent _ h1 h2 h3 h4 h5 h6 => exact ⟨i1.trans (h6 qe).2.symm, i2.trans (h6 qe).1.symm⟩

/-- Right after a Stake or an Unstake the indexer is exact, whatever was given or burned before. -/
theorem C85_exact_after_trade {e : Entry} (hr : Reachable cr L) (hi : Initialised cr L st) (hv : VaultAddr cr st v b)
    (hp : Path cr L (e :: h) L') (he : isTrade e = true) :
    (I.replay (eventsOf (e :: h))).supply = supply L' XORCA_MINT_ID ∧
    (I.replay (eventsOf (e :: h))).vault = balance L' v := by
  cases hp with
  | @step h e q ok =>
    rw [eventsOf, Index.replay_append]
    have key := emits ok (hr.path q) (C26_state_permanent hr hi q).1 hv
    revert key
    generalize e.label.events = evs
    generalize I.replay (eventsOf h) = J
    intro key
    cases key with
    | stake _ h1 h2 h3 => exact ⟨h3, h1⟩
    | unstake _ h1 h2 h3 => exact ⟨h3, h1⟩
    | withdraw hl => obtain ⟨_, _, _, _, hl⟩ := hl; simp [isTrade, hl] at he
    | authority hl => obtain ⟨_, _, _, _, hl⟩ := hl; simp [isTrade, hl] at he
    | silent hl => rcases hl with hl | ⟨_, _, _, _, hl⟩ <;> simp [isTrade, hl] at he

/-- The events account for the escrow: what it was, plus what they say was set aside, less what they say was paid. -/
theorem C85_escrow_from_amounts (hr : Reachable cr L) (hi : Initialised cr L st) (hv : VaultAddr cr st v b)
    (hp : Path cr L h L') :
    escrow L' st + ((eventsOf h).map Event.paidOut).sum = escrow L st + ((eventsOf h).map Event.setAside).sum := by
  induction hp with
  | nil => rfl
  | @step h e q ok ih =>
    have key := emits ok (hr.path q) (C26_state_permanent hr hi q).1 hv
    rw [eventsOf]
    simp only [List.map_append, List.sum_append]
    revert key
    generalize e.label.events = evs
    intro key
    cases key <;> simp [Event.paidOut, Event.setAside] <;> omega

/-- They also account for the vault, up to gifts: it holds at least what it held, plus what they say was paid in, less
what they say was paid out. -/
theorem C85_vault_from_amounts (hr : Reachable cr L) (hi : Initialised cr L st) (hv : VaultAddr cr st v b)
    (hp : Path cr L h L') :
    balance L v + ((eventsOf h).map Event.paidIn).sum ≤ balance L' v + ((eventsOf h).map Event.paidOut).sum ∧
    ((∀ e ∈ h, Quiet v e) →
      balance L v + ((eventsOf h).map Event.paidIn).sum = balance L' v + ((eventsOf h).map Event.paidOut).sum) := by
  induction hp with
  | nil => exact ⟨Nat.le_refl _, fun _ => rfl⟩
  | @step h e q ok ih =>
    have key := emits ok (hr.path q) (C26_state_permanent hr hi q).1 hv
    rw [eventsOf]
    simp only [List.map_append, List.sum_append]
    have hq : (∀ f ∈ e :: h, Quiet v f) → (∀ f ∈ h, Quiet v f) ∧ Quiet v e := fun H =>
      ⟨fun f hf => H f (List.mem_cons_of_mem _ hf), H e List.mem_cons_self⟩
    revert key
    generalize e.label.events = evs
    intro key
    obtain ⟨i1, i2⟩ := ih
    cases key with
    | silent _ _ _ _ h4 _ h6 =>
      simp
      refine ⟨by omega, fun h7 h8 => ?_⟩
      have := i2 h8
      have := h6 h7
      omega
    | stake =>
      simp [Event.paidOut, Event.paidIn]
      exact ⟨by omega, fun _ h8 => by have := i2 h8; omega⟩
    | unstake =>
      simp [Event.paidOut, Event.paidIn]
      exact ⟨by omega, fun _ h8 => by have := i2 h8; omega⟩
    | withdraw =>
      simp [Event.paidOut, Event.paidIn]
      exact ⟨by omega, fun _ h8 => by have := i2 h8; omega⟩
    | authority =>
      simp [Event.paidOut, Event.paidIn]
      exact ⟨by omega, fun _ h8 => by have := i2 h8; omega⟩

/-- Starting from nothing: an indexer that is told only the authority named in Initialize and then reads every event
ever logged is right about the pool. -/
theorem C85_whole_log_tracks_pool (hh : Hist cr h L) (hi : Initialised cr L st) (hv : VaultAddr cr st v b) :
    ∃ x accs c logs e au, e ∈ h ∧ e.label = .call x accs (.Initialize c) logs ∧ SignedBy accs 1 au ∧
      (Index.replay ⟨0, 0, 0, au, 0⟩ (eventsOf h)).Tracks L st v := by
  obtain ⟨L0, g, q⟩ := hh
  induction q with
  | nil => exact absurd (g.blank st hi.2.1) (not_allZero (o := 0) (by rw [hi.2.2]; decide))
  | @step h e q ok ih =>
    have hr : Reachable cr e.pre := ⟨h, L0, g, q⟩
    simp only [eventsOf, Index.replay_append]
    by_cases hpre : Initialised cr e.pre st
    · obtain ⟨x, accs, c, logs, e0, au, hm, hl, s1, t⟩ := ih hpre
      exact ⟨x, accs, c, logs, e0, au, List.mem_cons_of_mem _ hm, hl, s1, t.step ok hr hpre hv⟩
    · have nopool : ∀ st' v', ¬ Pool cr e.pre st' v' := by
        intro st' v' p
        have p' := (ok.inv hr.inv).2 _ _ p
        obtain ⟨b', hb'⟩ := hi.1
        obtain ⟨rfl, _⟩ := stateAddr_unique hb' p'.acc.addr
        exact hpre ⟨⟨_, p.acc.addr⟩, p.prog, p.acc.tag⟩
      rw [q.no_events ⟨[], L0, g, .nil⟩ nopool]
      cases ok with
      | @env M M' s =>
        rcases s.given st hi.2.1 with h0 | ⟨h1, h2⟩
        · exact absurd h0 (not_allZero (o := 0) (by rw [hi.2.2]; decide))
        · exact absurd ⟨hi.1, h1, by rw [← h2]; exact hi.2.2⟩ hpre
      | @call x accs ix logs M M' hcr hrent hs hrun =>
        subst hcr
        have inv := hr.inv
        simp only at inv nopool hi
        cases ix with
        | Stake a =>
          obtain ⟨s, v', oa, xa, xm, st', om, tp, L1, w, r, f, p, -⟩ := inv.stake hs hrun.dispatch
          exact absurd p (nopool _ _)
        | Unstake a i =>
          obtain ⟨u, st', pw, xa, xm, om, v', sp, tp, L1, L3, w, e', ts, b', r, f, p, -⟩ :=
            inv.unstake hrent hs hrun.dispatch
          exact absurd p (nopool _ _)
        | Withdraw i =>
          obtain ⟨u, st', pw, oa, v', om, sp, tp, L1, L2, e', r, f, p, -⟩ := inv.withdraw hs hrun.dispatch
          exact absurd p (nopool _ _)
        | Set ins =>
          obtain ⟨a, st', v', r, p, -⟩ := inv.set hrun.dispatch
          exact absurd p (nopool _ _)
        | Initialize c =>
          obtain ⟨pay, au, st', v', xm, om, sp, tp, ap, L1, b', vb, r, f, hbl, p', i', hno⟩ :=
            inv.initialize hrent hs hrun.dispatch
          obtain ⟨b0, hb0⟩ := hi.1
          obtain ⟨rfl, _⟩ := stateAddr_unique hb0 p'.acc.addr
          obtain ⟨rfl, _⟩ := vaultAddr_unique hv p'.v_addr
          obtain ⟨rest, ha⟩ := r.accs_eq
          obtain ⟨a0, a1, a2, a3⟩ := getElem?_of_cons9 ha
          obtain ⟨l, g1, g2⟩ := f.st_new
          obtain ⟨c0, c6, c7, c8, c16, c24⟩ := initialStateBytes_fields b' vb c au.key
          have hs0 : supply M' XORCA_MINT_ID = 0 := by
            subst ha
            obtain ⟨_, _, _, _, k1, _, _, _, _, _, k2, _⟩ := Props.C27_fresh_safe_mint hrun hs
            rw [← k1, supply, supply, k2]
          refine ⟨x, accs, c, logs, _, au.key, List.mem_cons_self, rfl, ⟨au, a1, rfl, r.au_signer⟩, ?_⟩
          have hl0 := r.log
          subst hl0
          refine ⟨?_, ?_, fun rs h1 => ?_, Nat.le_of_eq hs0, Nat.zero_le _⟩
          · show 0 = escrow M' st'.key
            rw [escrow, g1]; simp only; rw [c8]; rfl
          · show au.key = authority M' st'.key
            rw [authority, g1]; simp only; rw [c24]
          · cases rs with
            | nil => rfl
            | cons k rs => exact absurd ((h1.2 k).1 List.mem_cons_self) (hno k)

/-- What the log does not tell: the cool-down.  A change of it is silent, so two ledgers with the same log can differ
in it; but every Unstake and Withdraw event reports the cool-down in force. -/
theorem C85_cool_down_in_events {e : Entry} (ok : e.Ok cr) (hr : Reachable cr e.pre) (hi : Initialised cr e.pre st)
    (hv : VaultAddr cr st v b) :
    (∀ a vb es su w c i, Event.Unstake a vb es su w c i ∈ e.label.events → c.toInt = coolDown e.post st) ∧
    (∀ es w c i, Event.Withdraw es w c i ∈ e.label.events → c.toInt = coolDown e.post st) := by
  have key := emits ok hr hi hv
  revert key
  generalize e.label.events = evs
  intro key
  cases key with
  | stake => simp
  | unstake =>
    rename_i hc
    refine ⟨?_, by simp⟩
    intro a vb es su w c i hm
    simp only [List.mem_singleton, Event.Unstake.injEq] at hm
    obtain ⟨-, -, -, -, -, rfl, -⟩ := hm
    exact hc.1
  | withdraw =>
    rename_i hc
    refine ⟨by simp, ?_⟩
    intro es w c i hm
    simp only [List.mem_singleton, Event.Withdraw.injEq] at hm
    obtain ⟨-, -, rfl, -⟩ := hm
    exact hc.1
  | authority => simp
  | silent => simp

theorem C85_cool_down_not_logged : ∃ (cr : Crypto) (h h' : List Entry) (L L' : Ledger) (st : Pubkey),
    Hist cr h L ∧ Hist cr h' L' ∧ Initialised cr L st ∧ Initialised cr L' st ∧ eventsOf h = eventsOf h' ∧
    coolDown L st ≠ coolDown L' st := by
  refine ⟨Demo.cr, _, _, Demo.L6, Demo.L7, Demo.ST, Demo.hist6, Demo.hist7, Demo.init6, ?_, ?_, ?_⟩
  · exact (C26_state_permanent Demo.reach6 Demo.init6 (Demo.path_call .nil Demo.signers7 Demo.run7)).1
  · decide +kernel
  · decide +kernel

/-! ### Examples -/

/-- The whole log of the demo history, with two Stakes, two Unstakes, a Withdraw and a change of authority from the
user to `AU`, gives the final figures. -/
example : Index.replay ⟨0, 0, 0, Demo.US, 0⟩
    (eventsOf [Demo.e9, Demo.e8, Demo.e7, Demo.e6, Demo.e5, Demo.e4, Demo.e3, Demo.e2, Demo.e1]) =
    ⟨1499, 599006, 900030, Demo.AU, 1⟩ := by decide +kernel
example : escrow Demo.L9 Demo.ST = 1499 ∧ supply Demo.L9 XORCA_MINT_ID = 599006 ∧ balance Demo.L9 Demo.VA = 900030 ∧
    authority Demo.L9 Demo.ST = Demo.AU := by decide +kernel
example := C85_whole_log_tracks_pool Demo.hist9 Demo.init9 Demo.va_addr

/-- A gift that is not logged: between the two Stakes the vault holds more than the log says. -/
example : Index.replay ⟨0, 0, 0, Demo.US, 0⟩ (eventsOf [Demo.e3, Demo.e2, Demo.e1]) =
    ⟨0, 1000000, 1000000, Demo.US, 0⟩ ∧ balance Demo.L3 Demo.VA = 1500000 := by decide +kernel

example : ∃ I : Index, I.Tracks Demo.L4 Demo.ST Demo.VA ∧
    (I.replay (eventsOf [Demo.e9, Demo.e8, Demo.e7, Demo.e6, Demo.e5])).Tracks Demo.L9 Demo.ST Demo.VA := by
  obtain ⟨x, accs, c, logs, e, au, h1, h2, h3, t⟩ := C85_whole_log_tracks_pool Demo.hist4 Demo.init4 Demo.va_addr
  exact ⟨_, t, C85_events_track_pool Demo.reach4 Demo.init4 Demo.va_addr t Demo.path49⟩

example := C85_events_give_price (I := ⟨0, 1200006, 1800000, Demo.US, 0⟩) Demo.reach4 Demo.init4 Demo.va_addr
  Demo.figures4.2.2.2.1.symm Demo.figures4.2.1.symm Demo.path49 (by
    intro e he h
    simp only [List.mem_cons, List.not_mem_nil, or_false] at he
    rcases he with rfl | rfl | rfl | rfl | rfl <;> cases h)
example (I : Index) := C85_exact_after_trade (I := I) Demo.reach2 Demo.init2 Demo.va_addr Demo.path24 rfl

example := C85_escrow_from_amounts Demo.reach4 Demo.init4 Demo.va_addr Demo.path49
example : ((eventsOf [Demo.e9, Demo.e8, Demo.e7, Demo.e6, Demo.e5]).map Event.setAside).sum = 901469 ∧
    ((eventsOf [Demo.e9, Demo.e8, Demo.e7, Demo.e6, Demo.e5]).map Event.paidOut).sum = 899970 := by decide +kernel
example := C85_vault_from_amounts Demo.reach2 Demo.init2 Demo.va_addr Demo.path24
example := C85_cool_down_in_events Demo.ok9 (by rw [Demo.pre9]; exact Demo.reach8) (by rw [Demo.pre9]; exact Demo.init8)
  Demo.va_addr

end Xorca
