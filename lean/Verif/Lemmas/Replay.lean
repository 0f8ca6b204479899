import Verif.Replay
import Verif.Props.Client
import Verif.Props.Effects
import Verif.Props.Liveness
import Verif.Props.Invariants
import Verif.Trades
import Verif.Lemmas.View
/-
What a step logs, in terms of the ledgers around it.
-/
namespace Xorca
open Spec

variable {cr : Crypto} {st v : Pubkey} {b : UInt8}

/-- The events of a step of a ledger with a pool. -/
inductive Emits (e : Entry) (st v : Pubkey) : List Event → Prop
  | stake {a vb es su m : UInt64} (hl : ∃ x accs n logs, e.label = .call x accs (.Stake n) logs)
      (vault : vb.toNat = balance e.post v) (escrow : es.toNat = escrow e.post st)
      (supply : su.toNat = supply e.post XORCA_MINT_ID)
      (same : Spec.escrow e.post st = Spec.escrow e.pre st) (auth : authority e.post st = authority e.pre st)
      (recs : ∀ k, IsRecord e.post k ↔ IsRecord e.pre k)
      (paid : balance e.post v = balance e.pre v + a.toNat)
      (minted : Spec.supply e.post XORCA_MINT_ID = Spec.supply e.pre XORCA_MINT_ID + m.toNat) :
      Emits e st v [.Stake a vb es su m]
  | unstake {a vb es su w : UInt64} {c : Int64} {i : UInt8} {k : Pubkey}
      (hl : ∃ x accs n i logs, e.label = .call x accs (.Unstake n i) logs)
      (vault : vb.toNat = balance e.post v) (escrow : es.toNat = escrow e.post st)
      (supply : su.toNat = supply e.post XORCA_MINT_ID)
      (more : Spec.escrow e.post st = Spec.escrow e.pre st + w.toNat) (auth : authority e.post st = authority e.pre st)
      (new : ¬ IsRecord e.pre k ∧ IsRecord e.post k) (recs : ∀ j, j ≠ k → (IsRecord e.post j ↔ IsRecord e.pre j))
      (same : balance e.post v = balance e.pre v)
      (burned : Spec.supply e.post XORCA_MINT_ID + a.toNat = Spec.supply e.pre XORCA_MINT_ID)
      (cool : c.toInt = coolDown e.post st ∧ coolDown e.post st = coolDown e.pre st) :
      Emits e st v [.Unstake a vb es su w c i]
  | withdraw {es w : UInt64} {c : Int64} {i : UInt8} {k : Pubkey}
      (hl : ∃ x accs i logs, e.label = .call x accs (.Withdraw i) logs)
      (escrow : es.toNat = escrow e.post st)
      (less : Spec.escrow e.post st + w.toNat = Spec.escrow e.pre st) (auth : authority e.post st = authority e.pre st)
      (gone : IsRecord e.pre k ∧ ¬ IsRecord e.post k) (recs : ∀ j, j ≠ k → (IsRecord e.post j ↔ IsRecord e.pre j))
      (out : balance e.post v + w.toNat = balance e.pre v)
      (supply : supply e.post XORCA_MINT_ID = Spec.supply e.pre XORCA_MINT_ID)
      (cool : c.toInt = coolDown e.post st ∧ coolDown e.post st = coolDown e.pre st) :
      Emits e st v [.Withdraw es w c i]
  | authority {n o : Pubkey} (hl : ∃ x accs u logs, e.label = .call x accs (.Set u) logs)
      (new : n = authority e.post st) (old : o = Spec.authority e.pre st)
      (escrow : escrow e.post st = Spec.escrow e.pre st) (recs : ∀ k, IsRecord e.post k ↔ IsRecord e.pre k)
      (same : balance e.post v = balance e.pre v)
      (supply : supply e.post XORCA_MINT_ID = Spec.supply e.pre XORCA_MINT_ID) :
      Emits e st v [.UpdateAuthoritySet n o]
  | silent (hl : e.label = .env ∨ ∃ x accs c logs, e.label = .call x accs (.Set (.UpdateCoolDownPeriod c)) logs)
      (auth : Spec.authority e.post st = Spec.authority e.pre st)
      (escrow : escrow e.post st = Spec.escrow e.pre st) (recs : ∀ k, IsRecord e.post k ↔ IsRecord e.pre k)
      (vault : balance e.pre v ≤ balance e.post v)
      (supply : supply e.post XORCA_MINT_ID ≤ Spec.supply e.pre XORCA_MINT_ID)
      (quiet : Quiet v e → balance e.post v = balance e.pre v ∧
        Spec.supply e.post XORCA_MINT_ID = Spec.supply e.pre XORCA_MINT_ID) :
      Emits e st v []

theorem events_of {x : Ctx} {accs : List Meta} {ix : Instruction} {logs : List Bytes} {ev : Event}
    (h : logs = [ev.serialize]) : (Label.call x accs ix logs).events = [ev] := by
  have := C31_events_decode ev []
  rw [List.append_nil] at this
  subst h
  show List.filterMap Client.decodeEvent [ev.serialize] = [ev]
  rw [List.filterMap_cons, this]
  rfl

/-- The records are the same after a step that neither pays nor creates. -/
theorem recs_same {e : Entry} (ok : e.Ok cr) (inv : Inv cr e.pre) {j : Pubkey}
    (h1 : ∀ u oa i now, ¬ Pays e j u oa i now) (h2 : ∀ u st i now, ¬ Creates e j u st i now) :
    IsRecord e.post j ↔ IsRecord e.pre j := by
  rcases ok.record inv j with ⟨a, b, -⟩ | ⟨-, u, oa, i, now, h⟩ | ⟨-, u, st, i, now, h⟩ | ⟨a, b⟩
  · exact ⟨fun _ => a, fun _ => b⟩
  · exact absurd h (h1 _ _ _ _)
  · exact absurd h (h2 _ _ _ _)
  · exact ⟨fun h => absurd h b, fun h => absurd h a⟩

theorem emits {e : Entry} (ok : e.Ok cr) (hr : Reachable cr e.pre) (hi : Initialised cr e.pre st)
    (hv : VaultAddr cr st v b) : Emits e st v e.label.events := by
  have inv := hr.inv
  have p : Pool cr e.pre st v := reachable_pool hr hi hv
  have hset := settings_same ok hr hi hv
  have hrec := fun j => recs_same ok inv (j := j)
  have mv := ok.move inv p
  have ok' := ok
  cases ok with
  | @env L L' s =>
    simp only at *
    obtain ⟨c1, c2⟩ := hset (by intros; simp)
    cases mv with
    | env hl hs he hb =>
      refine .silent (.inl rfl) c2 he (fun k => hrec k ?_ ?_) hb hs (fun q => q rfl)
      · rintro u oa i now ⟨x, accs, logs, mu, mpw, moa, hl, _⟩; cases hl
      · rintro u oa i now ⟨x, accs, a, logs, mu, mst, mpw, hl, _⟩; cases hl
    | stake n hl => obtain ⟨_, _, _, _, he, _⟩ := hl; simp at he
    | unstake n hl => obtain ⟨_, _, _, _, _, he, _⟩ := hl; simp at he
    | withdraw n hl => obtain ⟨_, _, _, _, _, he, _⟩ := hl; simp at he
    | set hl => obtain ⟨_, _, _, _, he⟩ := hl; simp at he
  | @call x accs ix logs L L' hcr hrent hs hrun =>
    subst hcr
    simp only at *
    cases ix with
    | Stake a =>
      obtain ⟨s, v', oa, xa, xm, st', om, tp, L1, w, r, f, q, q', i'⟩ := inv.stake hs hrun.dispatch
      obtain ⟨rfl, rfl, _⟩ := p.unique q
      obtain ⟨c1, c2⟩ := hset (by intros; simp)
      obtain ⟨rest, ha⟩ := r.accs_eq
      have hrun' := hrun
      have hs' := hs
      rw [ha] at hrun' hs'
      have hev := Props.C29_stake_event hrun' hs'
      obtain ⟨w3, d1, d2⟩ := f.xa_data
      obtain ⟨w4, d3, d4⟩ := f.xm_data
      have l3 := f.xa_ok.len
      have l4 := f.xm_ok.len
      have e1 : balance L' xa.key - balance L xa.key = w.toNat := by
        rw [balance_of_writeAt (by omega) d1, d2]; omega
      have hlog : logs = [(Event.Stake a (readU64 (L' v'.key).data 64) (readU64 (L' st'.key).data 8)
          (readU64 (L' XORCA_MINT_ID).data 36) w).serialize] := by
        rw [hev, e1]; rfl
      rw [events_of hlog]
      cases mv with
      | stake n hl h1 h2 h3 =>
        obtain ⟨_, _, _, _, hl, rfl⟩ := hl
        cases hl
        refine .stake ⟨_, _, _, _, rfl⟩ rfl rfl rfl h2 c2 (fun k => hrec k ?_ ?_) h3 ?_
        · rintro u oa i now ⟨x, accs, logs, mu, mpw, moa, hl, _⟩; cases hl
        · rintro u oa i now ⟨x, accs, a, logs, mu, mst, mpw, hl, _⟩; cases hl
        · show supply L' XORCA_MINT_ID = supply L XORCA_MINT_ID + w.toNat
          rw [supply_of_writeAt (by omega) d3, d4]
      | unstake n hl => obtain ⟨_, _, _, _, _, he, _⟩ := hl; simp at he
      | withdraw n hl => obtain ⟨_, _, _, _, _, he, _⟩ := hl; simp at he
      | set hl => obtain ⟨_, _, _, _, he⟩ := hl; simp at he
      | env hl => simp at hl
    | Unstake a i =>
      obtain ⟨u, st', pw, xa, xm, om, v', sp, tp, L1, L3, w, e', ts, b', r, f, q, q', i'⟩ :=
        inv.unstake hrent hs hrun.dispatch
      obtain ⟨rfl, rfl, _⟩ := p.unique q
      obtain ⟨c1, c2⟩ := hset (by intros; simp)
      obtain ⟨rest, ha⟩ := r.accs_eq
      obtain ⟨a0, a1, a2, a3⟩ := getElem?_of_cons9 ha
      have hrun' := hrun
      have hs' := hs
      rw [ha] at hrun' hs'
      have hev := Props.C29_unstake_event hrun' hs'
      have heff := Props.C15_unstake_effects hrun' hs'
      have hlog : logs = [(Event.Unstake a (readU64 (L' v'.key).data 64) (readU64 (L' st'.key).data 8)
          (readU64 (L' XORCA_MINT_ID).data 36) (readU64 (L' pw.key).data 40) (readI64 (L' st'.key).data 16)
          (recIndex L' pw.key)).serialize] := by
        rw [hev, coolDown, Int64.ofInt_toInt]; rfl
      rw [events_of hlog]
      have hc : Creates ⟨L, .call x accs (.Unstake a i) logs, L'⟩ pw.key u.key st'.key i x.now.toInt :=
        ⟨x, accs, a, logs, u, st', pw, rfl, a0, rfl, r.signer, a1, rfl, a2, rfl, rfl⟩
      have cf := hc.facts ok' inv
      obtain ⟨-, -, -, -, -, g1, g2, -, -, -, -, -, g3, -⟩ := heff
      refine .unstake (k := pw.key) ⟨_, _, _, _, _, rfl⟩ rfl rfl rfl g3 c2 ⟨cf.fresh, cf.record⟩ (fun j hj => hrec j ?_ ?_)
        ?_ g1 ⟨rfl, c1⟩
      · rintro u oa i now ⟨x, accs, logs, mu, mpw, moa, hl, _⟩; cases hl
      · rintro u oa i now ⟨x, accs, a, logs, mu, mst, mpw, hl, -, -, -, -, -, h2, rfl, -⟩
        cases hl
        rw [a2] at h2
        cases h2
        exact hj rfl
      · show balance L' v'.key = balance L v'.key
        rw [balance, balance, g2]
    | Withdraw i =>
      obtain ⟨u, st', pw, oa, v', om, sp, tp, L1, L2, e', r, f, q, q', i'⟩ := inv.withdraw hs hrun.dispatch
      obtain ⟨rfl, rfl, _⟩ := p.unique q
      obtain ⟨c1, c2⟩ := hset (by intros; simp)
      obtain ⟨rest, ha⟩ := r.accs_eq
      obtain ⟨a0, a1, a2, a3⟩ := getElem?_of_cons8 ha
      have hrun' := hrun
      have hs' := hs
      rw [ha] at hrun' hs'
      have hev := Props.C29_withdraw_event hrun' hs'
      obtain ⟨-, -, -, -, -, g1, g2, g3, -⟩ := Props.C14_withdraw_effects hrun' hs'
      have e1 : balance L' oa.key - balance L oa.key = recAmount L pw.key := by omega
      have hlog : logs = [(Event.Withdraw (readU64 (L' st'.key).data 8) (readU64 (L pw.key).data 40)
          (readI64 (L' st'.key).data 16) i).serialize] := by
        rw [hev, e1, coolDown, Int64.ofInt_toInt]; rfl
      rw [events_of hlog]
      have hp : Pays ⟨L, .call x accs (.Withdraw i) logs, L'⟩ pw.key u.key oa.key i x.now.toInt :=
        ⟨x, accs, logs, u, pw, oa, rfl, a0, rfl, r.signer, a2, rfl, a3, rfl, rfl⟩
      have pf := hp.facts ok'
      have hs0 : supply L' XORCA_MINT_ID = supply L XORCA_MINT_ID := by
        cases mv with
        | withdraw n hl h1 h2 h3 => exact h1
        | stake n hl => obtain ⟨_, _, _, _, he, _⟩ := hl; simp at he
        | unstake n hl => obtain ⟨_, _, _, _, _, he, _⟩ := hl; simp at he
        | set hl => obtain ⟨_, _, _, _, he⟩ := hl; simp at he
        | env hl => simp at hl
      refine .withdraw (k := pw.key) ⟨_, _, _, _, rfl⟩ rfl g3 c2 ⟨pf.record, pf.closed⟩ (fun j hj => hrec j ?_ ?_)
        g2 hs0 ⟨rfl, c1⟩
      · rintro u oa i now ⟨x, accs, logs, mu, mpw, moa, hl, -, -, -, h2, rfl, -⟩
        cases hl
        rw [a2] at h2
        cases h2
        exact hj rfl
      · rintro u oa i now ⟨x, accs, a, logs, mu, mst, mpw, hl, _⟩; cases hl
    | Initialize c =>
      obtain ⟨_, au, st', v', xm, om, sp, tp, ap, L1, b', vb, r, f, hbl, p', i', _⟩ :=
        inv.initialize hrent hs hrun.dispatch
      exact absurd (hbl _ p.prog) (not_allZero (o := 0) (by rw [p.acc.tag]; decide))
    | Set ins =>
      have hm : supply L' XORCA_MINT_ID = supply L XORCA_MINT_ID ∧ escrow L' st = escrow L st ∧
          balance L' v = balance L v := by
        cases mv with
        | set hl h1 h2 h3 => exact ⟨h1, h2, h3⟩
        | withdraw n hl => obtain ⟨_, _, _, _, _, he, _⟩ := hl; simp at he
        | stake n hl => obtain ⟨_, _, _, _, he, _⟩ := hl; simp at he
        | unstake n hl => obtain ⟨_, _, _, _, _, he, _⟩ := hl; simp at he
        | env hl => simp at hl
      have hk : ∀ k, IsRecord L' k ↔ IsRecord L k := fun k => hrec k
        (by rintro u oa i now ⟨x, accs, logs, mu, mpw, moa, hl, _⟩; cases hl)
        (by rintro u oa i now ⟨x, accs, a, logs, mu, mst, mpw, hl, _⟩; cases hl)
      cases ins with
      | UpdateCoolDownPeriod c =>
        obtain ⟨a, st', r, -, rfl, hl⟩ := processSet_coolDown_run hrun.dispatch
        subst hl
        refine .silent (.inr ⟨_, _, _, _, rfl⟩) ?_ hm.2.1 hk (Nat.le_of_eq hm.2.2.symm) (Nat.le_of_eq hm.1)
          (fun _ => ⟨hm.2.2, hm.1⟩)
        obtain ⟨v0, q⟩ := inv.poolOf r.st_prog r.st_disc
        obtain ⟨rfl, rfl, _⟩ := p.unique q
        simp only [authority, Ledger.setData_same]
        rw [readKey_writeAt_apart (by simp; have := r.st_len; omega) (by simp [Apart])]
      | UpdateUpdateAuthority n =>
        obtain ⟨a, st', r, rfl, hl⟩ := processSet_authority_run hrun.dispatch
        rw [events_of hl]
        obtain ⟨v0, q⟩ := inv.poolOf r.st_prog r.st_disc
        obtain ⟨rfl, rfl, _⟩ := p.unique q
        refine .authority ⟨_, _, _, _, rfl⟩ ?_ rfl hm.2.1 hk hm.2.2 hm.1
        simp only [authority, Ledger.setData_same]
        rw [readKey_writeAt_same (by have := r.st_len; omega)]

variable {L L' : Ledger} {h : List Entry} {I : Index}

theorem Spec.Lists.length_same {L M : Ledger} {rs qs : List Pubkey} (h1 : Lists L rs) (h2 : Lists M qs)
    (h : ∀ k, IsRecord M k ↔ IsRecord L k) : qs.length = rs.length := by
  refine ((List.perm_ext_iff_of_nodup h2.1 h1.1).2 fun k => ?_).length_eq
  rw [h2.2, h1.2, h]

theorem Spec.Lists.length_more {L M : Ledger} {rs qs : List Pubkey} {k : Pubkey} (h1 : Lists L rs) (h2 : Lists M qs)
    (new : ¬ IsRecord L k ∧ IsRecord M k) (h : ∀ j, j ≠ k → (IsRecord M j ↔ IsRecord L j)) :
    qs.length = rs.length + 1 := by
  have hk : k ∉ rs := fun hk => new.1 ((h1.2 k).1 hk)
  have : qs.Perm (k :: rs) := (List.perm_ext_iff_of_nodup h2.1 (List.nodup_cons.2 ⟨hk, h1.1⟩)).2 fun j => by
    rw [h2.2, List.mem_cons, h1.2]
    by_cases hj : j = k
    · subst hj; simp [new.2]
    · simp [hj, h j hj]
  simpa using this.length_eq

/-- The list that `C12_escrow_is_sum` gives. -/
theorem Spec.Lists.exists (hr : Reachable cr L) (hi : Initialised cr L st) : ∃ rs, Lists L rs := by
  obtain ⟨rs, h1, h2, -⟩ := C12_escrow_is_sum hr hi
  exact ⟨rs, h1, h2⟩

theorem Spec.Reachable.path (hr : Reachable cr L) (q : Path cr L h L') : Reachable cr L' := by
  obtain ⟨g0, L0, g, q0⟩ := hr
  exact ⟨_, L0, g, q0.append q⟩

theorem Spec.Index.Tracks.step {e : Entry} (t : I.Tracks e.pre st v) (ok : e.Ok cr) (hr : Reachable cr e.pre)
    (hi : Initialised cr e.pre st) (hv : VaultAddr cr st v b) : (I.replay e.label.events).Tracks e.post st v := by
  obtain ⟨rs, hrs⟩ := Lists.exists hr hi
  have hn := t.opened rs hrs
  have key := emits ok hr hi hv
  revert key
  generalize e.label.events = evs
  intro key
  cases key with
  | @stake a vb es su m _ h1 h2 h3 h4 h5 h6 h7 h8 =>
    exact ⟨h2, t.authority.trans h5.symm, fun qs hq => (hrs.length_same hq h6).trans hn, Nat.le_of_eq h3.symm,
      Nat.le_of_eq h1⟩
  | @unstake a vb es su w c i k _ h1 h2 h3 h4 h5 h6 h7 h8 h9 _ =>
    exact ⟨h2, t.authority.trans h5.symm, fun qs hq => by rw [hrs.length_more hq h6 h7, hn]; rfl,
      Nat.le_of_eq h3.symm, Nat.le_of_eq h1⟩
  | @withdraw es w c i k _ h2 h3 h5 h6 h7 h8 h9 _ =>
    refine ⟨h2, t.authority.trans h5.symm, fun qs hq => ?_, Nat.le_trans (Nat.le_of_eq h9) t.supply, ?_⟩
    · have := hq.length_more hrs (k := k) ⟨h6.2, h6.1⟩ (fun j hj => (h7 j hj).symm)
      show qs.length = I.opened - 1
      omega
    · have := t.vault
      show I.vault - w.toNat ≤ balance e.post v
      omega
  | authority _ h1 h2 h3 h4 h5 h6 =>
    exact ⟨t.escrow.trans h3.symm, h1, fun qs hq => (hrs.length_same hq h4).trans hn,
      Nat.le_trans (Nat.le_of_eq h6) t.supply, Nat.le_trans t.vault (Nat.le_of_eq h5.symm)⟩
  | silent _ h1 h2 h3 h4 h5 _ =>
    exact ⟨t.escrow.trans h2.symm, t.authority.trans h1.symm, fun qs hq => (hrs.length_same hq h3).trans hn,
      Nat.le_trans h5 t.supply, Nat.le_trans t.vault h4⟩

theorem Spec.Index.replay_append (I : Index) (a c : List Event) : I.replay (a ++ c) = (I.replay a).replay c :=
  List.foldl_append ..

/-- Without a pool nothing has been logged. -/
theorem Spec.Path.no_events {L0 : Ledger} (g : Reachable cr L0) (hp : Path cr L0 h L) (hno : ∀ st v, ¬ Pool cr L st v) :
    eventsOf h = [] := by
  induction hp with
  | nil => rfl
  | @step h e q ok ih =>
    have hr := g.path q
    have hpre : ∀ st v, ¬ Pool cr e.pre st v := fun st v p => hno _ _ ((ok.inv hr.inv).2 _ _ p)
    rw [eventsOf, ih hpre]
    cases ok with
    | env s => rfl
    | @call x accs ix logs M M' hcr hrent hs hrun =>
      subst hcr
      have inv := hr.inv
      simp only at inv hpre hno
      cases ix with
      | Stake a =>
        obtain ⟨s, v', oa, xa, xm, st', om, tp, L1, w, r, f, p, -⟩ := inv.stake hs hrun.dispatch
        exact absurd p (hpre _ _)
      | Unstake a i =>
        obtain ⟨u, st', pw, xa, xm, om, v', sp, tp, L1, L3, w, e', ts, b', r, f, p, -⟩ :=
          inv.unstake hrent hs hrun.dispatch
        exact absurd p (hpre _ _)
      | Withdraw i =>
        obtain ⟨u, st', pw, oa, v', om, sp, tp, L1, L2, e', r, f, p, -⟩ := inv.withdraw hs hrun.dispatch
        exact absurd p (hpre _ _)
      | Set ins =>
        obtain ⟨a, st', v', r, p, -⟩ := inv.set hrun.dispatch
        exact absurd p (hpre _ _)
      | Initialize c =>
        obtain ⟨pay, au, st', v', xm, om, sp, tp, ap, L1, b', vb, r, f, hbl, p', -⟩ :=
          inv.initialize hrent hs hrun.dispatch
        exact absurd p' (hno _ _)

end Xorca
