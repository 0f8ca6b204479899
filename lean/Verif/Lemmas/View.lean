import Verif.View
import Verif.Props.Conservation
import Verif.Props.Effects
import Verif.Lemmas.Moves
/-
Each step of a history is a step of the abstract machine.
-/
namespace Xorca
open Spec

variable {cr : Crypto} {L L' : Ledger} {st v : Pubkey}

theorem requestAt_some {L : Ledger} {k : Pubkey} (h : IsRecord L k) :
    requestAt L k = some ⟨recOwner L k, recIndex L k, recAmount L k, recTime L k⟩ := if_pos h
theorem requestAt_none {L : Ledger} {k : Pubkey} (h : ¬ IsRecord L k) : requestAt L k = none := if_neg h

theorem requestAt_congr {L L' : Ledger} {k : Pubkey} (h : IsRecord L k) (h' : IsRecord L' k)
    (hd : (L' k).data = (L k).data) : requestAt L' k = requestAt L k := by
  rw [requestAt_some h, requestAt_some h', recOwner, recIndex, recAmount, recTime, hd]; rfl

/-- A step that neither creates nor pays `k` leaves the request at `k` as it is. -/
theorem requestAt_same {e : Entry} (ok : e.Ok cr) (inv : Inv cr e.pre) {k : Pubkey}
    (h1 : ∀ u oa i now, ¬ Pays e k u oa i now) (h2 : ∀ u st i now, ¬ Creates e k u st i now) :
    requestAt e.post k = requestAt e.pre k := by
  rcases ok.record inv k with ⟨a, b, c⟩ | ⟨_, u, oa, i, now, h⟩ | ⟨_, u, s, i, now, h⟩ | ⟨a, b⟩
  · exact requestAt_congr a b c
  · exact absurd h (h1 _ _ _ _)
  · exact absurd h (h2 _ _ _ _)
  · rw [requestAt_none a, requestAt_none b]

theorem view_ext {V W : View} (h1 : V.supply = W.supply) (h2 : V.backing = W.backing) (h3 : V.coolDown = W.coolDown)
    (h4 : V.authority = W.authority) (h5 : ∀ k, V.requests k = W.requests k) : V = W := by
  cases V; cases W
  simp only at h1 h2 h3 h4 h5
  subst h1 h2 h3 h4
  rw [View.mk.injEq]
  exact ⟨rfl, rfl, rfl, rfl, funext h5⟩

/-- Settings change only in Set. -/
theorem settings_same {e : Entry} {b : UInt8} (ok : e.Ok cr) (hr : Reachable cr e.pre) (hi : Initialised cr e.pre st)
    (hv : VaultAddr cr st v b) (h : ∀ x accs u logs, e.label ≠ .call x accs (.Set u) logs) :
    coolDown e.post st = coolDown e.pre st ∧ authority e.post st = authority e.pre st := by
  have key := (C44_moved_only_by ok hr hi hv).2.2.2
  constructor
  · by_contra hc
    obtain ⟨x, accs, u, logs, hl⟩ := key (Or.inr hc)
    exact h _ _ _ _ hl
  · by_contra hc
    obtain ⟨x, accs, u, logs, hl⟩ := key (Or.inl hc)
    exact h _ _ _ _ hl

theorem view_step {e : Entry} {b : UInt8} (ok : e.Ok cr) (hr : Reachable cr e.pre) (hi : Initialised cr e.pre st)
    (hv : VaultAddr cr st v b) : ViewStep cr (view e.pre st v) e.label (view e.post st v) := by
  have inv := hr.inv
  have p : Pool cr e.pre st v := by
    obtain ⟨v', p⟩ := inv.ofInitialised hi
    obtain ⟨rfl, _⟩ := vaultAddr_unique hv p.v_addr
    exact p
  have hset := settings_same ok hr hi hv
  have hreq := fun k => requestAt_same ok inv (k := k)
  have hb := p.backed
  have ok' := ok
  cases ok with
  | @env L L' s =>
    simp only at *
    obtain ⟨c1, c2⟩ := hset (by intros; simp)
    have m := ok'.move inv p
    cases m with
    | env hl hs he hbal =>
      simp only at hs he hbal
      have : view L' st v = { view L st v with
          supply := (view L st v).supply - (supply L XORCA_MINT_ID - supply L' XORCA_MINT_ID)
          backing := (view L st v).backing + (backing L' v st - backing L v st) } := by
        refine view_ext ?_ ?_ c1 c2 (fun k => hreq k ?_ ?_)
        · show supply L' XORCA_MINT_ID = supply L XORCA_MINT_ID - (supply L XORCA_MINT_ID - supply L' XORCA_MINT_ID)
          omega
        · show backing L' v st = backing L v st + (backing L' v st - backing L v st)
          unfold backing; omega
        · rintro u oa i now ⟨x, accs, logs, mu, mpw, moa, hl, _⟩; cases hl
        · rintro u oa i now ⟨x, accs, a, logs, mu, mst, mpw, hl, _⟩; cases hl
      rw [this]
      exact .others (by show _ ≤ supply L XORCA_MINT_ID; omega)
    | stake n hl => obtain ⟨_, _, _, _, he, _⟩ := hl; simp at he
    | unstake n hl => obtain ⟨_, _, _, _, _, he, _⟩ := hl; simp at he
    | withdraw n hl => obtain ⟨_, _, _, _, _, he, _⟩ := hl; simp at he
    | set hl => obtain ⟨_, _, _, _, he⟩ := hl; simp at he
  | @call x accs ix logs L L' hcr hrent hs hrun =>
    subst hcr
    simp only at *
    cases ix with
    | Stake a =>
      obtain ⟨s, v', oa, xa, xm, st', om, tp, L1, w, r, f, q, q', i'⟩ := inv.stake hs hrun.dispatch
      obtain ⟨rfl, rfl, _⟩ := p.unique q
      obtain ⟨m1, m2, m3⟩ := stake_move hr hrent hs hrun p
      obtain ⟨c1, c2⟩ := hset (by intros; simp)
      have : view L' st'.key v'.key = { view L st'.key v'.key with
          supply := (view L st'.key v'.key).supply +
            mintFor a.toNat (view L st'.key v'.key).backing (view L st'.key v'.key).supply
          backing := (view L st'.key v'.key).backing + a.toNat } := by
        refine view_ext m1 m2 c1 c2 (fun k => hreq k ?_ ?_)
        · rintro u oa i now ⟨x, accs, logs, mu, mpw, moa, hl, _⟩; cases hl
        · rintro u oa i now ⟨x, accs, a, logs, mu, mst, mpw, hl, _⟩; cases hl
      rw [this]
      refine .stake (u := s.key) ?_ ?_
      · obtain ⟨rest, ha⟩ := r.accs_eq
        exact ⟨s, by rw [ha]; rfl, rfl, r.signer⟩
      · show 0 < mintFor a.toNat (backing L v'.key st'.key) (supply L XORCA_MINT_ID)
        rw [← r.minted]
        exact Nat.pos_of_ne_zero (u64_ne_zero_iff.1 r.minted_pos)
    | Unstake a i =>
      obtain ⟨u, st', pw, xa, xm, om, v', sp, tp, L1, L3, w, e', ts, b', r, f, q, q', i'⟩ :=
        inv.unstake hrent hs hrun.dispatch
      obtain ⟨rfl, rfl, _⟩ := p.unique q
      obtain ⟨m1, m2, m3⟩ := unstake_move hr hrent hs hrun p
      obtain ⟨c1, c2⟩ := hset (by intros; simp)
      obtain ⟨rest, ha⟩ := r.accs_eq
      obtain ⟨a0, a1, a2, a3⟩ := getElem?_of_cons9 ha
      obtain ⟨l, g1, -⟩ := f.pw_new
      obtain ⟨d0, d6, d7, d8, d40, d48⟩ := recordBytes_fields b' i u.key w ts
      have hnew : IsRecord L' pw.key := by
        simp only [IsRecord, g1]
        exact ⟨trivial, by rw [recordBytes_length], d0⟩
      have hold : ¬ IsRecord L pw.key := by
        intro hc
        exact program_ne_system (by rw [← hc.1, r.pw_prog])
      have hw : w.toNat = redeemFor a.toNat (backing L v'.key st'.key) (supply L XORCA_MINT_ID) := r.amount
      have : view L' st'.key v'.key = { view L st'.key v'.key with
          supply := (view L st'.key v'.key).supply - a.toNat
          backing := (view L st'.key v'.key).backing -
            redeemFor a.toNat (view L st'.key v'.key).backing (view L st'.key v'.key).supply
          requests := putRequest (view L st'.key v'.key).requests pw.key
            (some ⟨u.key, i, redeemFor a.toNat (view L st'.key v'.key).backing (view L st'.key v'.key).supply,
              x.now.toInt + (view L st'.key v'.key).coolDown⟩) } := by
        refine view_ext ?_ ?_ c1 c2 (fun k => ?_)
        · show supply L' XORCA_MINT_ID = supply L XORCA_MINT_ID - a.toNat
          omega
        · show backing L' v'.key st'.key = backing L v'.key st'.key - redeemFor a.toNat (backing L v'.key st'.key) (supply L XORCA_MINT_ID)
          omega
        · show requestAt L' k = putRequest (requestAt L) pw.key _ k
          unfold putRequest
          split
          · rename_i hk
            subst hk
            rw [requestAt_some hnew]
            simp only [recOwner, recIndex, recAmount, recTime, g1, d7, d8, d40, d48, view, Option.some.injEq,
              Request.mk.injEq, true_and]
            exact ⟨hw, f.maturity⟩
          · rename_i hk
            refine hreq k ?_ ?_
            · rintro u oa i now ⟨x, accs, logs, mu, mpw, moa, hl, _⟩; cases hl
            · rintro u' s' i now ⟨x, accs, a, logs, mu, mst, mpw, hl, _, _, _, _, _, h2, h3, _⟩
              cases hl
              rw [a2] at h2
              cases h2
              exact hk h3.symm
      rw [this]
      refine .unstake (u := u.key) (k := pw.key) ⟨u, a0, rfl, r.signer⟩ ⟨pw, a2, rfl⟩ ?_ ?_ (requestAt_none hold)
      · show a.toNat ≤ supply L XORCA_MINT_ID
        omega
      · show 0 < redeemFor a.toNat (backing L v'.key st'.key) (supply L XORCA_MINT_ID)
        rw [← hw]
        exact Nat.pos_of_ne_zero (u64_ne_zero_iff.1 r.amount_pos)
    | Withdraw i =>
      obtain ⟨u, st', pw, oa, v', om, sp, tp, L1, L2, e', r, f, q, q', i'⟩ := inv.withdraw hs hrun.dispatch
      obtain ⟨rfl, rfl, _⟩ := p.unique q
      obtain ⟨c1, c2⟩ := hset (by intros; simp)
      obtain ⟨rest, ha⟩ := r.accs_eq
      obtain ⟨a0, a1, a2, a3⟩ := getElem?_of_cons8 ha
      have hpay : Pays ⟨L, .call x accs (.Withdraw i) logs, L'⟩ pw.key u.key oa.key i x.now.toInt :=
        ⟨x, accs, logs, u, pw, oa, rfl, a0, rfl, r.signer, a2, rfl, a3, rfl, rfl⟩
      have pf := hpay.facts ok'
      have m := ok'.move inv p
      have p' := (ok'.inv inv).2 _ _ p
      have hb' := p'.backed
      have hrec := pf.record
      simp only at hrec
      have hmove : supply L' XORCA_MINT_ID = supply L XORCA_MINT_ID ∧ backing L' v'.key st'.key = backing L v'.key st'.key := by
        cases m with
        | withdraw w hl h1 h2 h3 =>
          simp only at h1 h2 h3 hb'
          refine ⟨h1, ?_⟩
          unfold backing
          omega
        | stake n hl => obtain ⟨_, _, _, _, he, _⟩ := hl; simp at he
        | unstake n hl => obtain ⟨_, _, _, _, _, he, _⟩ := hl; simp at he
        | set hl => obtain ⟨_, _, _, _, he⟩ := hl; simp at he
        | env hl => simp at hl
      have : view L' st'.key v'.key = { view L st'.key v'.key with
          requests := putRequest (view L st'.key v'.key).requests pw.key none } := by
        refine view_ext hmove.1 hmove.2 c1 c2 (fun k => ?_)
        show requestAt L' k = putRequest (requestAt L) pw.key _ k
        unfold putRequest
        split
        · rename_i hk
          subst hk
          exact requestAt_none pf.closed
        · rename_i hk
          refine hreq k ?_ ?_
          · rintro u' oa' i' now ⟨x, accs, logs, mu, mpw, moa, hl, _, _, _, h2, h3, _⟩
            cases hl
            rw [a2] at h2
            cases h2
            exact hk h3.symm
          · rintro u oa i now ⟨x, accs, a, logs, mu, mst, mpw, hl, _⟩; cases hl
      rw [this]
      refine .withdraw (u := u.key) (k := pw.key) (b := readU8 (L pw.key).data 6) ⟨u, a0, rfl, r.signer⟩ ⟨pw, a2, rfl⟩
        (requestAt_some hrec) pf.mature ?_
      have ra := inv.isRec hrec
      have h1 := recordAddr_hash ra.addr
      have h2 : pw.key = x.cr.sha256 (recordHashed u.key i (readU8 (L pw.key).data 6)) := by
        rw [← derive_record]; exact pf.addr
      change pw.key = x.cr.sha256 (recordHashed (recOwner L pw.key) (recIndex L pw.key) _) at h1
      rcases record_hash_inj (h2.symm.trans h1) with ⟨a, c, _⟩ | hcol
      · exact Or.inl ⟨a, c⟩
      · exact Or.inr hcol
    | Initialize c =>
      obtain ⟨_, au, st', v', xm, om, sp, tp, ap, L1, b, vb, r, f, hbl, p', i', _⟩ :=
        inv.initialize hrent hs hrun.dispatch
      exact absurd (hbl _ p.prog) (not_allZero (o := 0) (by rw [p.acc.tag]; decide))
    | Set ins =>
      obtain ⟨a, st', v', r, q, q', i', hoth, _, hesc⟩ := inv.set hrun.dispatch
      obtain ⟨rfl, rfl, _⟩ := p.unique q
      obtain ⟨rest, ha⟩ := r.accs_eq
      subst ha
      have m := ok'.move inv p
      have hmove : supply L' XORCA_MINT_ID = supply L XORCA_MINT_ID ∧ backing L' v' st'.key = backing L v' st'.key := by
        cases m with
        | set hl h1 h2 h3 =>
          simp only at h1 h2 h3
          refine ⟨h1, ?_⟩
          unfold backing
          omega
        | stake n hl => obtain ⟨_, _, _, _, he, _⟩ := hl; simp at he
        | unstake n hl => obtain ⟨_, _, _, _, _, he, _⟩ := hl; simp at he
        | withdraw n hl => obtain ⟨_, _, _, _, _, he, _⟩ := hl; simp at he
        | env hl => simp at hl
      have hk : ∀ k, requestAt L' k = requestAt L k := by
        intro k
        refine hreq k ?_ ?_
        · rintro u oa i now ⟨x, accs, logs, mu, mpw, moa, hl, _⟩; cases hl
        · rintro u oa i now ⟨x, accs, a, logs, mu, mst, mpw, hl, _⟩; cases hl
      cases ins with
      | UpdateCoolDownPeriod c =>
        obtain ⟨h1, h2, h3, h4, h5, h6, h7, _⟩ := Props.C23_set_cool_down hrun
        have : view L' st'.key v' = { view L st'.key v' with coolDown := c.toInt } := by
          refine view_ext hmove.1 hmove.2 h6 ?_ hk
          show authority L' st'.key = authority L st'.key
          rw [authority, readKey, h7.slice (Or.inr (by omega))]
          rfl
        rw [this]
        exact .setCoolDown ⟨a, rfl, h2, h1⟩ h5
      | UpdateUpdateAuthority n =>
        obtain ⟨h1, h2, h3, h4, h5, h6, _⟩ := Props.C23_set_authority hrun
        have : view L' st'.key v' = { view L st'.key v' with authority := n } := by
          refine view_ext hmove.1 hmove.2 ?_ h5 hk
          show coolDown L' st'.key = coolDown L st'.key
          rw [coolDown, readI64, h6.slice (Or.inl (by omega))]
          rfl
        rw [this]
        exact .setAuthority ⟨a, rfl, h2, h1⟩

end Xorca
