import Verif.Lemmas.DemoCalls
import Verif.Lemmas.Trace
/-
Properties of whole histories.
-/
namespace Xorca
open Spec

variable {cr : Crypto} {L L' : Ledger} {st v k : Pubkey} {b : UInt8} {h : List Entry}

/-- Along any path without a stake into an ownerless pool the price of xORCA does not fall, and so the
ORCA due for any fixed amount of xORCA does not fall. -/
theorem C09_no_dilution (hr : Reachable cr L) (hi : Initialised cr L st) (hv : VaultAddr cr st v b)
    (hp : Path cr L h L') (hno : ∀ e ∈ h, ¬ OrphanStake e st v) :
    (backing L v st + 100) * (supply L' XORCA_MINT_ID + 100) ≤
      (backing L' v st + 100) * (supply L XORCA_MINT_ID + 100) ∧
    ∀ x, redeemFor x (backing L v st) (supply L XORCA_MINT_ID) ≤
      redeemFor x (backing L' v st) (supply L' XORCA_MINT_ID) := by
  obtain ⟨v', p⟩ := hr.inv.ofInitialised hi
  obtain ⟨rfl, _⟩ := vaultAddr_unique hv p.v_addr
  suffices hs : (backing L v st + 100) * (supply L' XORCA_MINT_ID + 100) ≤
      (backing L' v st + 100) * (supply L XORCA_MINT_ID + 100) from
    ⟨hs, fun x => redeemFor_mono_price hs⟩
  induction hp with
  | nil => exact le_refl _
  | @step h e q ok ih =>
    have h1 := ih (fun e he => hno e (List.mem_cons_of_mem _ he))
    obtain ⟨i1, hpool⟩ := q.inv hr.inv
    have p1 := hpool st v p
    have h2 := (ok.move i1 p1).price p1 (hno e (by simp))
    generalize backing L v st + 100 = n0 at *
    generalize supply L XORCA_MINT_ID + 100 = s0 at *
    generalize backing e.post v st + 100 = n2 at *
    generalize supply e.post XORCA_MINT_ID + 100 = s2 at *
    have hs1 : 0 < supply e.pre XORCA_MINT_ID + 100 := by omega
    have hn1 : 0 < backing e.pre v st + 100 := by omega
    generalize backing e.pre v st + 100 = n1 at *
    generalize supply e.pre XORCA_MINT_ID + 100 = s1 at *
    refine Nat.le_of_mul_le_mul_right (?_ : n0 * s2 * (n1 * s1) ≤ n2 * s0 * (n1 * s1)) (Nat.mul_pos hn1 hs1)
    calc n0 * s2 * (n1 * s1) = (n0 * s1) * (n1 * s2) := by ring
      _ ≤ (n1 * s0) * (n2 * s1) := Nat.mul_le_mul h1 h2
      _ = n2 * s0 * (n1 * s1) := by ring

/-- A donation and a stake into a pool with xORCA: the price rises from 1 to about 1.5.  The hypothesis on stakes into
ownerless pools is needed: in the second branch of the demo all xORCA is burned, and the next stake lowers the price. -/
example : ((backing Demo.L2 Demo.VA Demo.ST + 100) * (supply Demo.L4 XORCA_MINT_ID + 100) ≤
      (backing Demo.L4 Demo.VA Demo.ST + 100) * (supply Demo.L2 XORCA_MINT_ID + 100)) ∧
    ¬ ((backing Demo.B4 Demo.VA Demo.ST + 100) * (supply Demo.B5 XORCA_MINT_ID + 100) ≤
      (backing Demo.B5 Demo.VA Demo.ST + 100) * (supply Demo.B4 XORCA_MINT_ID + 100)) ∧
    OrphanStake Demo.eB5 Demo.ST Demo.VA := by
  refine ⟨(C09_no_dilution Demo.reach2 Demo.init2 Demo.va_addr Demo.path24 ?_).1, by decide +kernel,
    ⟨_, _, _, _, rfl⟩, by decide +kernel, by decide +kernel⟩
  intro e he ho
  simp only [List.mem_cons, List.not_mem_nil, or_false] at he
  rcases he with rfl | rfl
  · exact absurd ho.2.1 (by decide +kernel)
  · obtain ⟨_, _, _, _, h⟩ := ho.1
    cases h

/-- In any history, a paid record was created by an earlier Unstake, at least the cool-down in force at
that time ago, and was not paid in between. -/
theorem C17_cool_down_enforced {h2 h1 : List Entry} {e : Entry} {u oa : Pubkey} {i : UInt8} {now : Int}
    (hh : Hist cr (h2 ++ e :: h1) L) (hp : Pays e k u oa i now) :
    ∃ h1' e0 h0 u0 st i0 now0, h1 = h1' ++ e0 :: h0 ∧ Creates e0 k u0 st i0 now0 ∧
      (∀ f ∈ h1', ∀ u oa i t, ¬ Pays f k u oa i t) ∧
      Initialised cr e0.pre st ∧ 0 ≤ coolDown e0.pre st ∧
      recTime e.pre k = now0 + coolDown e0.pre st ∧ now0 + coolDown e0.pre st ≤ now := by
  obtain ⟨hh1, ok, -⟩ := hh.split
  have pf := hp.facts ok
  obtain ⟨h1', e0, h0, u0, st, i0, now0, rfl, hc, hn, hd⟩ := hh1.origin pf.record
  obtain ⟨hh0, ok0, -⟩ := hh1.split
  have cf := hc.facts ok0 hh0.inv
  have ht : recTime e.pre k = now0 + coolDown e0.pre st := by
    rw [← cf.time, recTime, recTime, hd]
  refine ⟨h1', e0, h0, u0, st, i0, now0, rfl, hc, hn, cf.state, cf.nonneg, ht, ?_⟩
  rw [← ht]; exact pf.mature

example := C17_cool_down_enforced (h2 := [Demo.e10]) (e := Demo.e9)
  (h1 := [Demo.e8, Demo.e7, Demo.e6, Demo.e5, Demo.e4, Demo.e3, Demo.e2, Demo.e1]) Demo.hist10 Demo.pays9

/-- As long as it is not paid, an open record keeps all its bytes. -/
theorem C18_records_immutable (hr : Reachable cr L) (hp : Path cr L h L') (hrec : IsRecord L k)
    (hno : ∀ e ∈ h, ∀ u oa i t, ¬ Pays e k u oa i t) :
    IsRecord L' k ∧ (L' k).data = (L k).data ∧ recOwner L' k = recOwner L k ∧
      recIndex L' k = recIndex L k ∧ recAmount L' k = recAmount L k ∧ recTime L' k = recTime L k := by
  obtain ⟨h1, h2⟩ := hp.record hr.inv hrec hno
  refine ⟨h1, h2, ?_, ?_, ?_, ?_⟩
  · rw [recOwner, h2]; rfl
  · rw [recIndex, h2]; rfl
  · rw [recAmount, h2]; rfl
  · rw [recTime, h2]; rfl

/-- Record 0 of the demo is open from step 6 on. -/
example := C18_records_immutable Demo.reach6 Demo.path68 (k := Demo.R0) ⟨by decide +kernel, by decide +kernel, by decide +kernel⟩
  (by
    intro e he u oa i t hp
    obtain ⟨_, _, _, _, _, _, hl, -⟩ := hp
    simp only [List.mem_cons, List.not_mem_nil, or_false] at he
    rcases he with rfl | rfl <;> cases hl)

/-- Between two payments of the same record lies an Unstake that created it anew. -/
theorem C19_no_double_withdrawal {h3 h2 h1 : List Entry} {e2 e1 : Entry} {u2 oa2 u1 oa1 : Pubkey}
    {i2 i1 : UInt8} {t2 t1 : Int} (hh : Hist cr (h3 ++ e2 :: h2 ++ e1 :: h1) L)
    (hp2 : Pays e2 k u2 oa2 i2 t2) (hp1 : Pays e1 k u1 oa1 i1 t1) :
    ∃ e ∈ h2, ∃ u st i t, Creates e k u st i t := by
  obtain ⟨hh1, ok1, hp⟩ := hh.split
  obtain ⟨hp2', ok2, -⟩ := hp.split
  have pf2 := hp2.facts ok2
  have pf1 := hp1.facts ok1
  have inv1 : Inv cr e1.post := (ok1.inv hh1.inv).1
  -- some step of `h2` turns `k` into a record
  have key : ∀ {M : Ledger} {g : List Entry}, Path cr e1.post g M → IsRecord M k →
      ∃ e ∈ g, ∃ u st i t, Creates e k u st i t := by
    intro M g q
    induction q with
    | nil => intro hr; exact absurd hr pf1.closed
    | @step g e q ok ih =>
      intro hr
      rcases ok.record (q.inv inv1).1 k with ⟨h3, _⟩ | ⟨_, u, oa, i, now, h4⟩ | ⟨_, u, st, i, now, h4⟩ | ⟨_, h3⟩
      · obtain ⟨f, hf, hc⟩ := ih h3
        exact ⟨f, List.mem_cons_of_mem _ hf, hc⟩
      · exact absurd hr (h4.facts ok).closed
      · exact ⟨e, by simp, u, st, i, now, h4⟩
      · exact absurd hr h3
  exact key hp2' pf2.record

/-- Index 255 is paid twice in the demo, with an Unstake in between. -/
example := C19_no_double_withdrawal (h3 := []) (e2 := Demo.e11) (h2 := [Demo.e10]) (e1 := Demo.e9)
  (h1 := [Demo.e8, Demo.e7, Demo.e6, Demo.e5, Demo.e4, Demo.e3, Demo.e2, Demo.e1]) Demo.hist11 Demo.pays11 Demo.pays9

/-- In any history a Withdraw pays exactly the recorded amount to an ORCA account of the signer, and the
signer is the key that signed the Unstake that created the record, with the same index; or else the hash
of the signer's record address and that of the creator's are a SHA-256 collision. -/
theorem C20_only_unstaker_paid {h2 h1 : List Entry} {e : Entry} {u oa : Pubkey} {i : UInt8} {now : Int}
    (hh : Hist cr (h2 ++ e :: h1) L) (hp : Pays e k u oa i now) :
    (∃ h1' e0 h0 u0 st i0 now0, h1 = h1' ++ e0 :: h0 ∧ Creates e0 k u0 st i0 now0 ∧
      (∀ f ∈ h1', ∀ u oa i t, ¬ Pays f k u oa i t) ∧ (e.pre k).data = (e0.post k).data ∧
      recOwner e.pre k = u0 ∧ recIndex e.pre k = i0 ∧
      ((u = u0 ∧ i = i0) ∨
        Clash cr (recordHashed u i (readU8 (e.pre k).data 6)) (recordHashed u0 i0 (readU8 (e.pre k).data 6)))) ∧
    (e.pre oa).owner = SPL_TOKEN_PROGRAM_ID ∧ ownerOf e.pre oa = u ∧ mintOf e.pre oa = ORCA_MINT_ID ∧
    balance e.post oa = balance e.pre oa + recAmount e.pre k := by
  obtain ⟨hh1, ok, -⟩ := hh.split
  have pf := hp.facts ok
  refine ⟨?_, pf.oa_prog, pf.oa_owner, pf.oa_mint, pf.credit⟩
  have ra := hh1.inv.isRec pf.record
  obtain ⟨h1', e0, h0, u0, st, i0, now0, rfl, hc, hn, hd⟩ := hh1.origin pf.record
  obtain ⟨hh0, ok0, -⟩ := hh1.split
  have cf := hc.facts ok0 hh0.inv
  have hu : recOwner e.pre k = u0 := by rw [← cf.owner, recOwner, recOwner, hd]
  have hi : recIndex e.pre k = i0 := by rw [← cf.index, recIndex, recIndex, hd]
  refine ⟨h1', e0, h0, u0, st, i0, now0, rfl, hc, hn, hd, hu, hi, ?_⟩
  have h1 := recordAddr_hash ra.addr
  have h2 : k = cr.sha256 (recordHashed u i (readU8 (e.pre k).data 6)) := by rw [← derive_record]; exact pf.addr
  change k = cr.sha256 (recordHashed (recOwner e.pre k) (recIndex e.pre k) _) at h1
  rw [hu, hi] at h1
  rcases record_hash_inj (h2.symm.trans h1) with ⟨a, c, _⟩ | hcol
  · exact Or.inl ⟨a, c⟩
  · exact Or.inr hcol

example := C20_only_unstaker_paid (h2 := [Demo.e10]) (e := Demo.e9)
  (h1 := [Demo.e8, Demo.e7, Demo.e6, Demo.e5, Demo.e4, Demo.e3, Demo.e2, Demo.e1]) Demo.hist10 Demo.pays9

/-- Flow accounting over a whole history: the escrow is what was set aside minus what was paid, and the
vault holds what was staked or donated minus what was paid. -/
theorem C45_flow_accounting (hh : Hist cr h L) (hi : Initialised cr L st) (hv : VaultAddr cr st v b) :
    escrow L st + (h.map paid).sum = (h.map (setAside st v)).sum ∧
    balance L v + (h.map paid).sum = (h.map staked).sum + (h.map (donated st v)).sum ∧
    (h.map paid).sum ≤ (h.map staked).sum + (h.map (donated st v)).sum := by
  suffices hs : escrow L st + (h.map paid).sum = (h.map (setAside st v)).sum ∧
    balance L v + (h.map paid).sum = (h.map staked).sum + (h.map (donated st v)).sum from
    ⟨hs.1, hs.2, by omega⟩
  obtain ⟨L0, g, hp⟩ := hh
  have inv0 := Inv.genesis (cr := cr) g
  obtain ⟨bs, hsa⟩ := hi.1
  -- before the pool exists nothing flows
  have key : ∀ {M : Ledger} {h : List Entry}, Path cr L0 h M →
      ((∃ v', Pool cr M st v') → escrow M st + (h.map paid).sum = (h.map (setAside st v)).sum ∧
        balance M v + (h.map paid).sum = (h.map staked).sum + (h.map (donated st v)).sum) ∧
      ((¬ ∃ v', Pool cr M st v') → (h.map paid).sum = 0 ∧ (h.map (setAside st v)).sum = 0 ∧
        (h.map staked).sum = 0 ∧ (h.map (donated st v)).sum = 0) := by
    intro M h q
    induction q with
    | nil =>
      refine ⟨?_, fun _ => ⟨rfl, rfl, rfl, rfl⟩⟩
      rintro ⟨v', p⟩
      exact absurd (g.blank st p.prog) (not_allZero (o := 0) (by rw [p.acc.tag]; decide))
    | @step h e q ok ih =>
      obtain ⟨i1, -⟩ := q.inv inv0
      simp only [List.map_cons, List.sum_cons]
      by_cases hp : ∃ v', Pool cr e.pre st v'
      · obtain ⟨v', p⟩ := hp
        obtain ⟨rfl, _⟩ := vaultAddr_unique hv p.v_addr
        obtain ⟨h1, h2⟩ := ih.1 ⟨v, p⟩
        have m := ok.move i1 p
        refine ⟨fun _ => ?_, fun hn => absurd ⟨v, (ok.inv i1).2 st v p⟩ hn⟩
        cases m with
        | stake a hl hs he hb =>
          obtain ⟨x, accs, n, logs, hl, rfl⟩ := hl
          simp only [paid, setAside, staked, donated, hl]
          omega
        | unstake a hl hs he hb =>
          obtain ⟨x, accs, n, i, logs, hl, rfl⟩ := hl
          simp only [paid, setAside, staked, donated, hl]
          omega
        | withdraw w hl hs he hb =>
          obtain ⟨x, accs, i, logs, m, hl, hm, rfl⟩ := hl
          simp only [paid, setAside, staked, donated, hl, hm, Option.map_some, Option.getD_some]
          omega
        | set hl hs he hb =>
          obtain ⟨x, accs, s, logs, hl⟩ := hl
          simp only [paid, setAside, staked, donated, hl]
          omega
        | env hl hs he hb =>
          have hc : (e.pre st).owner = PROGRAM_ID ∧ readU8 (e.pre st).data 0 = 1 := ⟨p.prog, p.acc.tag⟩
          simp only [paid, setAside, staked, donated, hl, if_pos hc]
          omega
      · obtain ⟨h1, h2, h3, h4⟩ := ih.2 hp
        have hnot : ¬ ((e.pre st).owner = PROGRAM_ID ∧ readU8 (e.pre st).data 0 = 1) := by
          rintro ⟨c1, c2⟩
          exact hp (i1.poolOf c1 c2)
        have hblank : ∀ v', ¬ Pool cr e.pre st v' := fun v' hq => hp ⟨v', hq⟩
        have hall : ∀ st' v', ¬ Pool cr e.pre st' v' := by
          intro st' v' hq
          obtain ⟨rfl, _⟩ := stateAddr_unique hsa hq.acc.addr
          exact hblank v' hq
        obtain ⟨pre, lab, post⟩ := e
        cases ok with
        | env s =>
          simp only [paid, setAside, staked, donated, if_neg hnot]
          refine ⟨?_, fun _ => by omega⟩
          rintro ⟨v', p'⟩
          rcases s.given st p'.prog with hz | ⟨c1, c2⟩
          · exact absurd hz (not_allZero (o := 0) (by rw [p'.acc.tag]; decide))
          · exact absurd ⟨c1, by rw [← c2]; exact p'.acc.tag⟩ hnot
        | @call x accs ix logs M M' hcr hrent hs hrun =>
          subst hcr
          have hd := hrun.dispatch
          simp only at i1 hall
          cases ix with
          | Stake a =>
            obtain ⟨_, _, _, _, _, _, _, _, _, _, _, _, p, _⟩ := i1.stake hs hd
            exact absurd p (hall _ _)
          | Unstake a ixx =>
            obtain ⟨_, _, _, _, _, _, _, _, _, _, _, _, _, _, _, _, _, p, _⟩ := i1.unstake hrent hs hd
            exact absurd p (hall _ _)
          | Withdraw ixx =>
            obtain ⟨_, _, _, _, _, _, _, _, _, _, _, _, _, p, _⟩ := i1.withdraw hs hd
            exact absurd p (hall _ _)
          | Set ins =>
            obtain ⟨_, _, _, _, p, _⟩ := i1.set hd
            exact absurd p (hall _ _)
          | Initialize c =>
            obtain ⟨_, au, st', v', xm, om, sp, tp, ap, L1, b', vb, r, f, hbl, p', i', _⟩ :=
              i1.initialize hrent hs hd
            simp only [paid, setAside, staked, donated]
            refine ⟨fun _ => ?_, fun _ => by omega⟩
            obtain ⟨rfl, _⟩ := stateAddr_unique hsa p'.acc.addr
            obtain ⟨rfl, _⟩ := vaultAddr_unique hv p'.v_addr
            obtain ⟨l, g1, -⟩ := f.st_new
            obtain ⟨l2, g3, -⟩ := f.v_new
            have he : escrow post st'.key = 0 := by
              rw [escrow, g1]
              show (readU64 (initialStateBytes b' vb c au.key) 8).toNat = 0
              rw [(initialStateBytes_fields b' vb c au.key).2.2.2.1]; rfl
            have hb : balance post v'.key = 0 := by
              rw [balance, g3]
              show (readU64 (freshTokenAccountData ORCA_MINT_ID st'.key) 64).toNat = 0
              rw [(freshToken_fields ORCA_MINT_ID st'.key).2.2.2.1]; rfl
            omega
  exact (key hp).1 (by
    obtain ⟨v', p⟩ := (hp.inv inv0).1.ofInitialised hi
    exact ⟨v', p⟩)

/-- Staked 1300000, donated 500000, set aside 901469, paid 899970. -/
example : escrow Demo.L9 Demo.ST + 899970 = 901469 ∧ balance Demo.L9 Demo.VA + 899970 = 1300000 + 500000 := by
  decide +kernel
example := C45_flow_accounting Demo.hist9 Demo.init9 Demo.va_addr

end Xorca
