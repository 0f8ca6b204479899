import Verif.Lemmas.Inv
/-
What one step of a history does to the records, the price and the flows.
-/
namespace Xorca
open Spec

theorem getElem?_of_cons9 {α : Type} {l r : List α} {a b c d e f g h i : α}
    (hl : l = a :: b :: c :: d :: e :: f :: g :: h :: i :: r) :
    l[0]? = some a ∧ l[1]? = some b ∧ l[2]? = some c ∧ l[3]? = some d := by subst hl; simp

theorem getElem?_of_cons8 {α : Type} {l r : List α} {a b c d e f g h : α}
    (hl : l = a :: b :: c :: d :: e :: f :: g :: h :: r) :
    l[0]? = some a ∧ l[1]? = some b ∧ l[2]? = some c ∧ l[3]? = some d := by subst hl; simp

/-- Facts about a step that pays a record. -/
structure PayFacts (cr : Crypto) (e : Entry) (k u oa : Pubkey) (i : UInt8) (now : Int) : Prop where
  record : IsRecord e.pre k
  closed : ¬ IsRecord e.post k
  mature : recTime e.pre k ≤ now
  addr : k = deriveAddress cr (pendingWithdrawSeedsRaw u [i]) (readU8 (e.pre k).data 6) PROGRAM_ID
  oa_prog : (e.pre oa).owner = SPL_TOKEN_PROGRAM_ID
  oa_owner : ownerOf e.pre oa = u
  oa_mint : mintOf e.pre oa = ORCA_MINT_ID
  credit : balance e.post oa = balance e.pre oa + recAmount e.pre k

theorem Spec.Pays.facts {cr : Crypto} {e : Entry} {k u oa : Pubkey} {i : UInt8} {now : Int}
    (h : Pays e k u oa i now) (ok : e.Ok cr) : PayFacts cr e k u oa i now := by
  obtain ⟨x, accs, logs, mu, mpw, moa, hl, h0, rfl, hsg, h2, rfl, h3, rfl, rfl⟩ := h
  cases ok with
  | env s => cases hl
  | @call x accs ix logs L L' hcr hrent hs hr =>
    cases hl
    subst hcr
    obtain ⟨u, st, pw, oa, v, om, sp, tp, L1, L2, e, r⟩ := processWithdraw_run hr.dispatch
    obtain ⟨f, -⟩ := r.eff hs
    obtain ⟨rest, ha⟩ := r.accs_eq
    obtain ⟨a0, a1, a2, a3⟩ := getElem?_of_cons8 ha
    rw [h0] at a0; cases a0
    rw [h2] at a2; cases a2
    rw [h3] at a3; cases a3
    obtain ⟨w, hw, hw2⟩ := f.oa_data
    refine ⟨⟨r.pw_prog, r.pw_len, r.pw_disc⟩, ?_, r.mature, r.pw_addr, r.oa_prog, r.oa_owner, r.oa_mint, ?_⟩
    · intro hc
      have := hc.1
      simp only [f.pw_closed] at this
      exact program_ne_system this.symm
    · simp only
      rw [balance_of_writeAt (by rw [f.oa_ok.len]; omega) hw, hw2]

/-- Facts about a step that creates a record. -/
structure CreateFacts (cr : Crypto) (e : Entry) (k u st : Pubkey) (i : UInt8) (now : Int) : Prop where
  fresh : ¬ IsRecord e.pre k
  record : IsRecord e.post k
  owner : recOwner e.post k = u
  index : recIndex e.post k = i
  time : recTime e.post k = now + coolDown e.pre st
  state : Initialised cr e.pre st
  nonneg : 0 ≤ coolDown e.pre st

theorem Spec.Creates.facts {cr : Crypto} {e : Entry} {k u st : Pubkey} {i : UInt8} {now : Int}
    (h : Creates e k u st i now) (ok : e.Ok cr) (inv : Inv cr e.pre) : CreateFacts cr e k u st i now := by
  obtain ⟨x, accs, a, logs, mu, mst, mpw, hl, h0, rfl, hsg, h1, rfl, h2, rfl, rfl⟩ := h
  cases ok with
  | env s => cases hl
  | @call x accs ix logs L L' hcr hrent hs hr =>
    cases hl
    subst hcr
    obtain ⟨u, st, pw, xa, xm, om, v, sp, tp, L1, L3, w, e, ts, b, r, f, p, p', -⟩ :=
      inv.unstake hrent hs hr.dispatch
    obtain ⟨rest, ha⟩ := r.accs_eq
    obtain ⟨a0, a1, a2, a3⟩ := getElem?_of_cons9 ha
    rw [h0] at a0; cases a0
    rw [h1] at a1; cases a1
    rw [h2] at a2; cases a2
    obtain ⟨l, g1, -⟩ := f.pw_new
    obtain ⟨c0, c6, c7, c8, c40, c48⟩ := recordBytes_fields b i mu.key w ts
    refine ⟨?_, ?_, ?_, ?_, ?_, ⟨⟨_, p.acc.addr⟩, p.prog, p.acc.tag⟩, p.acc.cool⟩
    · intro hc
      exact program_ne_system (by rw [← hc.1, r.pw_prog])
    · simp only [IsRecord, g1]
      exact ⟨trivial, by rw [recordBytes_length], c0⟩
    · simp only [recOwner, g1, c8]
    · simp only [recIndex, g1, c7]
    · simp only [recTime, g1, c48]
      exact f.maturity

/-- What a step does to one record. -/
theorem Spec.Entry.Ok.record {cr : Crypto} {e : Entry} (ok : e.Ok cr) (inv : Inv cr e.pre) (k : Pubkey) :
    (IsRecord e.pre k ∧ IsRecord e.post k ∧ (e.post k).data = (e.pre k).data) ∨
    (IsRecord e.pre k ∧ ∃ u oa i now, Pays e k u oa i now) ∨
    (¬ IsRecord e.pre k ∧ ∃ u st i now, Creates e k u st i now) ∨
    (¬ IsRecord e.pre k ∧ ¬ IsRecord e.post k) := by
  -- enough: same record status, and same data when it is a record
  have reduce : (IsRecord e.post k ↔ IsRecord e.pre k) → (IsRecord e.pre k → (e.post k).data = (e.pre k).data) →
      (IsRecord e.pre k ∧ IsRecord e.post k ∧ (e.post k).data = (e.pre k).data) ∨
      (IsRecord e.pre k ∧ ∃ u oa i now, Pays e k u oa i now) ∨
      (¬ IsRecord e.pre k ∧ ∃ u st i now, Creates e k u st i now) ∨
      (¬ IsRecord e.pre k ∧ ¬ IsRecord e.post k) := by
    intro h1 h2
    by_cases hr : IsRecord e.pre k
    · exact Or.inl ⟨hr, h1.2 hr, h2 hr⟩
    · exact Or.inr (Or.inr (Or.inr ⟨hr, fun h => hr (h1.1 h)⟩))
  have noState : ∀ {L : Ledger} {st v : Pubkey}, Pool cr L st v → ¬ IsRecord L st := by
    intro L st v p hr
    have := hr.2.2
    rw [p.acc.tag] at this
    exact absurd this (by decide)
  cases ok with
  | @env L L' s =>
    apply reduce
    · constructor
      · intro hr
        rcases s.given k hr.1 with h | ⟨h1, h2⟩
        · exact absurd h (not_allZero (o := 0) (by rw [hr.2.2]; decide))
        · exact (isRecord_of_eq (by rw [h1, hr.1]) h2).1 hr
      · intro hr
        obtain ⟨h1, h2, -⟩ := s.owned k hr.1 (inv.isRec hr).lam
        exact (isRecord_of_eq (by rw [h1, hr.1]) h2).2 hr
    · intro hr
      exact (s.owned k hr.1 (inv.isRec hr).lam).2.1
  | @call x accs ix logs L L' hcr hrent hs hr =>
    subst hcr
    have hd := hr.dispatch
    simp only at inv reduce ⊢
    cases ix with
    | Stake a =>
      obtain ⟨s, v, oa, xa, xm, st, om, tp, L1, m, r, f, p, p', i'⟩ := inv.stake hs hd
      have hprog : ∀ k, (L k).owner = PROGRAM_ID → L' k = L k := by
        intro k hk
        apply f.frame.other
        simp only [List.mem_cons, List.not_mem_nil, or_false, not_or]
        refine ⟨?_, ?_, ?_, ?_⟩ <;> rintro rfl <;> apply token_ne_program
        · rw [← r.oa_prog, hk]
        · rw [← r.v_prog, hk]
        · rw [← r.xa_prog, hk]
        · rw [← r.xm_prog, hk]
      exact reduce (isRecord_congr f.frame.owner (fun k hk => by rw [hprog k hk]) k)
        (fun hr => by rw [hprog k hr.1])
    | Unstake a ixx =>
      obtain ⟨u, st, pw, xa, xm, om, v, sp, tp, L1, L3, w, e, ts, b, r, f, p, p', i'⟩ :=
        inv.unstake hrent hs hd
      by_cases hk : k = pw.key
      · subst hk
        refine Or.inr (Or.inr (Or.inl ⟨?_, u.key, st.key, ixx, x.now.toInt, ?_⟩))
        · intro hc
          exact program_ne_system (by rw [← hc.1, r.pw_prog])
        · obtain ⟨rest, ha⟩ := r.accs_eq
          obtain ⟨a0, a1, a2, a3⟩ := getElem?_of_cons9 ha
          exact ⟨x, accs, a, logs, u, st, pw, rfl, a0, rfl, r.signer, a1, rfl, a2, rfl, rfl⟩
      · by_cases hks : k = st.key
        · subst hks
          exact Or.inr (Or.inr (Or.inr ⟨noState p, noState p'⟩))
        · have hprog : (L k).owner = PROGRAM_ID → (L' k).data = (L k).data := by
            intro hp
            apply f.data
            simp only [List.mem_cons, List.not_mem_nil, or_false, not_or]
            refine ⟨hk, ?_, ?_, hks⟩ <;> rintro rfl
            · exact token_ne_program (by rw [← r.xa_prog, hp])
            · exact token_ne_program (by rw [← r.xm_prog, hp])
          apply reduce
          · constructor
            · intro hc
              have ho := hc.1
              rw [f.owner k hk] at ho
              exact (isRecord_of_eq (f.owner k hk) (hprog ho)).1 hc
            · intro hc; exact (isRecord_of_eq (f.owner k hk) (hprog hc.1)).2 hc
          · intro hc; exact hprog hc.1
    | Withdraw ixx =>
      obtain ⟨u, st, pw, oa, v, om, sp, tp, L1, L2, e, r, f, p, p', i'⟩ := inv.withdraw hs hd
      by_cases hk : k = pw.key
      · subst hk
        refine Or.inr (Or.inl ⟨⟨r.pw_prog, r.pw_len, r.pw_disc⟩, u.key, oa.key, ixx, x.now.toInt, ?_⟩)
        obtain ⟨rest, ha⟩ := r.accs_eq
        obtain ⟨a0, a1, a2, a3⟩ := getElem?_of_cons8 ha
        exact ⟨x, accs, logs, u, pw, oa, rfl, a0, rfl, r.signer, a2, rfl, a3, rfl, rfl⟩
      · by_cases hks : k = st.key
        · subst hks
          exact Or.inr (Or.inr (Or.inr ⟨noState p, noState p'⟩))
        · have hprog : (L k).owner = PROGRAM_ID → (L' k).data = (L k).data := by
            intro hp
            apply f.data
            simp only [List.mem_cons, List.not_mem_nil, or_false, not_or]
            refine ⟨hk, ?_, ?_, hks⟩ <;> rintro rfl
            · exact token_ne_program (by rw [← r.oa_prog, hp])
            · exact token_ne_program (by rw [← r.v_prog, hp])
          apply reduce
          · constructor
            · intro hc
              have ho := hc.1
              rw [f.owner k hk] at ho
              exact (isRecord_of_eq (f.owner k hk) (hprog ho)).1 hc
            · intro hc; exact (isRecord_of_eq (f.owner k hk) (hprog hc.1)).2 hc
          · intro hc; exact hprog hc.1
    | Initialize c =>
      obtain ⟨p, au, st, v, xm, om, sp, tp, ap, L1, b, vb, r, f, hbl, p', i', hno⟩ :=
        inv.initialize hrent hs hd
      refine Or.inr (Or.inr (Or.inr ⟨?_, hno k⟩))
      intro hc
      exact not_allZero (o := 0) (by rw [hc.2.2]; decide) (hbl k hc.1)
    | Set ins =>
      obtain ⟨a, st, v, r, p, p', i', hoth, _⟩ := inv.set hd
      by_cases hks : k = st.key
      · subst hks
        exact Or.inr (Or.inr (Or.inr ⟨noState p, noState p'⟩))
      · exact reduce (isRecord_of_eq (by rw [hoth k hks]) (by rw [hoth k hks])) (fun _ => by rw [hoth k hks])

/-- Along a path without a payment of it, an open record stays as it is. -/
theorem Spec.Path.record {cr : Crypto} {L L' : Ledger} {h : List Entry} (hp : Path cr L h L') (inv : Inv cr L)
    {k : Pubkey} (hr : IsRecord L k) (hno : ∀ e ∈ h, ∀ u oa i now, ¬ Pays e k u oa i now) :
    IsRecord L' k ∧ (L' k).data = (L k).data := by
  induction hp with
  | nil => exact ⟨hr, rfl⟩
  | @step h e p ok ih =>
    obtain ⟨h1, h2⟩ := ih (fun e he => hno e (List.mem_cons_of_mem _ he))
    rcases ok.record (p.inv inv).1 k with ⟨_, h4, h5⟩ | ⟨_, u, oa, i, now, h4⟩ | ⟨h3, _⟩ | ⟨h3, _⟩
    · exact ⟨h4, by rw [h5, h2]⟩
    · exact absurd h4 (hno e (by simp) _ _ _ _)
    · exact absurd h1 h3
    · exact absurd h1 h3

/-- Every open record goes back to the Unstake that created it, and was not touched since. -/
theorem Spec.Hist.origin {cr : Crypto} {h : List Entry} {L : Ledger} (hh : Hist cr h L) {k : Pubkey}
    (hr : IsRecord L k) : ∃ h2 e h1 u st i now, h = h2 ++ e :: h1 ∧ Creates e k u st i now ∧
      (∀ e' ∈ h2, ∀ u oa i now, ¬ Pays e' k u oa i now) ∧ (L k).data = (e.post k).data := by
  obtain ⟨L0, g, p⟩ := hh
  have inv0 := Inv.genesis (cr := cr) g
  induction p with
  | nil =>
    exact absurd (g.blank k hr.1) (not_allZero (o := 0) (by rw [hr.2.2]; decide))
  | @step h e p ok ih =>
    rcases ok.record (p.inv inv0).1 k with ⟨h3, h4, h5⟩ | ⟨_, u, oa, i, now, h4⟩ | ⟨h3, u, st, i, now, h4⟩ | ⟨_, h3⟩
    · obtain ⟨h2, e0, h1, u, st, i, now, hsp, hc, hn, hd⟩ := ih h3
      refine ⟨e :: h2, e0, h1, u, st, i, now, by rw [hsp]; rfl, hc, ?_, by rw [h5, hd]⟩
      intro e' he'
      rw [List.mem_cons] at he'
      rcases he' with rfl | he'
      · intro u oa i now hpay
        exact (hpay.facts ok).closed hr
      · exact hn e' he'
    · exact absurd hr (h4.facts ok).closed
    · exact ⟨[], e, h, u, st, i, now, rfl, h4, by simp, rfl⟩
    · exact absurd hr h3

/-! ### Address collisions -/

theorem recordHashed_inj {u u' : Pubkey} {i i' b b' : UInt8} (h : recordHashed u i b = recordHashed u' i' b') :
    u = u' ∧ i = i' ∧ b = b' := by
  unfold recordHashed at h
  rw [List.append_left_inj, List.append_left_inj] at h
  simp only [List.append_assoc, List.append_cancel_left_eq] at h
  have hu := List.append_inj h (by rw [u.len, u'.len])
  refine ⟨Pubkey.ext_bytes hu.1, ?_⟩
  have := hu.2
  simp only [List.cons_append, List.nil_append, List.cons.injEq, and_true] at this
  exact this

theorem derive_record (cr : Crypto) (u : Pubkey) (i b : UInt8) :
    deriveAddress cr (pendingWithdrawSeedsRaw u [i]) b PROGRAM_ID = cr.sha256 (recordHashed u i b) := by
  simp [deriveAddress, recordHashed, pendingWithdrawSeedsRaw, SEED_PENDING_WITHDRAW, PDA_MARKER, pdaMarker]

theorem derive_state (cr : Crypto) (b : UInt8) :
    deriveAddress cr stateSeedsRaw b PROGRAM_ID = cr.sha256 (stateHashed b) := by
  simp [deriveAddress, stateHashed, stateSeedsRaw, SEED_STATE, PDA_MARKER, pdaMarker]

theorem derive_vault (cr : Crypto) (st : Pubkey) (b : UInt8) :
    deriveAddress cr (vaultSeedsRaw st SPL_TOKEN_PROGRAM_ID ORCA_MINT_ID) b ASSOCIATED_TOKEN_PROGRAM_ID =
      cr.sha256 (vaultHashed st b) := by
  simp [deriveAddress, vaultHashed, vaultSeedsRaw, PDA_MARKER, pdaMarker]

theorem recordAddr_hash {cr : Crypto} {u k : Pubkey} {i b : UInt8} (h : RecordAddr cr u i k b) :
    k = cr.sha256 (recordHashed u i b) := by
  rw [← derive_record]; exact (findProgramAddress_some h).1
theorem stateAddr_hash {cr : Crypto} {k : Pubkey} {b : UInt8} (h : StateAddr cr k b) :
    k = cr.sha256 (stateHashed b) := by
  rw [← derive_state]; exact (findProgramAddress_some h).1
theorem vaultAddr_hash {cr : Crypto} {st k : Pubkey} {b : UInt8} (h : VaultAddr cr st k b) :
    k = cr.sha256 (vaultHashed st b) := by
  rw [← derive_vault]; exact (findProgramAddress_some h).1

theorem record_hash_inj {cr : Crypto} {u u' : Pubkey} {i i' b b' : UInt8}
    (h : cr.sha256 (recordHashed u i b) = cr.sha256 (recordHashed u' i' b')) :
    (u = u' ∧ i = i' ∧ b = b') ∨ Clash cr (recordHashed u i b) (recordHashed u' i' b') := by
  by_cases hne : recordHashed u i b = recordHashed u' i' b'
  · exact Or.inl (recordHashed_inj hne)
  · exact Or.inr ⟨hne, h⟩

/-! ### Price and flows -/

theorem supply_of_data {L L' : Ledger} {k : Pubkey} (h : (L' k).data = (L k).data) : supply L' k = supply L k := by
  rw [supply, h]; rfl
theorem balance_of_data {L L' : Ledger} {k : Pubkey} (h : (L' k).data = (L k).data) :
    balance L' k = balance L k := by rw [balance, h]; rfl
theorem escrow_of_data {L L' : Ledger} {k : Pubkey} (h : (L' k).data = (L k).data) :
    escrow L' k = escrow L k := by rw [escrow, h]; rfl

/-- What a step does to supply, escrow and vault balance of an existing pool. -/
inductive Move (L L' : Ledger) (st v : Pubkey) (e : Entry) : Prop
  | stake (a : Nat) (hl : ∃ x accs n logs, e.label = .call x accs (.Stake n) logs ∧ n.toNat = a)
      (hs : supply L' XORCA_MINT_ID = supply L XORCA_MINT_ID +
        mintFor a (backing L v st) (supply L XORCA_MINT_ID))
      (he : escrow L' st = escrow L st) (hb : balance L' v = balance L v + a)
  | unstake (a : Nat) (hl : ∃ x accs n i logs, e.label = .call x accs (.Unstake n i) logs ∧ n.toNat = a)
      (hs : supply L' XORCA_MINT_ID + a = supply L XORCA_MINT_ID)
      (he : escrow L' st = escrow L st + redeemFor a (backing L v st) (supply L XORCA_MINT_ID))
      (hb : balance L' v = balance L v)
  | withdraw (w : Nat) (hl : ∃ x accs i logs m, e.label = .call x accs (.Withdraw i) logs ∧
        accs[2]? = some m ∧ recAmount L m.key = w)
      (hs : supply L' XORCA_MINT_ID = supply L XORCA_MINT_ID)
      (he : escrow L' st + w = escrow L st) (hb : balance L' v + w = balance L v)
  | set (hl : ∃ x accs s logs, e.label = .call x accs (.Set s) logs)
      (hs : supply L' XORCA_MINT_ID = supply L XORCA_MINT_ID)
      (he : escrow L' st = escrow L st) (hb : balance L' v = balance L v)
  | env (hl : e.label = .env) (hs : supply L' XORCA_MINT_ID ≤ supply L XORCA_MINT_ID)
      (he : escrow L' st = escrow L st) (hb : balance L v ≤ balance L' v)

theorem Spec.Entry.Ok.move {cr : Crypto} {e : Entry} (ok : e.Ok cr) (inv : Inv cr e.pre) {st v : Pubkey}
    (p : Pool cr e.pre st v) : Move e.pre e.post st v e := by
  cases ok with
  | @env L L' s =>
    exact .env rfl (s.mint p.mint).2.2 (escrow_of_data (s.owned st p.prog p.acc.lam).2.1)
      (s.token v p.v_tok).2.2.2.2
  | @call x accs ix logs L L' hcr hrent hs hr =>
    subst hcr
    have hd := hr.dispatch
    simp only at inv p ⊢
    have lm := p.mint.len
    have lv := p.v_tok.len
    have ls := p.acc.len
    cases ix with
    | Stake a =>
      obtain ⟨s, v, oa, xa, xm, st, om, tp, L1, m, r, f, q, q', i'⟩ := inv.stake hs hd
      obtain ⟨rfl, rfl, _⟩ := p.unique q
      obtain ⟨w2, b1, b2⟩ := f.v_data
      obtain ⟨w4, d1, d2⟩ := f.xm_data
      refine .stake a.toNat ⟨_, _, _, _, rfl, rfl⟩ ?_ ?_ ?_
      · rw [supply_of_writeAt (by omega) d1, d2, r.minted]
      · apply escrow_of_data
        rw [f.frame.other _ (by simp [f.st_ne])]
      · rw [balance_of_writeAt (by omega) b1, b2]
    | Unstake a ixx =>
      obtain ⟨u, st, pw, xa, xm, om, v, sp, tp, L1, L3, w, e, ts, b, r, f, q, q', i'⟩ :=
        inv.unstake hrent hs hd
      obtain ⟨rfl, rfl, _⟩ := p.unique q
      obtain ⟨s', d1, d2⟩ := f.xm_data
      refine .unstake a.toNat ⟨_, _, _, _, _, rfl, rfl⟩ ?_ ?_ ?_
      · rw [supply_of_writeAt (by omega) d1, d2]
      · rw [escrow_of_writeAt (by omega) f.st_data, f.escrow, r.amount]
      · apply balance_of_data
        exact f.data _ (by simp [f.v_ne.1, f.v_ne.2, f.pw_ne.2.2.2.symm, f.st_ne.2.2.2.symm])
    | Withdraw ixx =>
      obtain ⟨u, st, pw, oa, v, om, sp, tp, L1, L2, e, r, f, q, q', i'⟩ := inv.withdraw hs hd
      obtain ⟨rfl, rfl, _⟩ := p.unique q
      obtain ⟨rest, ha⟩ := r.accs_eq
      obtain ⟨a0, a1, a2, a3⟩ := getElem?_of_cons8 ha
      obtain ⟨w', b2, b3⟩ := f.v_data
      refine .withdraw (recAmount L pw.key) ⟨_, _, _, _, pw, rfl, a2, rfl⟩ ?_ ?_ ?_
      · apply supply_of_data
        apply f.data
        simp only [List.mem_cons, List.not_mem_nil, or_false, not_or]
        refine ⟨?_, ?_, ?_, ?_⟩ <;> intro hh
        · exact token_ne_program (by rw [← p.mint.prog, hh, r.pw_prog])
        · rw [hh, f.oa_ok.len] at lm; omega
        · rw [hh, f.v_ok.len] at lm; omega
        · exact token_ne_program (by rw [← p.mint.prog, hh, r.st_prog])
      · rw [escrow_of_writeAt (by omega) f.st_data, f.escrow]
      · rw [balance_of_amountSet b2, b3]
    | Initialize c =>
      obtain ⟨_, au, st, v, xm, om, sp, tp, ap, L1, b, vb, r, f, hbl, p', i', _⟩ := inv.initialize hrent hs hd
      exact absurd (hbl _ p.prog) (not_allZero (o := 0) (by rw [p.acc.tag]; decide))
    | Set ins =>
      obtain ⟨a, st, v, r, q, q', i', hoth, _, hesc⟩ := inv.set hd
      obtain ⟨rfl, rfl, _⟩ := p.unique q
      refine .set ⟨_, _, _, _, rfl⟩ ?_ hesc ?_
      · apply supply_of_data
        rw [hoth]
        intro h; exact token_ne_program (by rw [← p.mint.prog, h, p.prog])
      · apply balance_of_data
        rw [hoth]
        intro h; exact token_ne_program (by rw [← p.v_tok.prog, h, p.prog])

theorem Move.price {cr : Crypto} {st v : Pubkey} {e : Entry} (m : Move e.pre e.post st v e)
    (p : Pool cr e.pre st v) (hno : ¬ OrphanStake e st v) :
    (backing e.pre v st + 100) * (supply e.post XORCA_MINT_ID + 100) ≤
      (backing e.post v st + 100) * (supply e.pre XORCA_MINT_ID + 100) := by
  have hb := p.backed
  have hle : supply e.pre XORCA_MINT_ID ≤ backing e.pre v st := by rw [backing]; omega
  cases m with
  | stake a hl hs he hbal =>
    have e1 : backing e.post v st = backing e.pre v st + a := by simp only [backing] at *; omega
    rw [e1, hs]
    by_cases h0 : supply e.pre XORCA_MINT_ID = 0
    · have hn : backing e.pre v st = 0 := by
        by_contra hc
        obtain ⟨x, accs, n, logs, h, _⟩ := hl
        exact hno ⟨⟨x, accs, n, logs, h⟩, h0, hc⟩
      rw [h0, hn]
      simp only [mintFor, true_or, if_true]
      omega
    · exact mint_price h0 (by omega)
  | unstake a hl hs he hbal =>
    have h2 := redeemFor_le (x := a) hle (by omega)
    apply redeem_price (x := a)
    · simp only [backing] at *; omega
    · exact hs
  | withdraw w hl hs he hbal =>
    have e1 : backing e.post v st = backing e.pre v st := by simp only [backing]; omega
    rw [e1, hs]
  | set hl hs he hbal =>
    have e1 : backing e.post v st = backing e.pre v st := by simp only [backing]; omega
    rw [e1, hs]
  | env hl hs he hbal =>
    have e1 : backing e.pre v st ≤ backing e.post v st := by simp only [backing]; omega
    exact Nat.mul_le_mul (by omega) (by omega)

end Xorca
