import Verif.Lemmas.Trace
/-
Lamports of the program's accounts.
-/
namespace Xorca
open Spec

/-- A step takes no lamports from the state or a record, except when it pays that record. -/
theorem Spec.Entry.Ok.lamports {cr : Crypto} {e : Entry} (ok : e.Ok cr) (inv : Inv cr e.pre) {k : Pubkey}
    (hk : (e.pre k).owner = PROGRAM_ID) (ht : readU8 (e.pre k).data 0 ≠ 0) (hl : (e.pre k).lamports ≠ 0)
    (hno : ∀ u oa i now, ¬ Pays e k u oa i now) : (e.pre k).lamports.toNat ≤ (e.post k).lamports.toNat := by
  cases ok with
  | @env L L' s => exact (s.owned k hk hl).2.2
  | @call x accs ix logs L L' hcr hrent hs hr =>
    subst hcr
    have hd := hr.dispatch
    simp only at *
    cases ix with
    | Stake a =>
      obtain ⟨s, v, oa, xa, xm, st, om, tp, L1, m, r, f, p, p', i'⟩ := inv.stake hs hd
      exact Nat.le_of_eq (by rw [f.frame.lamports k])
    | Unstake a i =>
      obtain ⟨u, st, pw, xa, xm, om, v, sp, tp, L1, L3, w, e', ts, b, r, f, p, p', i'⟩ := inv.unstake hrent hs hd
      obtain ⟨rest, ha⟩ := r.accs_eq
      have h1 : u.key ≠ k := signer_ne hs (by rw [ha]; simp) r.signer hk ht
      have h2 : k ≠ pw.key := by
        rintro rfl
        have := f.pw_fresh
        rw [this] at hk
        exact program_ne_system hk.symm
      exact Nat.le_of_eq (by rw [f.lamports k (by simp [h1.symm, h2])])
    | Withdraw i =>
      obtain ⟨u, st, pw, oa, v, om, sp, tp, L1, L2, e', r, f, p, p', i'⟩ := inv.withdraw hs hd
      obtain ⟨rest, ha⟩ := r.accs_eq
      obtain ⟨a0, a1, a2, a3⟩ := getElem?_of_cons8 ha
      have h1 : u.key ≠ k := signer_ne hs (by rw [ha]; simp) r.signer hk ht
      have h2 : k ≠ pw.key := by
        rintro rfl
        exact hno u.key oa.key i x.now.toInt ⟨x, accs, logs, u, pw, oa, rfl, a0, rfl, r.signer, a2, rfl, a3, rfl, rfl⟩
      exact Nat.le_of_eq (by rw [f.lamports k (by simp [h1.symm, h2])])
    | Initialize c =>
      obtain ⟨p, au, st, v, xm, om, sp, tp, ap, L1, b, vb, r, f, hbl, p', i', -⟩ := inv.initialize hrent hs hd
      exact absurd (hbl k hk) (not_allZero ht)
    | Set ins =>
      have : L' k = { L k with data := (L' k).data } := by
        cases ins with
        | UpdateCoolDownPeriod c =>
          obtain ⟨a, st, r, -, rfl, -⟩ := processSet_coolDown_run hd
          by_cases h : k = st.key
          · subst h; simp
          · simp [Ledger.setData_other, h]
        | UpdateUpdateAuthority n =>
          obtain ⟨a, st, r, rfl, -⟩ := processSet_authority_run hd
          by_cases h : k = st.key
          · subst h; simp
          · simp [Ledger.setData_other, h]
      rw [this]

/-- Along a path without a payment of it, a record loses no lamports. -/
theorem Spec.Path.record_lamports {cr : Crypto} {L L' : Ledger} {h : List Entry} (hp : Path cr L h L') (inv : Inv cr L)
    {k : Pubkey} (hr : IsRecord L k) (hno : ∀ e ∈ h, ∀ u oa i now, ¬ Pays e k u oa i now) :
    (L k).lamports.toNat ≤ (L' k).lamports.toNat := by
  induction hp with
  | nil => exact Nat.le_refl _
  | @step h e p ok ih =>
    have hn := fun e he => hno e (List.mem_cons_of_mem _ he)
    obtain ⟨h1, -⟩ := p.record inv hr hn
    have inv' := (p.inv inv).1
    exact (ih hn).trans (ok.lamports inv' h1.1 (by rw [h1.2.2]; decide) (inv'.isRec h1).lam (hno e (by simp)))

/-- The state never loses lamports. -/
theorem Spec.Path.state_lamports {cr : Crypto} {L L' : Ledger} {h : List Entry} (hp : Path cr L h L') (inv : Inv cr L)
    {st v : Pubkey} (p : Pool cr L st v) : (L st).lamports.toNat ≤ (L' st).lamports.toNat := by
  induction hp with
  | nil => exact Nat.le_refl _
  | @step h e q ok ih =>
    have p' := (q.inv inv).2 st v p
    refine ih.trans (ok.lamports (q.inv inv).1 p'.prog (by rw [p'.acc.tag]; decide) p'.acc.lam ?_)
    intro u oa i now hpay
    have := (hpay.facts ok).record.2.2
    rw [p'.acc.tag] at this
    exact absurd this (by decide)

/-- What an Unstake does to the lamports of the record and the signer. -/
theorem Spec.Creates.rent {cr : Crypto} {e : Entry} {k u st : Pubkey} {i : UInt8} {now : Int}
    (h : Creates e k u st i now) (ok : e.Ok cr) : ∃ x accs ix logs, e.label = .call x accs ix logs ∧
      (e.post k).lamports.toNat = max (x.rentMin 1024).toNat (e.pre k).lamports.toNat ∧ (e.post k).data.length = 1024 ∧
      (e.post u).lamports.toNat + ((e.post k).lamports.toNat - (e.pre k).lamports.toNat) =
        (e.pre u).lamports.toNat := by
  obtain ⟨x, accs, a, logs, mu, mst, mpw, hl, h0, rfl, hsg, h1, rfl, h2, rfl, rfl⟩ := h
  cases ok with
  | env s => cases hl
  | @call x accs ix logs L L' hcr hrent hs hr =>
    cases hl
    subst hcr
    obtain ⟨u, st, pw, xa, xm, om, v, sp, tp, L1, L3, w, e, ts, b, r⟩ := processUnstake_run hr.dispatch
    obtain ⟨f, -⟩ := r.eff hs
    obtain ⟨rest, ha⟩ := r.accs_eq
    obtain ⟨a0, a1, a2, a3⟩ := getElem?_of_cons9 ha
    rw [h0] at a0; cases a0
    rw [h2] at a2; cases a2
    obtain ⟨l, g1, g2⟩ := f.pw_new
    have hp := f.paid
    refine ⟨x, accs, _, logs, rfl, ?_, ?_, ?_⟩
    · show (L' mpw.key).lamports.toNat = _
      rw [g1]; exact g2
    · show (L' mpw.key).data.length = 1024
      rw [g1]; exact recordBytes_length ..
    · show (L' mu.key).lamports.toNat + ((L' mpw.key).lamports.toNat - (L mpw.key).lamports.toNat) = _
      rw [g1]
      simp only
      omega

/-- What a Withdraw does to the lamports of the record and the signer. -/
theorem Spec.Pays.refund {cr : Crypto} {e : Entry} {k u oa : Pubkey} {i : UInt8} {now : Int}
    (h : Pays e k u oa i now) (ok : e.Ok cr) :
    (e.post u).lamports = (e.pre u).lamports + (e.pre k).lamports ∧ (e.post k).lamports = 0 := by
  obtain ⟨x, accs, logs, mu, mpw, moa, hl, h0, rfl, hsg, h2, rfl, h3, rfl, rfl⟩ := h
  cases ok with
  | env s => cases hl
  | @call x accs ix logs L L' hcr hrent hs hr =>
    cases hl
    subst hcr
    obtain ⟨u, st, pw, oa, v, om, sp, tp, L1, L2, e, r⟩ := processWithdraw_run hr.dispatch
    obtain ⟨f, -⟩ := r.eff hs
    obtain ⟨rest, ha⟩ := r.accs_eq
    obtain ⟨a0, a1, a2, a3⟩ := getElem?_of_cons8 ha
    rw [h0] at a0; cases a0
    rw [h2] at a2; cases a2
    refine ⟨f.refund, ?_⟩
    show (L' mpw.key).lamports = 0
    rw [f.pw_closed]

end Xorca
