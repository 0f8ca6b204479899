import Verif.Sealed
import Verif.Lemmas.Trace
/-
In a sealed history a derived address is blank, holds what the program stored there, or is the vault.
-/
namespace Xorca
open Spec

/-- What can be at a derived address. -/
def Settled (cr : Crypto) (L : Ledger) (k : Pubkey) : Prop :=
  Blank (L k) ∨ ((L k).owner = PROGRAM_ID ∧ ¬ AllZero (L k).data) ∨ ∃ st b b', StateAddr cr st b ∧ VaultAddr cr st k b'

theorem Settled.of_same {cr : Crypto} {L L' : Ledger} {k : Pubkey} (h : Settled cr L k)
    (ho : (L' k).owner = (L k).owner) (hd : (L' k).data = (L k).data) : Settled cr L' k := by
  rcases h with h | h | h
  · exact Or.inl ⟨by rw [ho, h.1], by rw [hd, h.2]⟩
  · exact Or.inr (Or.inl ⟨by rw [ho, h.1], by rw [hd]; exact h.2⟩)
  · exact Or.inr (Or.inr h)

/-- An account of the token program is only settled as the vault. -/
theorem Settled.token {cr : Crypto} {L L' : Ledger} {k : Pubkey} (h : Settled cr L k)
    (ho : (L k).owner = SPL_TOKEN_PROGRAM_ID) : Settled cr L' k := by
  rcases h with h | h | h
  · exact absurd (ho.symm.trans h.1) token_ne_system
  · exact absurd (ho.symm.trans h.1) token_ne_program
  · exact Or.inr (Or.inr h)

theorem Pool.settled {cr : Crypto} {L : Ledger} {st v : Pubkey} (p : Pool cr L st v) : Settled cr L st :=
  Or.inr (Or.inl ⟨p.prog, not_allZero (o := 0) (by rw [p.acc.tag]; decide)⟩)

theorem call_settled {x : Ctx} {L L' : Ledger} {accs : List Meta} {ix : Instruction} {logs : List Bytes}
    (hr : Runs x L accs ix L' logs) (hrent : ∀ n, x.rentMin n ≠ 0) (hs : SignersOk x.cr L accs) (i : Inv x.cr L)
    {k : Pubkey} (h : Settled x.cr L k) : Settled x.cr L' k := by
  have hd := hr.dispatch
  cases ix with
  | Stake a =>
    obtain ⟨s, v, oa, xa, xm, st, om, tp, L1, m, r, f, p, p', i'⟩ := i.stake hs hd
    by_cases hk : k ∈ [oa.key, v.key, xa.key, XORCA_MINT_ID]
    · simp only [List.mem_cons, List.not_mem_nil, or_false] at hk
      rcases hk with rfl | rfl | rfl | rfl
      · exact h.token f.oa_ok.owner
      · exact h.token f.v_ok.owner
      · exact h.token f.xa_ok.owner
      · exact h.token f.xm_ok.owner
    · have := f.frame.other k hk
      exact h.of_same (by rw [this]) (by rw [this])
  | Unstake a ix =>
    obtain ⟨u, st, pw, xa, xm, om, v, sp, tp, L1, L3, w, e, ts, b, r, f, p, p', i'⟩ := i.unstake hrent hs hd
    by_cases hk : k ∈ [pw.key, xa.key, XORCA_MINT_ID, st.key]
    · simp only [List.mem_cons, List.not_mem_nil, or_false] at hk
      rcases hk with rfl | rfl | rfl | rfl
      · obtain ⟨l, n1, -⟩ := f.pw_new
        refine Or.inr (Or.inl ⟨by rw [n1], ?_⟩)
        rw [n1]
        exact not_allZero (o := 0) (by rw [show (Account.mk l PROGRAM_ID (recordBytes b ix u.key w ts)).data = recordBytes b ix u.key w ts from rfl,
          (recordBytes_fields b ix u.key w ts).1]; decide)
      · exact h.token f.xa_ok.owner
      · exact h.token f.xm_ok.owner
      · exact p'.settled
    · refine h.of_same (f.owner k fun he => hk (by simp [he])) (f.data k hk)
  | Withdraw ix =>
    obtain ⟨u, st, pw, oa, v, om, sp, tp, L1, L2, e, r, f, p, p', i'⟩ := i.withdraw hs hd
    by_cases hk : k ∈ [pw.key, oa.key, v.key, st.key]
    · simp only [List.mem_cons, List.not_mem_nil, or_false] at hk
      rcases hk with rfl | rfl | rfl | rfl
      · exact Or.inl ⟨by rw [f.pw_closed], by rw [f.pw_closed]⟩
      · exact h.token f.oa_ok.owner
      · exact h.token f.v_ok.owner
      · exact p'.settled
    · refine h.of_same (f.owner k fun he => hk (by simp [he])) (f.data k hk)
  | Initialize c =>
    obtain ⟨p, au, st, v, xm, om, sp, tp, ap, L1, b, vb, r, f, -, p', -⟩ := i.initialize hrent hs hd
    by_cases hk : k ∈ [p.key, st.key, v.key]
    · simp only [List.mem_cons, List.not_mem_nil, or_false] at hk
      rcases hk with rfl | rfl | rfl
      · obtain ⟨l, hl, -⟩ := f.paid
        exact h.of_same (by rw [hl]) (by rw [hl])
      · exact p'.settled
      · exact Or.inr (Or.inr ⟨st.key, _, _, p'.acc.addr, p'.v_addr⟩)
    · have := f.other k hk
      exact h.of_same (by rw [this]) (by rw [this])
  | Set u =>
    obtain ⟨a, st, v, r, p, p', i', hoth, -⟩ := i.set hd
    by_cases hk : k = st.key
    · subst hk; exact p'.settled
    · exact h.of_same (by rw [hoth k hk]) (by rw [hoth k hk])

theorem Spec.SealedHist.hist {cr : Crypto} {h : List Entry} {L : Ledger} (hh : SealedHist cr h L) : Hist cr h L := by
  obtain ⟨L0, g, -, p, -⟩ := hh
  exact ⟨L0, g, p⟩

theorem Spec.SealedHist.settled {cr : Crypto} {h : List Entry} {L : Ledger} (hh : SealedHist cr h L) {k : Pubkey}
    (hk : Derived cr k) : Settled cr L k := by
  obtain ⟨L0, g, hb, p, hs⟩ := hh
  induction p with
  | nil => exact Or.inl (hb k hk)
  | @step h e p ok ih =>
    have ih := ih fun e he => hs e (List.mem_cons_of_mem _ he)
    have inv : Inv cr e.pre := (p.inv (Inv.genesis g)).1
    have hse := hs e (by simp)
    cases ok with
    | @call x accs ix logs L L' hcr hrent hsig hr => subst hcr; exact call_settled hr hrent hsig inv ih
    | @env L L' st =>
      rcases ih with h1 | h1 | h1
      · exact Or.inl (hse rfl k hk h1)
      · have hlam : (L k).lamports ≠ 0 := by
          rcases inv.owned k h1.1 with h2 | h2 | h2
          · exact absurd h2 h1.2
          · exact h2.lam
          · exact h2.lam
        obtain ⟨h2, h3, -⟩ := st.owned k h1.1 hlam
        exact Or.inr (Or.inl ⟨h2, by rw [h3]; exact h1.2⟩)
      · exact Or.inr (Or.inr h1)

end Xorca
