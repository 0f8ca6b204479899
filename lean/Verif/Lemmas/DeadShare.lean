import Verif.Lemmas.Inv
import Verif.Lemmas.EnvOk
import Verif.Lemmas.NoProfitAux
import Verif.Props.NoProfit
import Verif.Lemmas.World
import Verif.Totals
/-
Helpers for C107: xORCA in a token account that belongs to the pool can never move.
-/
namespace Xorca
open Spec

variable {cr : Crypto} {x : Ctx} {L L' : Ledger} {accs : List Meta} {logs : List Bytes} {t : Pubkey}

theorem Spec.PoolToken.usable_ne_mint {a : Account} (p : PoolToken cr a) (u : MintUsable a) : False := by
  have := u.len; rw [p.len] at this; omega

theorem Spec.PoolToken.ne_signer {m : Meta} (p : PoolToken cr (L t)) (hs : SignersOk cr L accs) (hm : m ∈ accs)
    (hg : m.isSigner = true) : ownerOf L t ≠ m.key := by
  intro e
  obtain ⟨b, hb⟩ := p.owner
  exact (hs m hm hg).2.1 b (by rw [← e]; exact hb)

/-- No call changes a token account of xORCA that belongs to the pool. -/
theorem deadShare_call {ix : Instruction} (h : Runs x L accs ix L' logs) (hs : SignersOk x.cr L accs)
    (p : PoolToken x.cr (L t)) (hm : mintOf L t = XORCA_MINT_ID) :
    (L' t).owner = (L t).owner ∧ (L' t).data = (L t).data := by
  have hprog : (L t).owner ≠ PROGRAM_ID := by rw [p.prog]; exact token_ne_program
  have hsys : (L t).owner ≠ SYSTEM_PROGRAM_ID := by rw [p.prog]; decide
  have hd := h.dispatch
  cases ix with
  | Stake a =>
    obtain ⟨s, v, oa, xa, xm, st, om, tp, L1, m, r⟩ := processStake_run hd
    have f := r.eff hs
    have hsig : ownerOf L t ≠ s.key := by
      obtain ⟨rest, hr⟩ := r.accs_eq
      exact p.ne_signer hs (by rw [hr]; simp) r.signer
    have : L' t = L t := f.frame.other t (by
      simp only [List.mem_cons, List.not_mem_nil, or_false, not_or]
      refine ⟨?_, ?_, ?_, ?_⟩
      · rintro rfl; exact hsig r.oa_owner
      · rintro rfl; exact orca_ne_xorca (r.v_mint.symm.trans hm)
      · rintro rfl; exact hsig r.xa_owner
      · rintro rfl; exact p.usable_ne_mint f.xm_ok)
    rw [this]; exact ⟨rfl, rfl⟩
  | Unstake a i =>
    obtain ⟨u, st, pw, xa, xm, om, v, sp, tp, L1, L3, w, e, ts, b, r⟩ := processUnstake_run hd
    have f := (r.eff hs).1
    have hsig : ownerOf L t ≠ u.key := by
      obtain ⟨rest, hr⟩ := r.accs_eq
      exact p.ne_signer hs (by rw [hr]; simp) r.signer
    have n1 : t ≠ pw.key := by rintro rfl; exact hsys r.pw_prog
    refine ⟨f.owner t n1, f.data t ?_⟩
    simp only [List.mem_cons, List.not_mem_nil, or_false, not_or]
    refine ⟨n1, ?_, ?_, ?_⟩
    · rintro rfl; exact hsig r.xa_owner
    · rintro rfl; exact p.usable_ne_mint f.xm_ok
    · rintro rfl; exact hprog r.st_prog
  | Withdraw i =>
    obtain ⟨u, st, pw, oa, v, om, sp, tp, L1, L2, e, r⟩ := processWithdraw_run hd
    have f := (r.eff hs).1
    have n1 : t ≠ pw.key := by rintro rfl; exact hprog r.pw_prog
    refine ⟨f.owner t n1, f.data t ?_⟩
    simp only [List.mem_cons, List.not_mem_nil, or_false, not_or]
    refine ⟨n1, ?_, ?_, ?_⟩
    · rintro rfl; exact orca_ne_xorca (r.oa_mint.symm.trans hm)
    · rintro rfl; exact orca_ne_xorca (r.v_mint.symm.trans hm)
    · rintro rfl; exact hprog r.st_prog
  | Initialize c =>
    obtain ⟨q, au, st, v, xm, om, sp, tp, ap, L1, b, vb, r⟩ := processInitialize_run hd
    have f := r.eff hs
    have n1 : t ≠ st.key := by
      rintro rfl; rw [f.st_fresh] at hsys; exact hsys rfl
    have n2 : t ≠ v.key := by
      rintro rfl; rw [f.v_fresh] at hsys; exact hsys rfl
    by_cases n0 : t = q.key
    · subst n0
      obtain ⟨l, hl, _⟩ := f.paid
      rw [hl]; exact ⟨rfl, rfl⟩
    · rw [f.other t (by simp [n0, n1, n2])]; exact ⟨rfl, rfl⟩
  | Set u =>
    have key : ∃ a st d, SetRun x L accs a st ∧ L' = L.setData st.key d := by
      cases u with
      | UpdateCoolDownPeriod c =>
        obtain ⟨a, st, r, _, h2, _⟩ := processSet_coolDown_run hd
        exact ⟨a, st, _, r, h2⟩
      | UpdateUpdateAuthority k =>
        obtain ⟨a, st, r, h2, _⟩ := processSet_authority_run hd
        exact ⟨a, st, _, r, h2⟩
    obtain ⟨a, st, d, r, rfl⟩ := key
    have n1 : t ≠ st.key := by rintro rfl; exact hprog r.st_prog
    rw [L.setData_other _ n1]; exact ⟨rfl, rfl⟩

theorem Spec.PoolToken.congr {a a' : Account} (p : PoolToken cr a) (ho : a'.owner = a.owner)
    (hd : a'.data = a.data) : PoolToken cr a' :=
  ⟨by rw [ho]; exact p.prog, by rw [hd]; exact p.len, by rw [hd]; exact p.state, by rw [hd]; exact p.owner,
    by rw [hd]; exact p.delegate, by rw [hd]; exact p.native, by rw [hd]; exact p.close⟩

/-- Along every path such an account stays, and its balance never falls. -/
theorem deadShare_path {h : List Entry} (hp : Path cr L h L') (p : PoolToken cr (L t))
    (hm : mintOf L t = XORCA_MINT_ID) :
    PoolToken cr (L' t) ∧ mintOf L' t = XORCA_MINT_ID ∧ ownerOf L' t = ownerOf L t ∧ balance L t ≤ balance L' t := by
  induction hp with
  | nil => exact ⟨p, hm, rfl, le_refl _⟩
  | @step h e q ok ih =>
    obtain ⟨i1, i2, i3, i4⟩ := ih
    cases ok with
    | @env M M' he =>
      obtain ⟨e1, e2, e3⟩ := he.vault i1
      exact ⟨e1, e3.trans i2, e2.trans i3, le_trans i4 (he.token t i1).2.2.2.2⟩
    | @call x accs ix logs M M' hx hrent hs hrun =>
      subst hx
      obtain ⟨c1, c2⟩ := deadShare_call hrun hs i1 i2
      dsimp only
      simp only [mintOf, ownerOf, balance] at *
      rw [c2]
      exact ⟨i1.congr c1 c2, i2, i3, i4⟩

theorem supply_of_deadShare (ha : Accounted L) (p : PoolToken cr (L t)) (hm : mintOf L t = XORCA_MINT_ID) :
    balance L t ≤ supply L XORCA_MINT_ID := by
  have := ha {t}
  rw [totalTokens, Finset.sum_singleton, tokensOf, if_pos ⟨p.prog, p.len, hm⟩] at this
  exact this

/-- Every step of a path starts on a path. -/
theorem Spec.Path.before {h : List Entry} {e : Entry} (hp : Path cr L h L') (he : e ∈ h) :
    ∃ h', Path cr L h' e.pre ∧ ∀ e' ∈ h', e' ∈ h := by
  induction hp with
  | nil => simp at he
  | @step h e' q ok ih =>
    rcases List.mem_cons.1 he with rfl | he
    · exact ⟨h, q, fun _ h => List.mem_cons_of_mem _ h⟩
    · obtain ⟨h', h1, h2⟩ := ih he
      exact ⟨h', h1, fun _ h => List.mem_cons_of_mem _ (h2 _ h)⟩

variable {L0 : Ledger} {st v : Pubkey} {h : List Entry}

theorem deadShare_never_ownerless (hr : Reachable cr L) (ha : Accounted L) (ht : PoolToken cr (L t))
    (hm : mintOf L t = XORCA_MINT_ID) (hpos : 0 < balance L t) (hp : Path cr L h L') (hk : ∀ e ∈ h, KeepsBooks e) :
    balance L t ≤ supply L' XORCA_MINT_ID ∧ ∀ e ∈ h, ¬ OrphanStake e st v := by
  constructor
  · obtain ⟨p1, p2, _, p4⟩ := deadShare_path hp ht hm
    exact le_trans p4 (supply_of_deadShare (C63_books_in_order hr ha hp hk) p1 p2)
  · intro e he ho
    obtain ⟨h', q1, q2⟩ := hp.before he
    obtain ⟨p1, p2, _, p4⟩ := deadShare_path q1 ht hm
    have := supply_of_deadShare (C63_books_in_order hr ha q1 fun e' he' => hk e' (q2 e' he')) p1 p2
    have := ho.2.1
    omega

/-- Facts about a world in which the pool holds xORCA itself. -/
theorem deadShare_world (hg : Genesis L0) (hs : Steady cr L0) (ha : Accounted L0) {h0 : List Entry}
    (hw0 : World cr L0 h0 L) (hw : World cr L h L') (ht : PoolToken cr (L t)) (hm : mintOf L t = XORCA_MINT_ID)
    (hpos : 0 < balance L t) :
    Reachable cr L ∧ Path cr L h L' ∧ balance L t ≤ supply L' XORCA_MINT_ID ∧ ∀ e ∈ h, ¬ OrphanStake e st v := by
  obtain ⟨hp0, hs1, hk0⟩ := world_path hs hw0
  obtain ⟨hp, _, hk⟩ := world_path hs1 hw
  have hr0 : Reachable cr L0 := ⟨[], L0, hg, .nil⟩
  have hr : Reachable cr L := ⟨h0, L0, hg, hp0⟩
  exact ⟨hr, hp, deadShare_never_ownerless hr (C63_books_in_order hr0 ha hp0 hk0) ht hm hpos hp hk⟩

end Xorca
