import Verif.Props.Accept
import Verif.Props.Conservation
import Verif.Props.Effects
import Verif.Props.Errors
import Verif.Props.RoundTrips
/-
Limits of use: accounts that must differ, what a long cool-down blocks, and how many requests a user can have.
-/
namespace Xorca
open Spec

variable {cr : Crypto} {x : Ctx} {L L' : Ledger} {accs rest : List Meta} {logs : List Bytes}

/-! ### C74: no account is passed twice

Every account whose data a successful call reads or writes has one role only.  So no borrow of account data
can clash with another one, which is why the model leaves the borrow flags out. -/

/-- Stake. -/
theorem C74_stake_accounts_differ {s v oa xa xm st om tp : Meta} {a : UInt64} (hx : x.cr = cr)
    (hs : SignersOk cr L (s :: v :: oa :: xa :: xm :: st :: om :: tp :: rest)) (ho : MintOk L ORCA_MINT_ID)
    (h : Runs x L (s :: v :: oa :: xa :: xm :: st :: om :: tp :: rest) (.Stake a) L' logs) :
    [v.key, oa.key, xa.key, xm.key, st.key, om.key].Nodup ∧ s.key ≠ st.key := by
  subst hx
  obtain ⟨L1, m, r⟩ := h.stake
  have e := r.eff hs
  have n1 : ∀ k, TokUsable (L k) → k ≠ ORCA_MINT_ID := by
    rintro k t rfl; have := t.len; rw [ho.len] at this; exact absurd this (by decide)
  have n2 : st.key ≠ ORCA_MINT_ID := by
    intro h; have := r.st_prog; rw [h, ho.prog] at this; exact token_ne_program this
  have n3 : XORCA_MINT_ID ≠ ORCA_MINT_ID := by decide
  have n4 : s.key ≠ st.key := signer_ne hs (by simp) r.signer r.st_prog (by rw [r.st_disc]; decide)
  have := e.st_ne
  refine ⟨?_, n4⟩
  simp only [List.nodup_cons, List.mem_cons, List.not_mem_nil, or_false, not_or, List.nodup_nil, and_true,
    not_false_eq_true, r.xm_key, r.om_key]
  exact ⟨⟨e.oa_ne_v.symm, e.v_ne_xa, e.v_ne_xm, this.2.1.symm, n1 _ e.v_ok⟩,
    ⟨e.oa_ne_xa, e.oa_ne_xm, this.1.symm, n1 _ e.oa_ok⟩, ⟨e.xa_ne_xm, this.2.2.1.symm, n1 _ e.xa_ok⟩,
    ⟨this.2.2.2.symm, n3⟩, n2⟩

/-- Unstake. -/
theorem C74_unstake_accounts_differ {u st pw xa xm om v sp tp : Meta} {a : UInt64} {i : UInt8} (hx : x.cr = cr)
    (hs : SignersOk cr L (u :: st :: pw :: xa :: xm :: om :: v :: sp :: tp :: rest)) (ho : MintOk L ORCA_MINT_ID)
    (h : Runs x L (u :: st :: pw :: xa :: xm :: om :: v :: sp :: tp :: rest) (.Unstake a i) L' logs) :
    [st.key, pw.key, xa.key, xm.key, om.key, v.key].Nodup ∧ u.key ≠ st.key ∧ u.key ≠ pw.key := by
  subst hx
  obtain ⟨L1, L3, w, e, ts, b, r⟩ := h.unstake
  have f := (r.eff hs).1
  have n2 : st.key ≠ ORCA_MINT_ID := by
    intro h; have := r.st_prog; rw [h, ho.prog] at this; exact token_ne_program this
  have n1 : pw.key ≠ ORCA_MINT_ID := by
    intro h; have := r.pw_prog; rw [h, ho.prog] at this; exact absurd this (by decide)
  have n0 : xa.key ≠ ORCA_MINT_ID := by
    intro h; have := f.xa_ok.len; rw [h, ho.len] at this; exact absurd this (by decide)
  have n5 : v.key ≠ ORCA_MINT_ID := by
    intro h; have := r.v_len; rw [h, ho.len] at this; exact absurd this (by decide)
  have n3 : XORCA_MINT_ID ≠ ORCA_MINT_ID := by decide
  have n4 : u.key ≠ st.key := signer_ne hs (by simp) r.signer r.st_prog (by rw [r.st_disc]; decide)
  have s1 := f.st_ne
  have s2 := f.pw_ne
  have s3 := f.v_ne
  refine ⟨?_, n4, s2.1.symm⟩
  simp only [List.nodup_cons, List.mem_cons, List.not_mem_nil, or_false, not_or, List.nodup_nil, and_true,
    not_false_eq_true, r.xm_key, r.om_key]
  exact ⟨⟨s1.1, s1.2.1, s1.2.2.1, n2, s1.2.2.2⟩, ⟨s2.2.1, s2.2.2.1, n1, s2.2.2.2⟩, ⟨f.xa_ne_xm, n0, s3.1.symm⟩,
    ⟨n3, s3.2.symm⟩, n5.symm⟩

/-- Withdraw. -/
theorem C74_withdraw_accounts_differ {u st pw oa v om sp tp : Meta} {i : UInt8} (hx : x.cr = cr)
    (hs : SignersOk cr L (u :: st :: pw :: oa :: v :: om :: sp :: tp :: rest)) (ho : MintOk L ORCA_MINT_ID)
    (h : Runs x L (u :: st :: pw :: oa :: v :: om :: sp :: tp :: rest) (.Withdraw i) L' logs) :
    [st.key, pw.key, oa.key, v.key, om.key].Nodup ∧ u.key ≠ st.key ∧ u.key ≠ pw.key := by
  subst hx
  obtain ⟨L1, L2, e, r⟩ := h.withdraw
  have f := (r.eff hs).1
  have n1 : ∀ k, TokUsable (L k) → k ≠ ORCA_MINT_ID := by
    rintro k t rfl; have := t.len; rw [ho.len] at this; exact absurd this (by decide)
  have n2 : ∀ k, (L k).owner = PROGRAM_ID → k ≠ ORCA_MINT_ID := by
    rintro k h rfl; rw [ho.prog] at h; exact token_ne_program h
  have s1 := f.st_ne
  have s2 := f.pw_ne
  refine ⟨?_, s1.2.2.2.symm, s2.2.2.symm⟩
  simp only [List.nodup_cons, List.mem_cons, List.not_mem_nil, or_false, not_or, List.nodup_nil, and_true,
    not_false_eq_true, r.om_key]
  exact ⟨⟨s1.1, s1.2.1, s1.2.2.1, n2 _ r.st_prog⟩, ⟨s2.1, s2.2.1, n2 _ r.pw_prog⟩, ⟨f.v_ne.symm, n1 _ f.oa_ok⟩,
    n1 _ f.v_ok⟩

/-- Initialize. -/
theorem C74_initialize_accounts_differ {p au st v xm om sp tp ap : Meta} {c : Int64} (hx : x.cr = cr)
    (hs : SignersOk cr L (p :: au :: st :: v :: xm :: om :: sp :: tp :: ap :: rest))
    (h : Runs x L (p :: au :: st :: v :: xm :: om :: sp :: tp :: ap :: rest) (.Initialize c) L' logs) :
    [st.key, v.key, xm.key, om.key].Nodup ∧ p.key ≠ st.key ∧ p.key ≠ v.key ∧ au.key ≠ st.key ∧ au.key ≠ v.key := by
  subst hx
  obtain ⟨L1, b, vb, r⟩ := h.init
  have e := r.eff hs
  have hsg := hs au (by simp) r.au_signer
  have ne : ∀ k m, (L k).owner = SYSTEM_PROGRAM_ID → (L m).owner = SPL_TOKEN_PROGRAM_ID → k ≠ m := by
    rintro k m h1 h2 rfl; rw [h1] at h2; exact absurd h2 (by decide)
  refine ⟨?_, e.p_ne.1, e.p_ne.2, fun hk => hsg.2.1 b (by rw [hk]; exact r.st_find),
    fun hk => hsg.2.2.1 st.key b vb r.st_find (by rw [hk]; exact r.v_find)⟩
  simp only [List.nodup_cons, List.mem_cons, List.not_mem_nil, or_false, not_or, List.nodup_nil, and_true,
    not_false_eq_true, r.om_key, r.xm_key]
  exact ⟨⟨e.st_ne_v, ne _ _ r.st_sys r.xm_prog, ne _ _ r.st_sys r.om_prog⟩,
    ⟨ne _ _ r.v_sys r.xm_prog, ne _ _ r.v_sys r.om_prog⟩, by decide⟩

/-- Set. -/
theorem C74_set_accounts_differ {a st : Meta} {u : StateUpdateInstruction} (hx : x.cr = cr)
    (hs : SignersOk cr L (a :: st :: rest)) (h : Runs x L (a :: st :: rest) (.Set u) L' logs) : a.key ≠ st.key := by
  subst hx
  cases u with
  | UpdateCoolDownPeriod c =>
    obtain ⟨r, -⟩ := h.set_coolDown
    exact signer_ne hs (by simp) r.signer r.st_prog (by rw [r.st_disc]; decide)
  | UpdateUpdateAuthority n =>
    obtain ⟨r, -⟩ := h.set_authority
    exact signer_ne hs (by simp) r.signer r.st_prog (by rw [r.st_disc]; decide)

/-- The calls of the demo history. -/
example : [Demo.VA, Demo.UO, Demo.UX, XORCA_MINT_ID, Demo.ST, ORCA_MINT_ID].Nodup ∧
    [Demo.ST, Demo.R255, Demo.UX, XORCA_MINT_ID, ORCA_MINT_ID, Demo.VA].Nodup ∧
    [Demo.ST, Demo.R255, Demo.UO, Demo.VA, ORCA_MINT_ID].Nodup ∧
    [Demo.ST, Demo.VA, XORCA_MINT_ID, ORCA_MINT_ID].Nodup ∧ Demo.US ≠ Demo.ST :=
  ⟨(C74_stake_accounts_differ rfl Demo.signers4 ⟨by decide +kernel, by decide +kernel, by decide +kernel⟩ Demo.run4).1,
    (C74_unstake_accounts_differ rfl Demo.signers5 ⟨by decide +kernel, by decide +kernel, by decide +kernel⟩ Demo.run5).1,
    (C74_withdraw_accounts_differ rfl Demo.signers9 ⟨by decide +kernel, by decide +kernel, by decide +kernel⟩ Demo.run9).1,
    (C74_initialize_accounts_differ rfl Demo.signers1 Demo.run1).1, C74_set_accounts_differ rfl Demo.signers7 Demo.run7⟩

/-! ### C75: a very long cool-down stops Unstake, and nothing else -/

/-- An Unstake needs a clock that does not overflow when the cool-down is added. -/
theorem C75_overflow_stops_unstake {st : Pubkey} {a : UInt64} {i : UInt8} (hr : Reachable cr L)
    (hi : Initialised cr L st) (hx : x.cr = cr) (hs : SignersOk cr L accs)
    (hov : 2 ^ 63 ≤ x.now.toInt + coolDown L st) : ¬ Succeeds x L accs (.Unstake a i) := by
  subst hx
  intro h
  obtain ⟨L', logs, h⟩ := succeeds_iff.1 h
  obtain ⟨u, st', pw, xa, xm, om, v, sp, tp, L1, L3, w, e, ts, b, r⟩ := processUnstake_run h.dispatch
  have f := (r.eff hs).1
  obtain ⟨v', p⟩ := hr.inv.poolOf r.st_prog r.st_disc
  obtain ⟨b0, hb⟩ := hi.1
  obtain ⟨rfl, _⟩ := stateAddr_unique hb p.acc.addr
  have := f.maturity
  have := ts.toInt_lt
  omega

/-- The authority can set such a cool-down in every reachable state.  From then on no Unstake succeeds, at any time
and whatever else happens, until there is another Set. -/
theorem C75_authority_can_stop_unstake {au st : Meta} (hr : Reachable cr L) (hi : Initialised cr L st.key)
    (hx : x.cr = cr) (hrent : ∀ n, x.rentMin n ≠ 0) (hs : SignersOk cr L accs) (hc : SetCall accs au st)
    (hau : au.key = authority L st.key) :
    ∃ L', Runs x L accs (.Set (.UpdateCoolDownPeriod 9223372036854775807)) L' [] ∧
      ∀ h L2, Path cr L' h L2 → (∀ e ∈ h, ∀ x accs u logs, e.label ≠ .call x accs (.Set u) logs) →
        coolDown L2 st.key = 2 ^ 63 - 1 ∧
        ∀ y accs2 a i, y.cr = cr → 0 < y.now.toInt → SignersOk cr L2 accs2 → ¬ Succeeds y L2 accs2 (.Unstake a i) := by
  obtain ⟨rest, rfl⟩ := hc.accs_eq
  have hok := (C58_set_accepted_iff (x := x) (u := .UpdateCoolDownPeriod 9223372036854775807) hr hx).2
    ⟨hc, hi, hau, fun c hc => by cases hc; decide⟩
  obtain ⟨L', logs, hrun⟩ := succeeds_iff.1 hok
  obtain ⟨-, -, -, -, -, hcool, -, -, -, -, rfl⟩ := Props.C23_set_cool_down hrun
  refine ⟨L', hrun, ?_⟩
  intro h L2 hp hno
  have hr' : Reachable cr L' := by
    obtain ⟨h0, L0, g, p0⟩ := hr
    exact ⟨_, L0, g, .step (e := ⟨L, .call x _ _ _, L'⟩) p0 (.call hx hrent hs hrun)⟩
  obtain ⟨v0, p0⟩ := hr.inv.ofInitialised hi
  have p0' : Pool cr L' st.key v0 := ((Entry.Ok.call hx hrent hs hrun).inv hr.inv).2 st.key v0 p0
  have hcool2 : coolDown L2 st.key = 2 ^ 63 - 1 := by
    induction hp with
    | nil => rw [hcool]; decide
    | @step h e q ok ih =>
      have h1 := ih (fun e he => hno e (List.mem_cons_of_mem _ he))
      have hre : Reachable cr e.pre := by
        obtain ⟨h0, L0, g, p0⟩ := hr'
        exact ⟨_, L0, g, p0.append q⟩
      have pe := (q.inv hr'.inv).2 st.key v0 p0'
      by_contra hne
      obtain ⟨y, accs, u, logs, hl⟩ := (C44_moved_only_by ok hre ⟨⟨_, pe.acc.addr⟩, pe.prog, pe.acc.tag⟩ pe.v_addr).2.2.2
        (Or.inr (by rw [h1]; exact hne))
      exact hno e (by simp) y accs u logs hl
  have hr2 : Reachable cr L2 := by
    obtain ⟨h0, L0, g, p0⟩ := hr'
    exact ⟨_, L0, g, p0.append hp⟩
  have p2 := (hp.inv hr'.inv).2 st.key v0 p0'
  refine ⟨hcool2, fun y accs2 a i hy hnow hs2 => ?_⟩
  exact C75_overflow_stops_unstake hr2 ⟨⟨_, p2.acc.addr⟩, p2.prog, p2.acc.tag⟩ hy hs2 (by rw [hcool2]; omega)

/-- In the demo: a Set to the largest value stops the next Unstake but not a Stake; with open records it does not stop
the Withdraw either. -/
example :
    (let M := (Demo.out (entry (Demo.ctx 1005) PROGRAM_ID Demo.L4 Demo.setAccs (4 :: 0 :: i64le 9223372036854775807))).1
     Demo.err (entry (Demo.ctx 1006) PROGRAM_ID M (Demo.unstakeAccs Demo.R255) (1 :: u64le 600000 ++ [255])) =
       some (.custom .CoolDownOverflow) ∧
     Demo.isOk (entry (Demo.ctx 1006) PROGRAM_ID M Demo.stakeAccs (0 :: u64le 300000)) = true) ∧
    (let M := (Demo.out (entry (Demo.ctx 1005) PROGRAM_ID Demo.L6 Demo.setAccs (4 :: 0 :: i64le 9223372036854775807))).1
     Demo.isOk (entry (Demo.ctx 1103) PROGRAM_ID M (Demo.withdrawAccs Demo.R255) [2, 255]) = true) := by
  decide +kernel

example : ∃ L', Runs (Demo.ctx 1005) Demo.L6 Demo.setAccs (.Set (.UpdateCoolDownPeriod 9223372036854775807)) L' [] ∧
    ¬ Succeeds (Demo.ctx 1006) L' (Demo.unstakeAccs Demo.R255) (.Unstake 1 255) := by
  obtain ⟨L', h1, h2⟩ := C75_authority_can_stop_unstake (x := Demo.ctx 1005) (au := ⟨Demo.US, true, true⟩)
    (st := ⟨Demo.ST, false, true⟩) Demo.reach6 Demo.init6 rfl Demo.rent_ne Demo.signers7
    ⟨⟨[], rfl⟩, rfl, rfl, rfl⟩ (by decide +kernel)
  refine ⟨L', h1, (h2 [] L' .nil (by simp)).2 (Demo.ctx 1006) _ 1 255 rfl (by decide +kernel) ?_⟩
  obtain ⟨-, -, -, -, -, -, -, -, -, hfr, -⟩ := Props.C23_set_cool_down h1
  refine Demo.signersOk ?_
  intro m hm hs
  have hm' : m.key = Demo.US := by
    simp only [Demo.unstakeAccs, List.mem_cons, List.not_mem_nil, or_false] at hm
    rcases hm with rfl | rfl | rfl | rfl | rfl | rfl | rfl | rfl | rfl <;> first | rfl | cases hs
  rw [hm', hfr Demo.US (by decide +kernel)]
  exact ⟨Demo.us_curve, by decide +kernel⟩

/-! ### C76: a user's 256 requests -/

/-- With all 256 indices in use, every Unstake of this user fails. -/
theorem C76_all_in_use {u : Pubkey} {m : Meta} {a : UInt64} {i : UInt8}
    (hall : ∀ i, ∃ k b, RecordAddr x.cr u i k b ∧ IsRecord L k) (h0 : accs[0]? = some m) (hu : m.key = u) :
    ¬ Succeeds x L accs (.Unstake a i) := by
  subst hu
  intro h
  obtain ⟨L', logs, h⟩ := succeeds_iff.1 h
  obtain ⟨k, b, h1, h2⟩ := hall i
  exact C50_open_index_refused h0 h1 h2 h

/-- A ledger where every index of the user is in use (with a hash that returns the index). -/
example (a : UInt64) (i : UInt8) :
    let y : Ctx := ⟨⟨fun p => ⟨p.getD 48 0 :: List.replicate 31 0, rfl⟩, fun _ => false⟩, 0, fun _ => 1⟩
    ¬ Succeeds y (fun _ => ⟨1, PROGRAM_ID, 2 :: List.replicate 1023 0⟩) (Demo.unstakeAccs Demo.R0) (.Unstake a i) :=
  C76_all_in_use (u := Demo.US) (fun i => ⟨⟨i :: List.replicate 31 0, rfl⟩, 255, rfl, rfl,
    Nat.le_of_eq (congrArg (· + 1) List.length_replicate).symm, rfl⟩) rfl rfl

/-- A user has at most 256 open requests. -/
theorem C76_at_most_256 {u : Pubkey} {rs : List Pubkey} (hr : Reachable cr L) (hn : rs.Nodup)
    (hrs : ∀ k ∈ rs, IsRecord L k ∧ recOwner L k = u) : rs.length ≤ 256 := by
  have hinj : (rs.map (recIndex L)).Nodup := by
    refine (List.nodup_map_iff_inj_on hn).2 ?_
    intro k hk j hj he
    obtain ⟨h1, h2⟩ := hrs k hk
    obtain ⟨h3, h4⟩ := hrs j hj
    have a1 : RecordAddr cr (recOwner L k) (recIndex L k) k _ := (hr.inv.isRec h1).addr
    have a2 : RecordAddr cr (recOwner L j) (recIndex L j) j _ := (hr.inv.isRec h3).addr
    rw [h2, he] at a1
    rw [h4] at a2
    have := a1.symm.trans a2
    simp only [Option.some.injEq, Prod.mk.injEq] at this
    exact this.1
  have h5 : ((rs.map (recIndex L)).map UInt8.toNat).Nodup :=
    hinj.map (fun a b h => UInt8.toNat_inj.1 h)
  have h6 : ((rs.map (recIndex L)).map UInt8.toNat) ⊆ List.range 256 := by
    intro n hn
    simp only [List.mem_map] at hn
    obtain ⟨a, -, rfl⟩ := hn
    exact List.mem_range.2 a.toNat_lt
  have h7 := (h5.subperm h6).length_le
  simpa using h7

/-- The user of the demo has two open requests after step 6. -/
example : [Demo.R0, Demo.R255].length ≤ 256 :=
  C76_at_most_256 (u := Demo.US) Demo.reach6 (by decide +kernel) (by
    intro k hk
    simp only [List.mem_cons, List.not_mem_nil, or_false] at hk
    rcases hk with rfl | rfl
    · exact ⟨⟨by decide +kernel, by decide +kernel, by decide +kernel⟩, by decide +kernel⟩
    · exact ⟨⟨by decide +kernel, by decide +kernel, by decide +kernel⟩, by decide +kernel⟩)

/-- Every open request of a user was made by a call the user signed, with that index. -/
theorem C76_own_signature {h : List Entry} {u k : Pubkey} (hh : Hist cr h L) (hrec : IsRecord L k)
    (hu : recOwner L k = u) : ∃ e ∈ h, ∃ st now, Creates e k u st (recIndex L k) now := by
  obtain ⟨h2, e, h1, u', st, i, now, rfl, hc, -, hd⟩ := hh.origin hrec
  refine ⟨e, by simp, st, now, ?_⟩
  obtain ⟨L0, g, p⟩ := hh
  obtain ⟨p1, ok, -⟩ := p.split
  have f := hc.facts ok (p1.inv (Inv.genesis g)).1
  have e1 : recOwner L k = u' := by rw [← f.owner]; simp only [recOwner, hd]
  have e2 : recIndex L k = i := by rw [← f.index]; simp only [recIndex, hd]
  rw [e2, ← hu, e1]
  exact hc

example : ∃ e ∈ [Demo.e6, Demo.e5, Demo.e4, Demo.e3, Demo.e2, Demo.e1], ∃ st now,
    Creates e Demo.R0 Demo.US st (recIndex Demo.L6 Demo.R0) now :=
  C76_own_signature Demo.hist6 ⟨by decide +kernel, by decide +kernel, by decide +kernel⟩ (by decide +kernel)

end Xorca
