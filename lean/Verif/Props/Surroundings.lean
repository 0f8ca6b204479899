import Verif.Lemmas.Surroundings
import Verif.Lemmas.Stake
import Verif.Lemmas.Unstake
import Verif.Lemmas.Withdraw
import Verif.Lemmas.Set
import Verif.Lemmas.Initialize
import Verif.Lemmas.DemoCalls
/-
C110: which hashes a call computes, and whether it looks at the clock and the rent rate.
-/
namespace Xorca
open Spec

variable {x x' : Ctx} {L L' M' : Ledger} {accs : List Meta} {logs logs' : List Bytes} {data : Bytes}

/-- Stake computes two hashes and tests one of them for the curve.  It looks neither at the clock nor at the rent rate:
in any surroundings that agree on those two hashes it does the same, success or failure. -/
theorem C110_stake_looks_at {n : UInt64} {st : Meta} (hd : decodeIx data = some (.Stake n)) (h5 : accs[5]? = some st)
    (h : SameOn x.cr x'.cr [stateHashed (readU8 (L st.key).data 6), vaultHashed st.key (readU8 (L st.key).data 7)]
      [stateHashed (readU8 (L st.key).data 6)]) :
    entry x' PROGRAM_ID L accs data = entry x PROGRAM_ID L accs data := by
  rw [entry_eq hd, entry_eq hd]
  exact stake_same h5 h

/-- A world with another clock, no rent, and a hash function that is right on the strings `S` only. -/
def Demo.elsewhere (now : Int64) (rent : Nat → UInt64) (S : List Bytes) : Ctx :=
  { now := now, rentMin := rent, cr := ⟨fun s => if s ∈ S then Demo.cr.sha256 s else DEFAULT_PUBKEY, Demo.cr.onCurve⟩ }

theorem Demo.elsewhere_same {now now' : Int64} {rent : Nat → UInt64} {S T : List Bytes} :
    SameOn (Demo.ctx now').cr (Demo.elsewhere now rent S).cr S T :=
  ⟨fun _ hs => if_pos hs, fun _ _ => rfl⟩

theorem Demo.later_same {now now' : Int64} {S T : List Bytes} : SameOn (Demo.ctx now').cr (Demo.ctx now).cr S T :=
  ⟨fun _ _ => rfl, fun _ _ => rfl⟩

example : Runs (Demo.elsewhere 7 (fun _ => 0) [stateHashed (readU8 (Demo.L1 Demo.ST).data 6),
    vaultHashed Demo.ST (readU8 (Demo.L1 Demo.ST).data 7)]) Demo.L1 Demo.stakeAccs (.Stake 1000000) Demo.L2 Demo.logs2 := by
  obtain ⟨d, hd, h⟩ := Demo.run2
  exact ⟨d, hd, (C110_stake_looks_at (x := Demo.ctx 1001) (st := ⟨Demo.ST, false, false⟩) hd rfl Demo.elsewhere_same).trans h⟩

/-- Unstake computes the hashes of the search for the record address, from bump 255 down to the one it finds, tests
these for the curve, and computes the hashes of state and vault.  It looks at the clock and at the rent of 1024 bytes. -/
theorem C110_unstake_looks_at {n : UInt64} {i b : UInt8} {u st : Meta} {k : Pubkey}
    (hd : decodeIx data = some (.Unstake n i)) (h0 : accs[0]? = some u) (h1 : accs[1]? = some st)
    (hf : RecordAddr x.cr u.key i k b)
    (h : SameOn x.cr x'.cr (tried (recordHashed u.key i) b ++
        [stateHashed (readU8 (L st.key).data 6), vaultHashed st.key (readU8 (L st.key).data 7)])
      (tried (recordHashed u.key i) b))
    (hnow : x'.now = x.now) (hrent : x'.rentMin 1024 = x.rentMin 1024) :
    entry x' PROGRAM_ID L accs data = entry x PROGRAM_ID L accs data := by
  rw [entry_eq hd, entry_eq hd]
  exact unstake_same h0 h1 hf h hnow hrent

/-- Withdraw computes three hashes and tests one of them for the curve.  Of the clock it matters only whether the record
is due, and the rent rate does not matter. -/
theorem C110_withdraw_looks_at {i : UInt8} {u st pw : Meta} (hd : decodeIx data = some (.Withdraw i))
    (h0 : accs[0]? = some u) (h1 : accs[1]? = some st) (h2 : accs[2]? = some pw)
    (h : SameOn x.cr x'.cr [stateHashed (readU8 (L st.key).data 6), vaultHashed st.key (readU8 (L st.key).data 7),
      recordHashed u.key i (readU8 (L pw.key).data 6)] [stateHashed (readU8 (L st.key).data 6)])
    (hnow : recTime L pw.key ≤ x'.now.toInt ↔ recTime L pw.key ≤ x.now.toInt) :
    entry x' PROGRAM_ID L accs data = entry x PROGRAM_ID L accs data := by
  rw [entry_eq hd, entry_eq hd]
  exact withdraw_same h0 h1 h2 h hnow

/-- Set computes one hash and looks neither at the curve nor at the clock nor at the rent rate. -/
theorem C110_set_looks_at {ins : StateUpdateInstruction} {st : Meta} (hd : decodeIx data = some (.Set ins))
    (h1 : accs[1]? = some st) (h : SameOn x.cr x'.cr [stateHashed (readU8 (L st.key).data 6)] []) :
    entry x' PROGRAM_ID L accs data = entry x PROGRAM_ID L accs data := by
  rw [entry_eq hd, entry_eq hd]
  exact set_same h1 h

/-- Initialize computes the hashes of two searches, looks at the rent of the two accounts it creates, and not at the
clock. -/
theorem C110_initialize_looks_at {c : Int64} {st : Meta} {k v : Pubkey} {b vb : UInt8}
    (hd : decodeIx data = some (.Initialize c)) (h2 : accs[2]? = some st) (hk : StateAddr x.cr k b)
    (hv : VaultAddr x.cr st.key v vb)
    (h : SameOn x.cr x'.cr (tried stateHashed b ++ tried (vaultHashed st.key) vb)
      (tried stateHashed b ++ tried (vaultHashed st.key) vb))
    (hr1 : x'.rentMin 2048 = x.rentMin 2048) (hr2 : x'.rentMin 165 = x.rentMin 165) :
    entry x' PROGRAM_ID L accs data = entry x PROGRAM_ID L accs data := by
  rw [entry_eq hd, entry_eq hd]
  exact initialize_same h2 hk hv h hr1 hr2

/-! Examples: the demo calls in such surroundings. -/

example : Runs (Demo.elsewhere 1003 (Demo.ctx 0).rentMin (tried (recordHashed Demo.US 255) 255 ++
    [stateHashed (readU8 (Demo.L4 Demo.ST).data 6), vaultHashed Demo.ST (readU8 (Demo.L4 Demo.ST).data 7)]))
    Demo.L4 (Demo.unstakeAccs Demo.R255) (.Unstake 600000 255) Demo.L5 Demo.logs5 := by
  obtain ⟨d, hd, h⟩ := Demo.run5
  exact ⟨d, hd, (C110_unstake_looks_at (x := Demo.ctx 1003) (u := ⟨Demo.US, true, true⟩) (st := ⟨Demo.ST, false, true⟩)
    hd rfl rfl Demo.r255_addr Demo.elsewhere_same rfl rfl).trans h⟩

example : Runs (Demo.elsewhere 9999 (fun _ => 0) [stateHashed (readU8 (Demo.L8 Demo.ST).data 6),
    vaultHashed Demo.ST (readU8 (Demo.L8 Demo.ST).data 7), recordHashed Demo.US 255 (readU8 (Demo.L8 Demo.R255).data 6)])
    Demo.L8 (Demo.withdrawAccs Demo.R255) (.Withdraw 255) Demo.L9 Demo.logs9 := by
  obtain ⟨d, hd, h⟩ := Demo.run9
  exact ⟨d, hd, (C110_withdraw_looks_at (x := Demo.ctx 1103) (u := ⟨Demo.US, true, true⟩) (st := ⟨Demo.ST, false, true⟩)
    (pw := ⟨Demo.R255, false, true⟩) hd rfl rfl rfl Demo.elsewhere_same (by
      have e : recTime Demo.L8 Demo.R255 = 1103 := by decide +kernel
      rw [e]; decide +kernel)).trans h⟩

example : Runs (Demo.elsewhere 0 (fun _ => 0) [stateHashed (readU8 (Demo.L6 Demo.ST).data 6)])
    Demo.L6 Demo.setAccs (.Set (.UpdateCoolDownPeriod 50)) Demo.L7 Demo.logs7 := by
  obtain ⟨d, hd, h⟩ := Demo.run7
  exact ⟨d, hd, (C110_set_looks_at (x := Demo.ctx 1005) (st := ⟨Demo.ST, false, true⟩) hd rfl Demo.elsewhere_same).trans h⟩

example : Runs (Demo.elsewhere 0 (Demo.ctx 0).rentMin (tried stateHashed 250 ++ tried (vaultHashed Demo.ST) 254))
    Demo.L0 Demo.initAccs (.Initialize 100) Demo.L1 Demo.logs1 := by
  obtain ⟨d, hd, h⟩ := Demo.run1
  exact ⟨d, hd, (C110_initialize_looks_at (x := Demo.ctx 1000) (st := ⟨Demo.ST, false, true⟩) hd rfl Demo.st_addr Demo.va_addr
    Demo.elsewhere_same rfl rfl).trans h⟩

/-! ### Each of them is needed -/

/-- A Stake that succeeds here does the same elsewhere exactly if those hashes and that test agree. -/
theorem C110_stake_needs_all {s v oa xa xm st om tp : Meta} {rest : List Meta} {n : UInt64}
    (h : Runs x L (s :: v :: oa :: xa :: xm :: st :: om :: tp :: rest) (.Stake n) L' logs) :
    Runs x' L (s :: v :: oa :: xa :: xm :: st :: om :: tp :: rest) (.Stake n) L' logs ↔
      SameOn x.cr x'.cr [stateHashed (readU8 (L st.key).data 6), vaultHashed st.key (readU8 (L st.key).data 7)]
        [stateHashed (readU8 (L st.key).data 6)] := by
  refine ⟨fun h' => ?_, fun hs => ?_⟩
  · obtain ⟨s1, v1, oa1, xa1, xm1, st1, om1, tp1, L1, q, r⟩ := processStake_run h.dispatch
    obtain ⟨rs, hr⟩ := r.accs_eq
    simp only [List.cons.injEq] at hr
    obtain ⟨rfl, rfl, rfl, rfl, rfl, rfl, rfl, rfl, rfl⟩ := hr
    obtain ⟨s1, v1, oa1, xa1, xm1, st1, om1, tp1, L2, q', r'⟩ := processStake_run h'.dispatch
    obtain ⟨rs, hr⟩ := r'.accs_eq
    simp only [List.cons.injEq] at hr
    obtain ⟨rfl, rfl, rfl, rfl, rfl, rfl, rfl, rfl, rfl⟩ := hr
    have e1 : st.key = x.cr.sha256 (stateHashed (readU8 (L st.key).data 6)) := r.st_addr
    have e1' : st.key = x'.cr.sha256 (stateHashed (readU8 (L st.key).data 6)) := r'.st_addr
    have e2 : v.key = x.cr.sha256 (vaultHashed st.key (readU8 (L st.key).data 7)) := by rw [← hashed_vault]; exact r.v_addr
    have e2' : v.key = x'.cr.sha256 (vaultHashed st.key (readU8 (L st.key).data 7)) := by
      rw [← hashed_vault]; exact r'.v_addr
    refine ⟨?_, ?_⟩
    · intro s hs
      simp only [List.mem_cons, List.not_mem_nil, or_false] at hs
      rcases hs with rfl | rfl
      · rw [← e1, ← e1']
      · rw [← e2, ← e2']
    · intro s hs
      rw [List.mem_singleton.1 hs, ← e1, r.st_pda, r'.st_pda]
  · obtain ⟨d, hd, h⟩ := h
    exact ⟨d, hd, (C110_stake_looks_at hd rfl hs).trans h⟩

/-- Elsewhere with another vault address it fails. -/
example : ¬ Runs (Demo.elsewhere 7 (fun _ => 0) [stateHashed (readU8 (Demo.L1 Demo.ST).data 6)])
    Demo.L1 Demo.stakeAccs (.Stake 1000000) Demo.L2 Demo.logs2 := by
  intro h
  have := ((C110_stake_needs_all Demo.run2).1 h).hash (vaultHashed Demo.ST (readU8 (Demo.L1 Demo.ST).data 7)) (by simp)
  revert this
  decide +kernel

/-- A Withdraw that succeeds here does the same elsewhere exactly if those hashes and that test agree and it is due. -/
theorem C110_withdraw_needs_all {u st pw oa v om sp tp : Meta} {rest : List Meta} {i : UInt8}
    (h : Runs x L (u :: st :: pw :: oa :: v :: om :: sp :: tp :: rest) (.Withdraw i) L' logs) :
    Runs x' L (u :: st :: pw :: oa :: v :: om :: sp :: tp :: rest) (.Withdraw i) L' logs ↔
      SameOn x.cr x'.cr [stateHashed (readU8 (L st.key).data 6), vaultHashed st.key (readU8 (L st.key).data 7),
        recordHashed u.key i (readU8 (L pw.key).data 6)] [stateHashed (readU8 (L st.key).data 6)] ∧
      recTime L pw.key ≤ x'.now.toInt := by
  obtain ⟨u1, st1, pw1, oa1, v1, om1, sp1, tp1, L1, L2, e, r⟩ := processWithdraw_run h.dispatch
  obtain ⟨rs, hr⟩ := r.accs_eq
  simp only [List.cons.injEq] at hr
  obtain ⟨rfl, rfl, rfl, rfl, rfl, rfl, rfl, rfl, rfl⟩ := hr
  refine ⟨fun h' => ?_, fun hs => ?_⟩
  · obtain ⟨u1, st1, pw1, oa1, v1, om1, sp1, tp1, L3, L4, e', r'⟩ := processWithdraw_run h'.dispatch
    obtain ⟨rs, hr⟩ := r'.accs_eq
    simp only [List.cons.injEq] at hr
    obtain ⟨rfl, rfl, rfl, rfl, rfl, rfl, rfl, rfl, rfl⟩ := hr
    have e1 : st.key = x.cr.sha256 (stateHashed (readU8 (L st.key).data 6)) := r.st_addr
    have e1' : st.key = x'.cr.sha256 (stateHashed (readU8 (L st.key).data 6)) := r'.st_addr
    have e2 : v.key = x.cr.sha256 (vaultHashed st.key (readU8 (L st.key).data 7)) := by rw [← hashed_vault]; exact r.v_addr
    have e2' : v.key = x'.cr.sha256 (vaultHashed st.key (readU8 (L st.key).data 7)) := by
      rw [← hashed_vault]; exact r'.v_addr
    have e3 : pw.key = x.cr.sha256 (recordHashed u.key i (readU8 (L pw.key).data 6)) := by
      rw [← hashed_record]; exact r.pw_addr
    have e3' : pw.key = x'.cr.sha256 (recordHashed u.key i (readU8 (L pw.key).data 6)) := by
      rw [← hashed_record]; exact r'.pw_addr
    refine ⟨⟨?_, ?_⟩, r'.mature⟩
    · intro s hs
      simp only [List.mem_cons, List.not_mem_nil, or_false] at hs
      rcases hs with rfl | rfl | rfl
      · rw [← e1, ← e1']
      · rw [← e2, ← e2']
      · rw [← e3, ← e3']
    · intro s hs
      rw [List.mem_singleton.1 hs, ← e1, r.st_pda, r'.st_pda]
  · have hm := r.mature
    obtain ⟨d, hd, h⟩ := h
    exact ⟨d, hd, (C110_withdraw_looks_at hd rfl rfl rfl hs.1 ⟨fun _ => hm, fun _ => hs.2⟩).trans h⟩

example : ¬ Runs (Demo.ctx 1102) Demo.L8 (Demo.withdrawAccs Demo.R255) (.Withdraw 255) Demo.L9 Demo.logs9 := by
  intro h
  have := ((C110_withdraw_needs_all Demo.run9).1 h).2
  have e : recTime Demo.L8 Demo.R255 = 1103 := by decide +kernel
  rw [e] at this
  revert this
  decide +kernel

/-- A Set that succeeds here does the same elsewhere exactly if that hash agrees. -/
theorem C110_set_needs_all {au st : Meta} {rest : List Meta} {ins : StateUpdateInstruction}
    (h : Runs x L (au :: st :: rest) (.Set ins) L' logs) :
    Runs x' L (au :: st :: rest) (.Set ins) L' logs ↔
      SameOn x.cr x'.cr [stateHashed (readU8 (L st.key).data 6)] [] := by
  refine ⟨fun h' => ?_, fun hs => ?_⟩
  · have e1 := set_addr h.dispatch
    have e1' := set_addr h'.dispatch
    refine ⟨fun s hs => ?_, fun s hs => by cases hs⟩
    rw [List.mem_singleton.1 hs, ← e1, ← e1']
  · obtain ⟨d, hd, h⟩ := h
    exact ⟨d, hd, (C110_set_looks_at hd rfl hs).trans h⟩

example : ¬ Runs (Demo.elsewhere 7 (fun _ => 0) []) Demo.L6 Demo.setAccs (.Set (.UpdateCoolDownPeriod 50)) Demo.L7
    Demo.logs7 := by
  intro h
  have := ((C110_set_needs_all Demo.run7).1 h).hash (stateHashed (readU8 (Demo.L6 Demo.ST).data 6)) (by simp)
  revert this
  decide +kernel

/-- If an Unstake does the same in two surroundings, both searches stop at the same bump, with the same hash there and
only points of the curve before; the clocks agree. -/
theorem C110_unstake_needs_all {u st pw xa xm om v sp tp : Meta} {rest : List Meta} {n : UInt64} {i : UInt8}
    (hsig : SignersOk x.cr L (u :: st :: pw :: xa :: xm :: om :: v :: sp :: tp :: rest))
    (hsig' : SignersOk x'.cr L (u :: st :: pw :: xa :: xm :: om :: v :: sp :: tp :: rest))
    (h : Runs x L (u :: st :: pw :: xa :: xm :: om :: v :: sp :: tp :: rest) (.Unstake n i) L' logs)
    (h' : Runs x' L (u :: st :: pw :: xa :: xm :: om :: v :: sp :: tp :: rest) (.Unstake n i) L' logs) :
    SameOn x.cr x'.cr [stateHashed (readU8 (L st.key).data 6), vaultHashed st.key (readU8 (L st.key).data 7)] [] ∧
    (∃ b, RecordAddr x.cr u.key i pw.key b ∧ RecordAddr x'.cr u.key i pw.key b) ∧ x'.now = x.now := by
  obtain ⟨u1, st1, pw1, xa1, xm1, om1, v1, sp1, tp1, L1, L3, w, e, ts, b, r⟩ := processUnstake_run h.dispatch
  obtain ⟨rs, hr⟩ := r.accs_eq
  simp only [List.cons.injEq] at hr
  obtain ⟨rfl, rfl, rfl, rfl, rfl, rfl, rfl, rfl, rfl, rfl⟩ := hr
  obtain ⟨u1, st1, pw1, xa1, xm1, om1, v1, sp1, tp1, L1', L3', w', e', ts', b', r'⟩ := processUnstake_run h'.dispatch
  obtain ⟨rs, hr⟩ := r'.accs_eq
  simp only [List.cons.injEq] at hr
  obtain ⟨rfl, rfl, rfl, rfl, rfl, rfl, rfl, rfl, rfl, rfl⟩ := hr
  have e1 : st.key = x.cr.sha256 (stateHashed (readU8 (L st.key).data 6)) := r.st_addr
  have e1' : st.key = x'.cr.sha256 (stateHashed (readU8 (L st.key).data 6)) := r'.st_addr
  have e2 : v.key = x.cr.sha256 (vaultHashed st.key (readU8 (L st.key).data 7)) := by rw [← hashed_vault]; exact r.v_addr
  have e2' : v.key = x'.cr.sha256 (vaultHashed st.key (readU8 (L st.key).data 7)) := by
    rw [← hashed_vault]; exact r'.v_addr
  obtain ⟨f, -⟩ := r.eff hsig
  obtain ⟨f', -⟩ := r'.eff hsig'
  obtain ⟨l, hl, -⟩ := f.pw_new
  obtain ⟨l', hl', -⟩ := f'.pw_new
  have hrec : recordBytes b i u.key w ts = recordBytes b' i u.key w' ts' := by
    rw [hl] at hl'
    exact (Account.mk.inj hl').2.2
  have hb : b = b' := by rw [← (recordBytes_fields b i u.key w ts).2.1, hrec, (recordBytes_fields b' i u.key w' ts').2.1]
  have hts : ts = ts' := by
    rw [← (recordBytes_fields b i u.key w ts).2.2.2.2.2, hrec, (recordBytes_fields b' i u.key w' ts').2.2.2.2.2]
  subst hb
  refine ⟨⟨?_, fun s hs => by cases hs⟩, ⟨b, r.pw_find, r'.pw_find⟩, ?_⟩
  · intro s hs
    simp only [List.mem_cons, List.not_mem_nil, or_false] at hs
    rcases hs with rfl | rfl
    · rw [← e1, ← e1']
    · rw [← e2, ← e2']
  · have m1 := f.maturity
    have m2 := f'.maturity
    rw [← hts] at m2
    exact Int64.toInt_inj.1 (by omega)

example : ¬ Runs (Demo.ctx 1004) Demo.L4 (Demo.unstakeAccs Demo.R255) (.Unstake 600000 255) Demo.L5 Demo.logs5 := by
  intro h
  have := (C110_unstake_needs_all Demo.signers5 Demo.signers5 Demo.run5 h).2.2
  revert this
  decide +kernel

/-- If an Initialize does the same in two surroundings, both of its searches stop at the same bumps in both. -/
theorem C110_initialize_needs_all {p au st v xm om sp tp ap : Meta} {rest : List Meta} {c : Int64}
    (hsig : SignersOk x.cr L (p :: au :: st :: v :: xm :: om :: sp :: tp :: ap :: rest))
    (hsig' : SignersOk x'.cr L (p :: au :: st :: v :: xm :: om :: sp :: tp :: ap :: rest))
    (h : Runs x L (p :: au :: st :: v :: xm :: om :: sp :: tp :: ap :: rest) (.Initialize c) L' logs)
    (h' : Runs x' L (p :: au :: st :: v :: xm :: om :: sp :: tp :: ap :: rest) (.Initialize c) L' logs) :
    ∃ b vb, StateAddr x.cr st.key b ∧ StateAddr x'.cr st.key b ∧ VaultAddr x.cr st.key v.key vb ∧
      VaultAddr x'.cr st.key v.key vb := by
  obtain ⟨p1, au1, st1, v1, xm1, om1, sp1, tp1, ap1, L1, b, vb, r⟩ := processInitialize_run h.dispatch
  obtain ⟨rs, hr⟩ := r.accs_eq
  simp only [List.cons.injEq] at hr
  obtain ⟨rfl, rfl, rfl, rfl, rfl, rfl, rfl, rfl, rfl, rfl⟩ := hr
  obtain ⟨p1, au1, st1, v1, xm1, om1, sp1, tp1, ap1, L1', b', vb', r'⟩ := processInitialize_run h'.dispatch
  obtain ⟨rs, hr⟩ := r'.accs_eq
  simp only [List.cons.injEq] at hr
  obtain ⟨rfl, rfl, rfl, rfl, rfl, rfl, rfl, rfl, rfl, rfl⟩ := hr
  obtain ⟨l, hl, -⟩ := (r.eff hsig).st_new
  obtain ⟨l', hl', -⟩ := (r'.eff hsig').st_new
  have hst : initialStateBytes b vb c au.key = initialStateBytes b' vb' c au.key := by
    rw [hl] at hl'
    exact (Account.mk.inj hl').2.2
  obtain ⟨-, f1, f2, -⟩ := initialStateBytes_fields b vb c au.key
  obtain ⟨-, g1, g2, -⟩ := initialStateBytes_fields b' vb' c au.key
  have hb : b = b' := by rw [← f1, hst, g1]
  have hvb : vb = vb' := by rw [← f2, hst, g2]
  subst hb hvb
  exact ⟨b, vb, r.st_find, r'.st_find, r.v_find, r'.v_find⟩

example : ∃ b vb, StateAddr (Demo.ctx 1000).cr Demo.ST b ∧ StateAddr (Demo.ctx 5).cr Demo.ST b ∧
    VaultAddr (Demo.ctx 1000).cr Demo.ST Demo.VA vb ∧ VaultAddr (Demo.ctx 5).cr Demo.ST Demo.VA vb := by
  have h' : Runs (Demo.ctx 5) Demo.L0 Demo.initAccs (.Initialize 100) Demo.L1 Demo.logs1 := by
    obtain ⟨d, hd, h⟩ := Demo.run1
    exact ⟨d, hd, (C110_initialize_looks_at (x := Demo.ctx 1000) (x' := Demo.ctx 5) (st := ⟨Demo.ST, false, true⟩) hd rfl
      Demo.st_addr Demo.va_addr Demo.later_same rfl rfl).trans h⟩
  exact C110_initialize_needs_all Demo.signers1 Demo.signers1 Demo.run1 h'

/-! ### How many -/

/-- The number of byte strings in a search that stops at bump `b`: one for each bump from `b` to 255, all different if the
strings of different bumps are. -/
theorem C110_number_tried (f : UInt8 → Bytes) (hf : ∀ c d, f c = f d → c = d) (b : UInt8) :
    (tried f b).length = 256 - b.toNat ∧ (tried f b).Nodup ∧ ∀ c : UInt8, f c ∈ tried f b ↔ b ≤ c := by
  refine ⟨by simp [tried], ?_, fun c => ⟨fun h => ?_, fun h => mem_tried (UInt8.le_iff_toNat_le.1 h)⟩⟩
  · unfold tried
    rw [List.nodup_map_iff_inj_on List.nodup_range]
    intro j hj k hk e
    have h1 := List.mem_range.1 hj
    have h2 := List.mem_range.1 hk
    have := congrArg UInt8.toNat (hf _ _ e)
    rw [UInt8.toNat_ofNat_of_lt' (by change _ < 256; omega), UInt8.toNat_ofNat_of_lt' (by change _ < 256; omega)] at this
    omega
  · obtain ⟨j, hj, e⟩ := List.mem_map.1 h
    have h1 := List.mem_range.1 hj
    rw [← hf _ _ e, UInt8.le_iff_toNat_le, UInt8.toNat_ofNat_of_lt' (by change _ < 256; omega)]
    have := b.toNat_lt
    omega

example : (tried stateHashed 250).length = 6 :=
  (C110_number_tried stateHashed (fun c d h => by
    have := congrArg (fun l : Bytes => l[5]?) h
    simpa [stateHashed] using this) 250).1

end Xorca
