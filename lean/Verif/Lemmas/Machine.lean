import Verif.Lemmas.MachineAux
import Verif.Lemmas.Sums
import Verif.Outside
/-
The machine against the plain model: whole instructions.
-/
namespace Xorca
open Spec

/-- The machine has come to its end and the runtime accepts. -/
def Ends (accs : List Meta) (L0 : Ledger) (a : Mach × List Bytes) (b : Outcome) : Prop :=
  a.2 = b.2 ∧ a.1.finish accs L0 = .ok b.1

theorem Good.ends {accs : List Meta} {L0 L : Ledger} {s : Mach} {F : Flags} (g : Good accs L0 s F L) (logs : List Bytes) :
    Ends accs L0 (s, logs) (L, logs) := by
  refine ⟨rfl, ?_⟩
  obtain ⟨_, rfl, hc, hs⟩ := g
  exact hc.finish hs

theorem free_write (k : Pubkey) : (noBorrows k).CanWrite := ⟨rfl, rfl⟩
theorem free_read (k : Pubkey) : (noBorrows k).CanRead := (free_write k).read

theorem good_start (accs : List Meta) (L : Ledger) : Good accs L (.start L) noBorrows L :=
  ⟨rfl, rfl, clean_start _ _, short_refl _⟩

theorem flags_set_other {F : Flags} {k j : Pubkey} {f : Flag} (h : j ≠ k) : F.set k f j = F j := if_neg h

theorem canWrite_set {k j : Pubkey} {f : Flag} (h : j ≠ k) : (noBorrows.set k f j).CanWrite := by
  rw [flags_set_other h]; exact free_write j

theorem reading_ok (k j : Pubkey) : (noBorrows.set k ⟨1, false⟩ j).CanRead := by
  by_cases h : j = k
  · subst h; simp [Flags.set, Flag.CanRead]
  · rw [flags_set_other h]; exact free_read j

/-- The `pinocchio` test of the borrow flags. -/
def Passes (F : Flags) (infos : List (Pubkey × Bool)) : Prop :=
  ∀ p ∈ infos, (F p.1).writer = false ∧ (p.2 = true → (F p.1).readers = 0)

theorem passes_none (infos : List (Pubkey × Bool)) : Passes noBorrows infos := fun _ _ => ⟨rfl, fun _ => rfl⟩

theorem passes_reading {k : Pubkey} {infos : List (Pubkey × Bool)} (h : ∀ p ∈ infos, p.2 = true → p.1 ≠ k) :
    Passes (noBorrows.set k ⟨1, false⟩) infos := by
  intro p hp
  by_cases hk : p.1 = k
  · refine ⟨by simp [Flags.set, hk], fun hw => absurd hk (h p hp hw)⟩
  · rw [flags_set_other hk]; exact ⟨rfl, fun _ => rfl⟩

variable {x : Ctx} {L : Ledger} {accs : List Meta}

theorem mem_accs {m : Meta} {i : Nat} (h : getAccountInfo accs i = .ok m) : m ∈ accs :=
  List.mem_of_getElem? (getAccountInfo_ok.1 h)

theorem stakeM_rel {n : UInt64} :
    RelM (Ends accs L) (processStakeM x L accs (.start L) n) (processStake x L accs n) := by
  unfold processStakeM processStake
  refine .lift fun stk h0 => .lift fun vlt h1 => .lift fun oat h2 => .lift fun xat h3 =>
    .lift fun xm h4 => .lift fun sta h5 => .lift fun om h6 => .lift fun tp h7 => ?_
  refine .lift fun _ _ => .lift fun _ _ => .lift fun _ _ => .lift fun _ _ => ?_
  refine .same (tokM_eq (free_read oat.key)) fun od hod => .lift fun _ _ => .same (tokM_eq (free_read xat.key)) fun xd hxd => ?_
  refine .lift fun _ _ => .lift fun _ hxm => .same (mintM_eq (free_read xm.key)) fun md _ => .lift fun _ _ => .lift fun _ hst => ?_
  refine .bind (assertDataM_rel (free_read sta.key)) fun o state _ ho => ?_
  subst ho
  refine .lift fun _ _ => .lift fun _ _ => .same (tokM_eq (reading_ok sta.key vlt.key)) fun vd hvd => .lift fun ne _ => .lift fun m _ =>
    .lift fun _ _ => ?_
  have ost : (L sta.key).owner = PROGRAM_ID := assertAccountOwner_ok.1 hst
  have oxm : (L xm.key).owner = SPL_TOKEN_PROGRAM_ID := assertAccountOwner_ok.1 hxm
  have n1 : oat.key ≠ sta.key := fun h => token_ne_program (by
    rw [← (makeOwnerTokenAccountAssertions_ok.1 hod).2.1, ← ost, h])
  have n2 : vlt.key ≠ sta.key := fun h => token_ne_program (by
    rw [← (makeOwnerTokenAccountAssertions_ok.1 hvd).2.1, ← ost, h])
  have n3 : xat.key ≠ sta.key := fun h => token_ne_program (by
    rw [← (makeOwnerTokenAccountAssertions_ok.1 hxd).2.1, ← ost, h])
  have n4 : xm.key ≠ sta.key := fun h => token_ne_program (by rw [← oxm, ← ost, h])
  have g : Good accs L ⟨noBorrows.set sta.key ⟨1, false⟩, L, L⟩ (noBorrows.set sta.key ⟨1, false⟩) L :=
    ⟨rfl, rfl, fun _ => .inl rfl, short_refl _⟩
  refine .bind (cpi_rel g (passes_reading (by simp [n1, n2])) (local_tokenTransfer _ _ _ _ _)
    fun _ h => short_tokenTransfer h) fun s2 L2 _ g2 => ?_
  refine .lift fun pda _ => ?_
  exact .bind (cpi_rel g2 (passes_reading (by simp [n3, n4])) (local_mintTo _ _ _ _ _)
    fun _ h => short_mintTo h) fun s3 L3 _ g3 => .ok (g3.ends _)

theorem good_setData {L0 L1 : Ledger} {s : Mach} {F : Flags} (g : Good accs L0 s F L1) {m : Meta} (hm : m ∈ accs)
    (hw : m.isWritable = true) (ho : (L1 m.key).owner = PROGRAM_ID) {d : Bytes}
    (hd : d.length ≤ max (L1 m.key).data.length 2048) : Good accs L0 (s.setData m.key d) F (L1.setData m.key d) := by
  obtain ⟨rfl, rfl, hc, hs⟩ := g
  exact ⟨rfl, rfl, hc.setData hm hw ho d, hs.trans (short_setData hd)⟩

theorem setStEscrow_len (d : Bytes) (v : UInt64) : (setStEscrow d v).length ≤ max d.length 2048 :=
  writeAt_le (by simp [stateOff_4])

theorem setM_rel {u : StateUpdateInstruction} :
    RelM (Ends accs L) (processSetM x accs (.start L) u) (processSet x L accs u) := by
  unfold processSetM processSet
  refine .lift fun aut h0 => .lift fun sta h1 => .lift fun _ _ => .lift fun _ hw => .lift fun _ ho => ?_
  have ost : (L sta.key).owner = PROGRAM_ID := assertAccountOwner_ok.1 ho
  have wst := assertAccountRole_W.1 hw
  refine .bind (assertDataMutM_rel (free_write sta.key)) fun o state hd ho => ?_
  subst ho
  obtain ⟨rfl, _⟩ := assertStateData_ok.1 hd
  have g : Good accs L ⟨noBorrows.set sta.key ⟨0, true⟩, L, L⟩ (noBorrows.set sta.key ⟨0, true⟩) L :=
    ⟨rfl, rfl, fun _ => .inl rfl, short_refl _⟩
  refine .lift fun _ _ => .lift fun _ _ => ?_
  cases u with
  | UpdateCoolDownPeriod c =>
    exact .lift fun _ _ => .ok ((good_setData g (mem_accs h1) wst ost (writeAt_le (by simp [stateOff_5]))).ends _)
  | UpdateUpdateAuthority k =>
    exact .ok ((good_setData g (mem_accs h1) wst ost (writeAt_le (by simp [stateOff_6, k.len]))).ends _)

theorem setData_setData (L : Ledger) (k : Pubkey) (d d' : Bytes) : (L.setData k d).setData k d' = L.setData k d' := by
  funext j
  simp only [Ledger.setData, Ledger.set]
  split <;> simp

theorem res_ok_bind {α β : Type} (a : α) (f : α → Res β) : ((.ok a : Res α) >>= f) = f a := rfl

theorem setByte0_len {d d' : Bytes} {v : UInt8} (h : setByte0 d v = .ok d') : d'.length = d.length := by
  cases d with
  | nil => cases h
  | cons a r => cases h; rfl

theorem unstakeM_rel {n : UInt64} {i : UInt8} (hs : SignersOk x.cr L accs) :
    RelM (Ends accs L) (processUnstakeM x L accs (.start L) n i) (processUnstake x L accs n i) := by
  unfold processUnstakeM processUnstake
  refine .lift fun uns h0 => .lift fun sta h1 => .lift fun rec h2 => .lift fun xat h3 =>
    .lift fun xm h4 => .lift fun om h5 => .lift fun vlt h6 => .lift fun sp h7 => .lift fun tp h8 => ?_
  refine .lift fun _ hu => .lift fun _ _ => .lift fun _ _ => .lift fun _ _ => .lift fun _ _ => .lift fun _ hw =>
    .lift fun _ hst => ?_
  have ost : (L sta.key).owner = PROGRAM_ID := assertAccountOwner_ok.1 hst
  refine .same (tokM_eq (free_read vlt.key)) fun vd _ => .lift fun _ hrw => .lift fun _ hrec => .lift fun bump hseed => ?_
  have orec : (L rec.key).owner = SYSTEM_PROGRAM_ID := assertAccountOwner_ok.1 hrec
  refine .same (tokM_eq (free_read xat.key)) fun xd hxd => .lift fun _ _ => .lift fun _ _ => .lift fun _ _ =>
    .same (mintM_eq (free_read xm.key)) fun md _ => .lift fun _ _ => .lift fun _ _ => .lift fun _ _ =>
    .same (mintM_eq (free_read om.key)) fun _ _ => ?_
  refine .bind (assertDataM_rel (free_read sta.key)) fun o state hd ho => ?_
  subst ho
  obtain ⟨rfl, _, hdisc⟩ := assertStateData_ok.1 hd
  have n1 : uns.key ≠ sta.key := signer_ne hs (mem_accs h0) (assertAccountRole_SW.1 hu).1 ost (by rw [hdisc]; decide)
  have n2 : rec.key ≠ sta.key := fun h => program_ne_system (by rw [← ost, ← orec, h])
  have n3 : uns.key ≠ rec.key := by
    intro h
    have hf := assertAccountSeeds_ok.1 hseed
    rw [← h] at hf
    exact (hs uns (mem_accs h0) (assertAccountRole_SW.1 hu).1).2.2.2 i bump hf
  refine .lift fun _ _ => .lift fun _ _ => .lift fun ne _ => .lift fun w _ => .lift fun _ _ => ?_
  refine .bind (cpi_rel (good_start accs L) (passes_none _) (local_burn _ _ _ _ _) fun _ h => short_burn h)
    fun s1 L1 hL1 g1 => ?_
  have fr := (splBurn_eff (cpiBurn_ok.1 hL1).2.2).frame
  obtain ⟨F1, B1, M1⟩ := s1
  have e1 := g1.flags
  have e2 := g1.led
  simp only at e1 e2
  subst e1 e2
  refine .bind (assertDataMutM_rel (free_write sta.key)) fun o st hst1 ho => ?_
  subst ho
  obtain ⟨rfl, _⟩ := assertStateData_ok.1 hst1
  refine .lift fun esc _ => ?_
  have wst := assertAccountRole_W.1 hw
  have g2 : Good accs L ⟨noBorrows.set sta.key ⟨0, true⟩, B1, M1⟩ (noBorrows.set sta.key ⟨0, true⟩) M1 :=
    ⟨rfl, rfl, fun k => g1.clean k, g1.short⟩
  have g3 := good_setData g2 (mem_accs h1) wst (by rw [fr.owner]; exact ost) (setStEscrow_len (M1 sta.key).data esc)
  refine .lift fun pda _ => ?_
  unfold createPendingWithdrawSecure
  rw [res_assoc]
  refine .bind (createM_rel g3 (by decide) (canWrite_set n1) (canWrite_set n2)) fun s4 L3 hL3 g4 => ?_
  have ce := createAccountSecure_eff n3 program_ne_system (by
    rw [Ledger.setData_other _ _ n2, fr.owner]; exact orec) hL3
  obtain ⟨v, hv, _⟩ := ce.created
  obtain ⟨F4, B4, M4⟩ := s4
  have e1 := g4.flags
  have e2 := g4.led
  simp only at e1 e2
  subst e1 e2
  refine .skip (tryBorrowMut_ok (canWrite_set n2)) ?_
  rw [res_assoc]
  refine .lift fun d0 hd0 => ?_
  rw [res_ok_bind]
  refine .lift fun ts _ => .ok ?_
  rw [show ((M4.setData rec.key d0) rec.key).data = d0 by simp, setData_setData]
  have hl : (M4 rec.key).data.length = 1024 := by rw [hv]; exact List.length_replicate
  have hl0 : d0.length = 1024 := by rw [← hl]; exact setByte0_len hd0
  have g5 : Good accs L ⟨(noBorrows.set sta.key ⟨0, true⟩).set rec.key ⟨0, true⟩, B4, M4⟩
      ((noBorrows.set sta.key ⟨0, true⟩).set rec.key ⟨0, true⟩) M4 := ⟨rfl, rfl, fun k => g4.clean k, g4.short⟩
  refine (good_setData g5 (mem_accs h2) (assertAccountRole_W.1 hrw) (by rw [hv]) ?_).ends _
  simp only [setPwTimestamp, setPwAmount, setPwUnstaker, setPwIndex, setPwBump, pwOff_2, pwOff_3, pwOff_4, pwOff_5, pwOff_6]
  have a1 := writeAt_le (d := d0) (b := [bump]) (o := 6) (n := 1024) (by simp)
  have a2 := writeAt_le (d := writeAt d0 6 [bump]) (b := [i]) (o := 7) (n := 1024) (by simp)
  have a3 := writeAt_le (d := writeAt (writeAt d0 6 [bump]) 7 [i]) (b := uns.key.bytes) (o := 8) (n := 1024)
    (by rw [uns.key.len]; decide)
  have a4 := writeAt_le (d := writeAt (writeAt (writeAt d0 6 [bump]) 7 [i]) 8 uns.key.bytes) (b := u64le w) (o := 40)
    (n := 1024) (by simp)
  have a5 := writeAt_le (d := writeAt (writeAt (writeAt (writeAt d0 6 [bump]) 7 [i]) 8 uns.key.bytes) 40 (u64le w))
    (b := i64le ts) (o := 48) (n := 1024) (by simp)
  omega

theorem initM_rel {c : Int64} (hs : SignersOk x.cr L accs) :
    RelM (Ends accs L) (processInitializeM x L accs (.start L) c) (processInitialize x L accs c) := by
  unfold processInitializeM processInitialize
  refine .lift fun pay h0 => .lift fun aut h1 => .lift fun sta h2 => .lift fun vlt h3 =>
    .lift fun xm h4 => .lift fun om h5 => .lift fun sp h6 => .lift fun tp h7 => .lift fun ap h8 => ?_
  refine .lift fun _ hp => .lift fun _ _ => .lift fun _ hw => .lift fun b hseed => .lift fun _ _ => .lift fun _ ho =>
    .lift fun _ _ => ?_
  have ost : (L sta.key).owner = SYSTEM_PROGRAM_ID := assertAccountOwner_ok.1 ho
  refine .same (mintM_eq (free_read xm.key)) fun md _ => ?_
  refine .lift fun _ _ => .lift fun _ _ => .lift fun _ _ => .lift fun _ _ => .lift fun _ _ => .lift fun _ _ =>
    .lift fun _ _ => .lift fun _ _ => ?_
  refine .same (mintM_eq (free_read om.key)) fun md _ => ?_
  refine .lift fun _ _ => .lift fun _ _ => .lift fun _ _ => .lift fun _ _ => .lift fun _ _ => .lift fun _ _ =>
    .lift fun _ _ => .lift fun _ _ => .lift fun vb _ => .lift fun _ _ => .lift fun _ _ => .lift fun pda _ => ?_
  have n1 : pay.key ≠ sta.key := fun h =>
    (hs pay (mem_accs h0) (assertAccountRole_SW.1 hp).1).2.1 b (by rw [h]; exact assertAccountSeeds_ok.1 hseed)
  unfold createStateBorsh
  rw [res_assoc]
  refine .bind (createM_rel (good_start accs L) (by decide) (free_write _) (free_write _)) fun s1 L1 hL1 g1 => ?_
  have ce := createAccountSecure_eff n1 program_ne_system ost hL1
  obtain ⟨v, hv, _⟩ := ce.created
  obtain ⟨F1, B1, M1⟩ := s1
  have e1 := g1.flags
  have e2 := g1.led
  simp only at e1 e2
  subst e1 e2
  refine .skip (tryBorrowMut_ok (free_write sta.key)) ?_
  rw [res_assoc]
  refine .lift fun _ hser => ?_
  rw [res_ok_bind]
  have hl : (M1 sta.key).data.length = 2048 := by rw [hv]; exact List.length_replicate
  have hser := ensure_eq_ok.1 hser
  have g2 := good_setData g1 (mem_accs h2) (assertAccountRole_W.1 hw) (by rw [hv])
    (d := writeAt (M1 sta.key).data 0 (State.serialize _)) (writeAt_le (by simpa [hl] using hser))
  exact .bind (cpi_rel g2 (passes_none _) (local_createAta _ _ _ _ _ _ _) fun _ h => short_createAta h)
    fun s3 L3 _ g3 => .ok (g3.ends _)

theorem closeM_rel {s : Mach} {k r : Pubkey} (h : ∀ j, s.flags j = ⟨0, false⟩) :
    RelM (fun s' L' => (∀ j, s'.flags j = ⟨0, false⟩) ∧ s'.base = s.base ∧ s'.led = L') (closeProgramAccountM s k r)
      (closeProgramAccount s.led k r) := by
  unfold closeProgramAccountM closeProgramAccount
  have hk : (s.flags k).CanWrite := by rw [h k]; exact ⟨rfl, rfl⟩
  refine .skip (tryBorrowMut_ok hk) (.lift fun d _ => .skip (tryBorrowMut_ok (k := k) ?_) (.ok ⟨fun j => ?_, rfl, rfl⟩))
  · simp [dropMut, Flags.set, Flag.CanWrite]
  · show dropMut _ k j = _
    unfold dropMut
    by_cases hj : j = k
    · subst hj; simp [Flags.set]
    · rw [flags_set_other hj, flags_set_other hj]; exact h j

/-- The lamports that leave a closed account arrive at the receiver. -/
theorem lamportSum_move {A B : Ledger} {k r : Meta} (hk : k ∈ accs) (hr : r ∈ accs) (hne : r.key ≠ k.key)
    (h0 : (B k.key).lamports.toNat = 0)
    (h1 : (B r.key).lamports.toNat = (A r.key).lamports.toNat + (A k.key).lamports.toNat)
    (h : ∀ j, j ≠ k.key → j ≠ r.key → (B j).lamports = (A j).lamports) : lamportSum accs B = lamportSum accs A := by
  unfold lamportSum
  have e : ∀ M : Ledger, ((accs.map (·.key)).dedup.map fun k => (M k).lamports.toNat).sum =
      ∑ k ∈ (accs.map (·.key)).toFinset, (M k).lamports.toNat := fun M => by
    rw [Finset.sum, List.toFinset_val, Multiset.map_coe, Multiset.sum_coe]
  rw [e, e]
  have hsum := sum_upd2 (f := fun k => (A k).lamports.toNat) (g := fun k => (B k).lamports.toNat)
    (S := (accs.map (·.key)).toFinset) (a := k.key) (b := r.key) (by simpa using ⟨k, hk, rfl⟩)
    (by simpa using ⟨r, hr, rfl⟩) hne.symm (fun j j1 j2 => by rw [h j j1 j2])
  omega

theorem withdrawM_rel {i : UInt8} (hs : SignersOk x.cr L accs) (hfit : LamportsFit L accs) :
    RelM (Ends accs L) (processWithdrawM x L accs (.start L) i) (processWithdraw x L accs i) := by
  unfold processWithdrawM processWithdraw
  refine .lift fun uns h0 => .lift fun sta h1 => .lift fun rec h2 => .lift fun oat h3 =>
    .lift fun vlt h4 => .lift fun om h5 => .lift fun sp h6 => .lift fun tp h7 => ?_
  refine .lift fun _ hu => .lift fun _ _ => .lift fun _ _ => .lift fun _ hw => .lift fun _ hst => ?_
  have ost : (L sta.key).owner = PROGRAM_ID := assertAccountOwner_ok.1 hst
  refine .bind (assertDataM_rel (free_read sta.key)) fun o state hd ho => ?_
  subst ho
  obtain ⟨rfl, hstl, hdisc⟩ := assertStateData_ok.1 hd
  refine .lift fun _ _ => .lift fun _ _ => .lift fun _ hrw => .lift fun _ hrec => ?_
  have orec : (L rec.key).owner = PROGRAM_ID := assertAccountOwner_ok.1 hrec
  refine .bind (assertDataM_rel (free_read rec.key)) fun o pw hd2 ho => ?_
  subst ho
  obtain ⟨rfl, _, hdisc2⟩ := assertPendingWithdrawData_ok.1 hd2
  refine .lift fun _ _ => ?_
  have again : ∀ {a : Meta} {n : Nat} {d : AccountDiscriminator} {b : Bytes}, assertAccountData L a n d = .ok b →
      assertDataM (.start L) a n d = .ok (b, ⟨noBorrows.set a.key ⟨1, false⟩, L, L⟩) := by
    intro a n d b h
    have hr := assertDataM_rel (s := .start L) (a := a) (n := n) (d := d) (free_read a.key)
    rw [show (Mach.start L).led = L from rfl, h] at hr
    generalize assertDataM (.start L) a n d = q at hr
    cases hr with
    | ok h => rw [h]; rfl
  refine .skip (again hd2) ?_
  refine .same (tokM_eq (free_read oat.key)) fun od hod => .same (tokM_eq (free_read vlt.key)) fun vd hvd => ?_
  refine .lift fun _ _ => .lift fun _ _ => .lift fun _ _ => ?_
  refine .skip (again hd) ?_
  refine .lift fun _ _ => .lift fun pda _ => ?_
  refine .bind (cpi_rel (good_start accs L) (passes_none _) (local_tokenTransfer _ _ _ _ _) fun _ h => short_tokenTransfer h)
    fun s1 L1 hL1 g1 => ?_
  have wst := assertAccountRole_W.1 hw
  have wu := (assertAccountRole_SW.1 hu).2
  have n1 : uns.key ≠ sta.key := signer_ne hs (mem_accs h0) (assertAccountRole_SW.1 hu).1 ost (by rw [hdisc]; decide)
  have n2 : uns.key ≠ rec.key := signer_ne hs (mem_accs h0) (assertAccountRole_SW.1 hu).1 orec (by rw [hdisc2]; decide)
  have n3 : sta.key ≠ rec.key := by
    intro h
    rw [h, hdisc2] at hdisc
    exact absurd hdisc (by decide)
  have n4 : vlt.key ≠ oat.key := by
    intro h
    obtain ⟨_, _, d1, o1, _⟩ := makeOwnerTokenAccountAssertions_ok.1 hod
    obtain ⟨_, _, d2, o2, _⟩ := makeOwnerTokenAccountAssertions_ok.1 hvd
    rw [h, d1] at d2
    cases d2
    exact n1 (by rw [← o1, ← o2])
  have fr := (splTransfer_eff n4 (cpiTokenTransfer_ok.1 hL1).2.2).frame
  obtain ⟨F1, B1, M1⟩ := s1
  have e1 := g1.flags
  have e2 := g1.led
  simp only at e1 e2
  subst e1 e2
  refine .bind (closeM_rel (s := ⟨noBorrows, B1, M1⟩) fun _ => rfl) fun s2 M2 hM2 g2 => ?_
  have ce := closeProgramAccount_eff n2 hM2
  obtain ⟨F2, B2, M2'⟩ := s2
  obtain ⟨hF, hB, hM⟩ := g2
  simp only at hF hB hM
  subst hB hM
  have hcw : (F2 sta.key).CanWrite := by rw [hF]; exact ⟨rfl, rfl⟩
  refine .bind (assertDataMutM_rel hcw) fun o st hst2 ho => ?_
  subst ho
  obtain ⟨rfl, _⟩ := assertStateData_ok.1 hst2
  refine .lift fun esc _ => .ok ⟨rfl, ?_⟩
  generalize hd3 : setStEscrow (M2' sta.key).data esc = d3
  have hlen : d3.length ≤ max (M2' sta.key).data.length 2048 := by rw [← hd3]; exact setStEscrow_len _ _
  have lam : ∀ j, (M1 j).lamports = (B2 j).lamports := g1.clean.lamports
  have own : ∀ j, (M1 j).owner = (B2 j).owner := g1.clean.owner
  have hadd : (M2' uns.key).lamports.toNat = (B2 uns.key).lamports.toNat + (B2 rec.key).lamports.toNat := by
    have hf := hfit uns (mem_accs h0) rec (mem_accs h2) n2
    rw [ce.received, ← lam, ← lam]
    show ((M1 uns.key).lamports + (M1 rec.key).lamports).toNat = _
    rw [fr.lamports, fr.lamports, UInt64.toNat_add, Nat.mod_eq_of_lt hf]
  have hrec0 : M2' rec.key = ⟨0, SYSTEM_PROGRAM_ID, []⟩ := ce.closed
  have oB : (B2 rec.key).owner = PROGRAM_ID := by rw [← own, fr.owner]; exact orec
  have oS : (B2 sta.key).owner = PROGRAM_ID := by rw [← own, fr.owner]; exact ost
  have e3 : M2' sta.key = M1 sta.key := ce.other _ n3 n1.symm
  show Mach.finish accs L ⟨_, B2, M2'.setData sta.key d3⟩ = .ok (M2'.setData sta.key d3)
  have allowed : ∀ m ∈ accs, ChangeAllowed accs m.key (B2 m.key) (M2'.setData sta.key d3 m.key) := by
    intro m _
    by_cases k1 : m.key = rec.key
    · rw [k1, Ledger.setData_other _ _ n3.symm, hrec0]
      exact .inr ⟨⟨rec, mem_accs h2, rfl, assertAccountRole_W.1 hrw⟩, fun _ => oB, fun _ => oB,
        fun _ => ⟨oB, by simp⟩⟩
    by_cases k2 : m.key = sta.key
    · rw [k2, Ledger.setData_same, e3]
      exact .inr ⟨⟨sta, mem_accs h1, rfl, wst⟩, fun _ => oS, fun _ => oS, fun h => absurd (own _) h⟩
    rw [Ledger.setData_other _ _ k2]
    by_cases k3 : m.key = uns.key
    · rw [k3]
      refine .inr ⟨⟨uns, mem_accs h0, rfl, wu⟩, fun h => by omega, fun h => ?_, fun h => ?_⟩
      · rw [ce.received] at h
        rcases g1.clean uns.key with hc | hc
        · exact absurd (by show (M1 uns.key).data = _; rw [show B2 uns.key = M1 uns.key from hc]) h
        · exact hc.2.1
      · rw [ce.received] at h
        exact absurd (own _) h
    · rw [ce.other _ k1 k3]
      exact g1.clean.allowed m.key
  have hshort : Short L (M2'.setData sta.key d3) := by
    refine g1.short.trans (Short.trans (fun j => ?_) (short_setData hlen))
    by_cases k1 : j = rec.key
    · rw [k1, hrec0]; simp
    by_cases k3 : j = uns.key
    · rw [k3, ce.received]; exact le_max_left _ _
    · rw [ce.other _ k1 k3]; exact le_max_left _ _
  have hb : ∀ m ∈ accs, (M2'.setData sta.key d3 m.key).data.length ≤ (L m.key).data.length + MAX_DATA_INCREASE :=
    fun m _ => hshort.bound m.key
  have hsum : lamportSum accs (M2'.setData sta.key d3) = lamportSum accs B2 := by
    refine lamportSum_move (mem_accs h2) (mem_accs h0) n2 ?_ ?_ fun j j1 j2 => ?_
    · rw [Ledger.setData_lamports, hrec0]; rfl
    · rw [Ledger.setData_lamports]; exact hadd
    · rw [Ledger.setData_lamports, ce.other _ j1 j2]; exact lam j
  unfold Mach.finish
  rw [require_ok allowed, require_ok hb, require_ok hsum]
  rfl

/-- The machine and the plain model agree. -/
theorem machine_eq {ix : Instruction} (hs : SignersOk x.cr L accs) (hfit : LamportsFit L accs) :
    machine x L accs ix = lift (dispatch x L accs ix) := by
  have key : RelM (Ends accs L) (dispatchM x L accs (.start L) ix) (dispatch x L accs ix) := by
    cases ix with
    | Initialize c => exact initM_rel hs
    | Stake n => exact stakeM_rel
    | Unstake n i => exact unstakeM_rel hs
    | Withdraw i => exact withdrawM_rel hs hfit
    | Set u => exact setM_rel
  unfold machine
  generalize dispatchM x L accs (.start L) ix = q at key ⊢
  generalize dispatch x L accs ix = p at key ⊢
  cases key with
  | err e => rfl
  | @ok a b h =>
    obtain ⟨s, logs⟩ := a
    obtain ⟨L', logs'⟩ := b
    obtain ⟨h1, h2⟩ := h
    simp only at h1 h2
    subst h1
    show (do let L'' ← s.finish accs L; Except.ok (L'', logs)) = _
    rw [h2]
    rfl

end Xorca
