import Verif.Lemmas.Local
import Verif.Lemmas.Exec
/-
What an instruction does depends only on the accounts it is given.
-/
namespace Xorca

/-- Outcomes agree: the same log, and ledgers that agree on the listed accounts. -/
def RelOut (ks : List Pubkey) (o o' : Outcome) : Prop := o.2 = o'.2 ∧ Agree ks o.1 o'.1

section
variable {L M : Ledger} {a b c : Meta}

theorem owner_congr {o : Pubkey} (h : L a.key = M a.key) : assertAccountOwner L a o = assertAccountOwner M a o := by
  unfold assertAccountOwner; rw [h]

theorem data_congr {n : Nat} {d : AccountDiscriminator} (h : L a.key = M a.key) :
    assertAccountData L a n d = assertAccountData M a n d := by
  unfold assertAccountData assertAccountLen assertAccountDiscriminator; rw [h]

theorem state_congr (h : L a.key = M a.key) : assertStateData L a = assertStateData M a := data_congr h

theorem record_congr (h : L a.key = M a.key) : assertPendingWithdrawData L a = assertPendingWithdrawData M a := data_congr h

theorem mint_congr (h : L a.key = M a.key) : assertTokenMintData L a = assertTokenMintData M a := by
  unfold assertTokenMintData; rw [h]

theorem tok_congr {v : Bool} (h : L a.key = M a.key) :
    makeOwnerTokenAccountAssertions L a b c v = makeOwnerTokenAccountAssertions M a b c v := by
  unfold makeOwnerTokenAccountAssertions assertAccountOwner assertTokenAccountData; rw [h]

theorem mem_keys {accs : List Meta} {i : Nat} (h : getAccountInfo accs i = .ok a) : a.key ∈ accs.map (·.key) :=
  List.mem_map.2 ⟨a, List.mem_of_getElem? (getAccountInfo_ok.1 h), rfl⟩

end

/-- A check that reads only accounts on which the ledgers agree. -/
macro "loc" : tactic => `(tactic| first
  | rfl
  | exact owner_congr (by assumption)
  | exact state_congr (by assumption)
  | exact record_congr (by assumption)
  | exact mint_congr (by assumption)
  | exact tok_congr (by assumption))

theorem keys_sub {ks : List Pubkey} : ([] : List Pubkey) ⊆ ks := by simp

theorem keys_cons {ks l : List Pubkey} {k : Pubkey} (h : k ∈ ks) (hl : l ⊆ ks) : (k :: l) ⊆ ks := by
  intro j hj
  rcases List.mem_cons.1 hj with rfl | hj
  · exact h
  · exact hl hj

variable {x : Ctx} {L M : Ledger} {accs : List Meta}

theorem processStake_rel {n : UInt64} (h : Agree (accs.map (·.key)) L M) :
    RelR (RelOut (accs.map (·.key))) (processStake x L accs n) (processStake x M accs n) := by
  unfold processStake
  refine .bind_val rfl fun stk h0 => .bind_val rfl fun vlt h1 => .bind_val rfl fun oat h2 => .bind_val rfl fun xat h3 =>
    .bind_val rfl fun xm h4 => .bind_val rfl fun sta h5 => .bind_val rfl fun om h6 => .bind_val rfl fun tp h7 => ?_
  have m0 := mem_keys h0; have m1 := mem_keys h1; have m2 := mem_keys h2; have m3 := mem_keys h3
  have m4 := mem_keys h4; have m5 := mem_keys h5; have m6 := mem_keys h6
  have e0 := h _ m0; have e1 := h _ m1; have e2 := h _ m2; have e3 := h _ m3
  have e4 := h _ m4; have e5 := h _ m5; have e6 := h _ m6
  iterate 19 refine .bind_val (by loc) fun _ _ => ?_
  refine ((local_tokenTransfer _ _ _ _ _).agree _ L M (keys_cons m2 (keys_cons m1 (keys_cons m0 keys_sub))) h).bind
    fun A B _ _ hAB => ?_
  refine .bind_val rfl fun _ _ => ?_
  refine ((local_mintTo _ _ _ _ _).agree _ A B (keys_cons m4 (keys_cons m3 (keys_cons m5 keys_sub))) hAB).bind
    fun A B _ _ hAB => .ok ⟨rfl, hAB⟩

theorem createAccountSecure_rel {c : Caller} {ks : List Pubkey} {f k o : Pubkey} {n : Nat} (h : Agree ks L M) (hf : f ∈ ks)
    (hk : k ∈ ks) : RelR (Agree ks) (createAccountSecure x c L f k n o) (createAccountSecure x c M f k n o) := by
  unfold createAccountSecure
  rw [h _ hk]
  have tail : ∀ A B, Agree ks A B → RelR (Agree ks) (do let L2 ← cpiAllocate c A k n; cpiAssign c L2 k o)
      (do let L2 ← cpiAllocate c B k n; cpiAssign c L2 k o) := fun A B hAB =>
    ((local_allocate _ _ _).agree _ A B (keys_cons hk keys_sub) hAB).bind fun A B _ _ hAB =>
      (local_assign _ _ _).agree _ A B (keys_cons hk keys_sub) hAB
  split
  · exact .ok h
  · simp only
    split
    · exact (local_createAccount _ _ _ _ _ _).agree _ L M (keys_cons hf (keys_cons hk keys_sub)) h
    · generalize (if (x.rentMin n).toNat ≤ (M k).lamports.toNat then (0 : UInt64) else x.rentMin n - (M k).lamports) = v
      split
      · exact ((local_systemTransfer _ _ _ _).agree _ L M (keys_cons hf (keys_cons hk keys_sub)) h).bind
          fun A B _ _ hAB => tail A B hAB
      · exact tail L M h

theorem closeProgramAccount_rel {ks : List Pubkey} {k r : Pubkey} (h : Agree ks L M) (hk : k ∈ ks) (hr : r ∈ ks) :
    RelR (Agree ks) (closeProgramAccount L k r) (closeProgramAccount M k r) := by
  unfold closeProgramAccount
  refine .bind_val (by rw [h _ hk]) fun d _ => .ok ?_
  have h1 := h.setData hk d
  have h2 := (h1.setLamports hr ((L.setData k d r).lamports + (L.setData k d k).lamports)).setLamports hk 0
  have h3 := h2.setData hk []
  have h4 := h3.set k { (((((L.setData k d).setLamports r ((L.setData k d r).lamports + (L.setData k d k).lamports)
    ).setLamports k 0).setData k []) k) with owner := SYSTEM_PROGRAM_ID }
  rw [← h1 _ hr, ← h1 _ hk, ← h3 _ hk]
  exact h4

theorem createRecord_rel {c : Caller} {ks : List Pubkey} {f k : Pubkey} (h : Agree ks L M) (hf : f ∈ ks) (hk : k ∈ ks) :
    RelR (Agree ks) (createPendingWithdrawSecure x c L f k) (createPendingWithdrawSecure x c M f k) := by
  unfold createPendingWithdrawSecure
  exact (createAccountSecure_rel h hf hk).bind fun A B _ _ hAB => .bind_val (by rw [hAB _ hk]) fun d _ =>
    .ok (hAB.setData hk d)

theorem createStateBorsh_rel {c : Caller} {ks : List Pubkey} {f k : Pubkey} {st : State} (h : Agree ks L M) (hf : f ∈ ks)
    (hk : k ∈ ks) : RelR (Agree ks) (createStateBorsh x c L f k st) (createStateBorsh x c M f k st) := by
  unfold createStateBorsh
  refine (createAccountSecure_rel h hf hk).bind fun A B _ _ hAB => .bind_val (by rw [hAB _ hk]) fun d _ => .ok ?_
  rw [hAB _ hk]
  exact hAB.setData hk _

theorem processUnstake_rel {n : UInt64} {i : UInt8} (h : Agree (accs.map (·.key)) L M) :
    RelR (RelOut (accs.map (·.key))) (processUnstake x L accs n i) (processUnstake x M accs n i) := by
  unfold processUnstake
  refine .bind_val rfl fun uns h0 => .bind_val rfl fun sta h1 => .bind_val rfl fun rec h2 => .bind_val rfl fun xat h3 =>
    .bind_val rfl fun xm h4 => .bind_val rfl fun om h5 => .bind_val rfl fun vlt h6 => .bind_val rfl fun sp h7 =>
    .bind_val rfl fun tp h8 => ?_
  have m0 := mem_keys h0; have m1 := mem_keys h1; have m2 := mem_keys h2; have m3 := mem_keys h3
  have m4 := mem_keys h4; have m5 := mem_keys h5; have m6 := mem_keys h6
  have e0 := h _ m0; have e1 := h _ m1; have e2 := h _ m2; have e3 := h _ m3
  have e4 := h _ m4; have e5 := h _ m5; have e6 := h _ m6
  iterate 26 refine .bind_val (by loc) fun _ _ => ?_
  refine ((local_burn _ _ _ _ _).agree _ L M (keys_cons m3 (keys_cons m4 (keys_cons m0 keys_sub))) h).bind
    fun A B _ _ hAB => ?_
  have e1 := hAB _ m1
  refine .bind_val (by loc) fun st _ => .bind_val rfl fun ne _ => ?_
  have hAB := hAB.setData m1 (setStEscrow st ne)
  refine .bind_val rfl fun pda _ => ?_
  refine (createRecord_rel hAB m0 m2).bind fun C D _ _ hCD => ?_
  rw [hAB _ m1, hCD _ m2]
  exact .bind_val rfl fun t _ => .ok ⟨rfl, hCD.setData m2 _⟩

theorem processWithdraw_rel {i : UInt8} (h : Agree (accs.map (·.key)) L M) :
    RelR (RelOut (accs.map (·.key))) (processWithdraw x L accs i) (processWithdraw x M accs i) := by
  unfold processWithdraw
  refine .bind_val rfl fun uns h0 => .bind_val rfl fun sta h1 => .bind_val rfl fun rec h2 => .bind_val rfl fun oat h3 =>
    .bind_val rfl fun vlt h4 => .bind_val rfl fun om h5 => .bind_val rfl fun sp h6 => .bind_val rfl fun tp h7 => ?_
  have m0 := mem_keys h0; have m1 := mem_keys h1; have m2 := mem_keys h2; have m3 := mem_keys h3
  have m4 := mem_keys h4; have m5 := mem_keys h5
  have e0 := h _ m0; have e1 := h _ m1; have e2 := h _ m2; have e3 := h _ m3
  have e4 := h _ m4; have e5 := h _ m5
  iterate 19 refine .bind_val (by loc) fun _ _ => ?_
  refine ((local_tokenTransfer _ _ _ _ _).agree _ L M (keys_cons m4 (keys_cons m3 (keys_cons m1 keys_sub))) h).bind
    fun A B _ _ hAB => ?_
  refine (closeProgramAccount_rel hAB m2 m0).bind fun A B _ _ hAB => ?_
  have e1 := hAB _ m1
  refine .bind_val (by loc) fun st _ => .bind_val rfl fun ne _ => .ok ?_
  have hAB := hAB.setData m1 (setStEscrow st ne)
  exact ⟨by simp only; rw [hAB _ m1], hAB⟩

theorem processSet_rel {u : StateUpdateInstruction} (h : Agree (accs.map (·.key)) L M) :
    RelR (RelOut (accs.map (·.key))) (processSet x L accs u) (processSet x M accs u) := by
  unfold processSet
  refine .bind_val rfl fun aut h0 => .bind_val rfl fun sta h1 => ?_
  have m1 := mem_keys h1
  have e1 := h _ m1
  iterate 6 refine .bind_val (by loc) fun _ _ => ?_
  split
  · exact .bind_val rfl fun _ _ => .ok ⟨rfl, h.setData m1 _⟩
  · exact .ok ⟨rfl, h.setData m1 _⟩

theorem processInitialize_rel {c : Int64} (h : Agree (accs.map (·.key)) L M) :
    RelR (RelOut (accs.map (·.key))) (processInitialize x L accs c) (processInitialize x M accs c) := by
  unfold processInitialize
  refine .bind_val rfl fun pay h0 => .bind_val rfl fun aut h1 => .bind_val rfl fun sta h2 => .bind_val rfl fun vlt h3 =>
    .bind_val rfl fun xm h4 => .bind_val rfl fun om h5 => .bind_val rfl fun sp h6 => .bind_val rfl fun tp h7 =>
    .bind_val rfl fun ap h8 => ?_
  have m0 := mem_keys h0; have m1 := mem_keys h1; have m2 := mem_keys h2; have m3 := mem_keys h3
  have m4 := mem_keys h4; have m5 := mem_keys h5; have m6 := mem_keys h6; have m7 := mem_keys h7
  have e0 := h _ m0; have e1 := h _ m1; have e2 := h _ m2; have e3 := h _ m3
  have e4 := h _ m4; have e5 := h _ m5
  rw [e2]
  iterate 28 refine .bind_val (by loc) fun _ _ => ?_
  refine .bind_val rfl fun pda _ => (createStateBorsh_rel h m0 m2).bind fun A B _ _ hAB => ?_
  exact ((local_createAta _ _ _ _ _ _ []).agree _ A B
    (keys_cons m0 (keys_cons m3 (keys_cons m2 (keys_cons m5 keys_sub)))) hAB).bind fun A B _ _ hAB => .ok ⟨rfl, hAB⟩

theorem dispatch_rel {ix : Instruction} (h : Agree (accs.map (·.key)) L M) :
    RelR (RelOut (accs.map (·.key))) (dispatch x L accs ix) (dispatch x M accs ix) := by
  cases ix with
  | Initialize c => exact processInitialize_rel h
  | Stake n => exact processStake_rel h
  | Unstake n i => exact processUnstake_rel h
  | Withdraw i => exact processWithdraw_rel h
  | Set u => exact processSet_rel h

/-! ### Nothing else changes -/

theorem createAccountSecure_frame {c : Caller} {L' : Ledger} {f k o j : Pubkey} {n : Nat}
    (h : createAccountSecure x c L f k n o = .ok L') (h1 : j ≠ f) (h2 : j ≠ k) : L' j = L j := by
  unfold createAccountSecure at h
  split at h
  · cases h; rfl
  · simp only at h
    split at h
    · exact (local_createAccount _ _ _ _ _ _).frame _ _ h _ (by simp [h1, h2])
    · generalize (if (x.rentMin n).toNat ≤ (L k).lamports.toNat then (0 : UInt64) else x.rentMin n - (L k).lamports) = v at h
      split at h
      all_goals
        simp only [bind_eq_ok] at h
        obtain ⟨A, hA, B, hB, hC⟩ := h
        rw [(local_assign _ _ _).frame _ _ hC _ (by simp [h2]), (local_allocate _ _ _).frame _ _ hB _ (by simp [h2])]
      · exact (local_systemTransfer _ _ _ _).frame _ _ hA _ (by simp [h1, h2])
      · cases hA; rfl

theorem createRecord_frame {c : Caller} {L' : Ledger} {f k j : Pubkey}
    (h : createPendingWithdrawSecure x c L f k = .ok L') (h1 : j ≠ f) (h2 : j ≠ k) : L' j = L j := by
  unfold createPendingWithdrawSecure at h
  simp only [bind_eq_ok, Except.ok.injEq] at h
  obtain ⟨A, hA, d, _, rfl⟩ := h
  rw [Ledger.setData_other _ _ h2, createAccountSecure_frame hA h1 h2]

theorem createStateBorsh_frame {c : Caller} {L' : Ledger} {f k j : Pubkey} {s : State}
    (h : createStateBorsh x c L f k s = .ok L') (h1 : j ≠ f) (h2 : j ≠ k) : L' j = L j := by
  unfold createStateBorsh at h
  simp only [bind_eq_ok, Except.ok.injEq] at h
  obtain ⟨A, hA, d, _, rfl⟩ := h
  rw [Ledger.setData_other _ _ h2, createAccountSecure_frame hA h1 h2]

theorem closeProgramAccount_frame {L' : Ledger} {k r j : Pubkey} (h : closeProgramAccount L k r = .ok L') (h1 : j ≠ r)
    (h2 : j ≠ k) : L' j = L j := by
  unfold closeProgramAccount at h
  simp only [bind_eq_ok, Except.ok.injEq] at h
  obtain ⟨d, _, rfl⟩ := h
  rw [Ledger.set_other _ _ h2, Ledger.setData_other _ _ h2, Ledger.setLamports_other _ _ h2,
    Ledger.setLamports_other _ _ h1, Ledger.setData_other _ _ h2]

theorem dispatch_frame {ix : Instruction} {L' : Ledger} {logs : List Bytes} (h : dispatch x L accs ix = .ok (L', logs))
    {k : Pubkey} (hk : k ∉ accs.map (·.key)) : L' k = L k := by
  cases ix with
  | Stake n =>
    obtain ⟨s, v, oa, xa, xm, st, om, tp, L1, m, r⟩ := processStake_run h
    obtain ⟨rest, rfl⟩ := r.accs_eq
    simp only [List.map_cons, List.mem_cons, not_or] at hk
    rw [(local_mintTo _ _ _ _ _).frame _ _ r.mint _ (by simp [hk]), (local_tokenTransfer _ _ _ _ _).frame _ _ r.transfer _
      (by simp [hk])]
  | Unstake n i =>
    obtain ⟨u, st, pw, xa, xm, om, v, sp, tp, L1, L3, w, e, ts, b, r⟩ := processUnstake_run h
    obtain ⟨rest, rfl⟩ := r.accs_eq
    simp only [List.map_cons, List.mem_cons, not_or] at hk
    rw [r.result, Ledger.setData_other _ _ hk.2.2.1, createRecord_frame r.create hk.1 hk.2.2.1,
      Ledger.setData_other _ _ hk.2.1, (local_burn _ _ _ _ _).frame _ _ r.burn _ (by simp [hk])]
  | Withdraw i =>
    obtain ⟨u, st, pw, oa, v, om, sp, tp, L1, L2, e, r⟩ := processWithdraw_run h
    obtain ⟨rest, rfl⟩ := r.accs_eq
    simp only [List.map_cons, List.mem_cons, not_or] at hk
    rw [r.result, Ledger.setData_other _ _ hk.2.1, closeProgramAccount_frame r.close hk.1 hk.2.2.1,
      (local_tokenTransfer _ _ _ _ _).frame _ _ r.transfer _ (by simp [hk])]
  | Initialize c =>
    obtain ⟨p, au, st, v, xm, om, sp, tp, ap, L1, b, vb, r⟩ := processInitialize_run h
    obtain ⟨rest, rfl⟩ := r.accs_eq
    simp only [List.map_cons, List.mem_cons, not_or] at hk
    have ho : om.key = ORCA_MINT_ID := r.om_key
    rw [(local_createAta _ _ _ _ _ _ []).frame _ _ r.ata _ (by rw [← ho]; simp [hk]), createStateBorsh_frame r.create hk.1
      hk.2.2.1]
  | Set u =>
    cases u with
    | UpdateCoolDownPeriod c =>
      obtain ⟨a, st, r, _, rfl, _⟩ := processSet_coolDown_run h
      obtain ⟨rest, rfl⟩ := r.accs_eq
      simp only [List.map_cons, List.mem_cons, not_or] at hk
      exact Ledger.setData_other _ _ hk.2.1
    | UpdateUpdateAuthority p =>
      obtain ⟨a, st, r, rfl, _⟩ := processSet_authority_run h
      obtain ⟨rest, rfl⟩ := r.accs_eq
      simp only [List.map_cons, List.mem_cons, not_or] at hk
      exact Ledger.setData_other _ _ hk.2.1

end Xorca
