import Verif.ErrorTable
import Verif.Lemmas.Fail
import Verif.Lemmas.Success
import Verif.Lemmas.Codes
/-
Every instruction follows its table of checks.
-/
namespace Xorca
open Spec

variable {α β : Type} {x : Ctx} {L : Ledger} {accs : List Meta}

theorem allHold_or (l : List Check) : AllHold l ∨ ∃ e, FirstFails l e := by
  induction l with
  | nil => exact Or.inl fun c hc => by cases hc
  | cons c l ih =>
    obtain ⟨c, e⟩ := c
    by_cases hc : c
    · rcases ih with h | ⟨e', h⟩
      · refine Or.inl fun d hd => ?_
        rcases List.mem_cons.1 hd with rfl | hd
        · exact hc
        · exact h d hd
      · exact Or.inr ⟨e', .there hc h⟩
    · exact Or.inr ⟨e, .here hc⟩

/-- `p` follows the table `l`, and after it has `Q`. -/
structure Tab (p : Res α) (l : List Check) (Q : Res α → Prop) : Prop where
  fails : ∀ e, FirstFails l e → p = .error e
  after : AllHold l → Q p

theorem Tab.nil {p : Res α} {Q : Res α → Prop} (h : Q p) : Tab p [] Q :=
  ⟨fun _ h' => (nomatch h'), fun _ => h⟩

theorem Tab.cons {p : Res α} {c : Prop} {e : Err} {l : List Check} {Q : Res α → Prop} (h1 : ¬ c → p = .error e)
    (h2 : c → Tab p l Q) : Tab p ((c, e) :: l) Q := by
  constructor
  · intro e' h
    cases h with
    | here h => exact h1 h
    | there h h' => exact (h2 h).fails e' h'
  · intro h
    have hc : c := h _ (List.mem_cons_self ..)
    exact (h2 hc).after fun d hd => h d (List.mem_cons_of_mem _ hd)

/-- One step that makes one check. -/
theorem Tab.step {p : Res β} {f : β → Res α} {c : Prop} {e : Err} {l : List Check} {Q : Res α → Prop}
    (h1 : ¬ c → p = .error e) (h2 : c → ∃ b, p = .ok b ∧ Tab (f b) l Q) : Tab (p >>= f) ((c, e) :: l) Q := by
  refine .cons (fun h => bind_err_eq (h1 h) f) fun h => ?_
  obtain ⟨b, h3, h4⟩ := h2 h
  rw [bind_ok_eq h3]
  exact h4

theorem Tab.ensure {f : Unit → Res α} {c d : Prop} [Decidable d] {e : Err} {l : List Check} {Q : Res α → Prop} (hd : d ↔ c)
    (h : c → Tab (f ()) l Q) : Tab (Xorca.ensure d e >>= f) ((c, e) :: l) Q :=
  .step (fun h' => ensure_eq_err.2 ⟨fun k => h' (hd.1 k), rfl⟩) fun h' => ⟨(), ensure_eq_ok.2 (hd.2 h'), h h'⟩

theorem Tab.signs {f : Unit → Res α} {m : Meta} {l : List Check} {Q : Res α → Prop}
    (h : m.isSigner = true → m.isWritable = true → Tab (f ()) l Q) :
    Tab (assertAccountRole m [.Signer, .Writable] >>= f) (Spec.signs m :: l) Q :=
  .step (fun h' => assertAccountRole_SW_err.2 ⟨h', rfl⟩) fun h' => ⟨(), assertAccountRole_SW.2 h', h h'.1 h'.2⟩

theorem Tab.writable {f : Unit → Res α} {m : Meta} {l : List Check} {Q : Res α → Prop}
    (h : m.isWritable = true → Tab (f ()) l Q) :
    Tab (assertAccountRole m [.Writable] >>= f) (Spec.writable m :: l) Q :=
  .step (fun h' => assertAccountRole_W_err.2 ⟨h', rfl⟩) fun h' => ⟨(), assertAccountRole_W.2 h', h h'⟩

theorem Tab.isAt {f : Unit → Res α} {m : Meta} {k : Pubkey} {l : List Check} {Q : Res α → Prop}
    (h : m.key = k → Tab (f ()) l Q) : Tab (assertAccountAddress m k >>= f) (Spec.isAt m k :: l) Q := .ensure Iff.rfl h

theorem Tab.ownedBy {f : Unit → Res α} {m : Meta} {k : Pubkey} {l : List Check} {Q : Res α → Prop}
    (h : (L m.key).owner = k → Tab (f ()) l Q) : Tab (assertAccountOwner L m k >>= f) (Spec.ownedBy L m k :: l) Q :=
  .ensure Iff.rfl h

theorem boolOf_none {b : UInt8} : boolOf b = none ↔ ¬ (b = 0 ∨ b = 1) := by
  unfold boolOf; split <;> rename_i h <;> [simp [h]; (split <;> rename_i h' <;> simp [h, h'])]

theorem tokenStateOf_none {b : UInt8} : tokenStateOf b = none ↔ ¬ b.toNat ≤ 2 := by
  have e0 : b = 0 ↔ b.toNat = 0 := by rw [← UInt8.toNat_inj]; rfl
  have e1 : b = 1 ↔ b.toNat = 1 := by rw [← UInt8.toNat_inj]; rfl
  have e2 : b = 2 ↔ b.toNat = 2 := by rw [← UInt8.toNat_inj]; rfl
  unfold tokenStateOf
  simp only [e0, e1, e2]
  split_ifs
  all_goals simp only [false_iff, true_iff, not_not]; omega

theorem decodeTokenMint_none {d : Bytes} :
    decodeTokenMint d = none ↔ ¬ (82 ≤ d.length ∧ (readU8 d 45 = 0 ∨ readU8 d 45 = 1)) := by
  rw [decodeTokenMint_eq]
  split
  · next h => simp only [Option.map_eq_none_iff, boolOf_none, h, true_and]
  · next h => simp [h]

theorem decodeTokenAccount_none {d : Bytes} :
    decodeTokenAccount d = none ↔ ¬ (165 ≤ d.length ∧ (readU8 d 108).toNat ≤ 2) := by
  rw [decodeTokenAccount_eq]
  split
  · next h => simp only [Option.map_eq_none_iff, tokenStateOf_none, h, true_and]
  · next h => simp [h]

theorem Tab.mint {f : TokenMint → Res α} {m : Meta} {l : List Check} {Q : Res α → Prop}
    (h : ∀ t, decodeTokenMint (L m.key).data = some t → Tab (f t) l Q) :
    Tab (assertTokenMintData L m >>= f) (mintReads L m :: l) Q := by
  refine .step (fun h' => okOr_eq_err.2 ⟨decodeTokenMint_none.2 h', rfl⟩) fun h' => ?_
  cases hd : decodeTokenMint (L m.key).data with
  | none => exact absurd h' (decodeTokenMint_none.1 hd)
  | some t => exact ⟨t, okOr_eq_ok.2 hd, h t hd⟩

theorem Tab.state {f : Bytes → Res α} {m : Meta} {l : List Check} {Q : Res α → Prop}
    (h : 2048 ≤ (L m.key).data.length → readU8 (L m.key).data 0 = 1 → Tab (f (L m.key).data) l Q) :
    Tab (assertStateData L m >>= f) (stateReads L m :: l) Q :=
  .step (fun h' => assertStateData_err.2 ⟨h', rfl⟩) fun h' => ⟨_, assertStateData_ok.2 ⟨rfl, h'⟩, h h'.1 h'.2⟩

theorem Tab.record {f : Bytes → Res α} {m : Meta} {l : List Check} {Q : Res α → Prop}
    (h : 1024 ≤ (L m.key).data.length → readU8 (L m.key).data 0 = 2 → Tab (f (L m.key).data) l Q) :
    Tab (assertPendingWithdrawData L m >>= f) (recordReads L m :: l) Q :=
  .step (fun h' => assertPendingWithdrawData_err.2 ⟨h', rfl⟩) fun h' =>
    ⟨_, assertPendingWithdrawData_ok.2 ⟨rfl, h'⟩, h h'.1 h'.2⟩

/-- Four checks of a token account. -/
theorem Tab.token' {f : TokenAccount → Res α} {m ow mi : Meta} {l : List Check} {Q : Res α → Prop}
    (h : ∀ t, (L m.key).owner = SPL_TOKEN_PROGRAM_ID → t.amount = readU64 (L m.key).data 64 → Tab (f t) l Q) :
    Tab (makeOwnerTokenAccountAssertions L m ow mi false >>= f) (tokenReads L m ow mi ++ l) Q := by
  have hw : ∀ t, makeOwnerTokenAccountAssertions L m ow mi false = .ok t ↔ _ :=
    fun t => makeOwnerTokenAccountAssertions_ok
  simp only [Bool.false_eq_true, false_implies, true_and] at hw
  unfold tokenReads
  refine .cons (fun h' => ?_) fun h1 => .cons (fun h' => ?_) fun h2 => ?_
  · refine bind_err_eq ?_ f
    unfold makeOwnerTokenAccountAssertions
    rw [if_neg (by decide)]
    exact bind_err_eq (assertAccountOwner_err.2 ⟨h', rfl⟩) _
  · refine bind_err_eq ?_ f
    unfold makeOwnerTokenAccountAssertions
    rw [if_neg (by decide)]
    change (assertAccountOwner L m SPL_TOKEN_PROGRAM_ID >>= _) = _
    rw [bind_ok_eq (assertAccountOwner_ok (u := ()).2 h1)]
    exact bind_err_eq (okOr_eq_err.2 ⟨decodeTokenAccount_none.2 h', rfl⟩) _
  · cases hd : decodeTokenAccount (L m.key).data with
    | none => exact absurd h2 (decodeTokenAccount_none.1 hd)
    | some t =>
      obtain ⟨_, e1, e2, e3⟩ := decoded_fields hd
      refine .cons (fun h' => ?_) fun h3 => .cons (fun h' => ?_) fun h4 => ?_
      · refine bind_err_eq ?_ f
        unfold makeOwnerTokenAccountAssertions
        rw [if_neg (by decide)]
        change (assertAccountOwner L m SPL_TOKEN_PROGRAM_ID >>= _) = _
        rw [bind_ok_eq (assertAccountOwner_ok (u := ()).2 h1), bind_ok_eq (r := assertTokenAccountData L m) (a := t) (okOr_eq_ok.2 hd)]
        exact bind_err_eq (ensure_eq_err.2 ⟨by rw [e1]; exact h', rfl⟩) _
      · refine bind_err_eq ?_ f
        unfold makeOwnerTokenAccountAssertions
        rw [if_neg (by decide)]
        change (assertAccountOwner L m SPL_TOKEN_PROGRAM_ID >>= _) = _
        rw [bind_ok_eq (assertAccountOwner_ok (u := ()).2 h1), bind_ok_eq (r := assertTokenAccountData L m) (a := t) (okOr_eq_ok.2 hd),
          bind_ok_eq (ensure_eq_ok (u := ()).2 (by rw [e1]; exact h3))]
        exact bind_err_eq (ensure_eq_err.2 ⟨by rw [e2]; exact h', rfl⟩) _
      · rw [bind_ok_eq ((hw t).2 ⟨h1, hd, e1.trans h3, e2.trans h4⟩)]
        exact h t h1 e3

theorem makeOwner_writable {m ow mi : Meta} (h : m.isWritable = true) :
    makeOwnerTokenAccountAssertions L m ow mi true = makeOwnerTokenAccountAssertions L m ow mi false := by
  unfold makeOwnerTokenAccountAssertions
  rw [if_pos rfl, if_neg (by decide), assertAccountRole_W.2 h]

/-- The five checks of a writable token account. -/
theorem Tab.token {f : TokenAccount → Res α} {m ow mi : Meta} {l : List Check} {Q : Res α → Prop}
    (h : ∀ t, (L m.key).owner = SPL_TOKEN_PROGRAM_ID → t.amount = readU64 (L m.key).data 64 → Tab (f t) l Q) :
    Tab (makeOwnerTokenAccountAssertions L m ow mi true >>= f) (Spec.writable m :: (tokenReads L m ow mi ++ l)) Q := by
  refine .cons (fun h' => ?_) fun h' => ?_
  · refine bind_err_eq ?_ f
    unfold makeOwnerTokenAccountAssertions
    rw [if_pos rfl]
    exact bind_err_eq (assertAccountRole_W_err.2 ⟨h', rfl⟩) _
  · rw [makeOwner_writable h']
    exact .token' h

theorem Tab.seeds {f : UInt8 → Res α} {cr : Crypto} {m : Meta} {p : Pubkey} {seeds : List Bytes} {l : List Check}
    {Q : Res α → Prop} (h : ∀ b, findProgramAddress cr seeds p = some (m.key, b) → Tab (f b) l Q) :
    Tab (assertAccountSeeds cr m p seeds >>= f)
      ((∃ k b, findProgramAddress cr seeds p = some (k, b), .panicked) ::
        (∃ b, findProgramAddress cr seeds p = some (m.key, b), .custom .InvalidSeeds) :: l) Q := by
  refine .cons (fun h' => ?_) fun ⟨k, b, h1⟩ => .cons (fun h' => ?_) fun ⟨b', h2⟩ => ?_
  · refine bind_err_eq (assertAccountSeeds_err.2 (Or.inl ⟨?_, rfl⟩)) f
    cases hf : findProgramAddress cr seeds p with
    | none => rfl
    | some kb => exact absurd ⟨kb.1, kb.2, hf⟩ h'
  · refine bind_err_eq (assertAccountSeeds_err.2 (Or.inr ⟨k, b, h1, fun hk => h' ⟨b, by rw [hk]; exact h1⟩, rfl⟩)) f
  · rw [bind_ok_eq (assertAccountSeeds_ok.2 h2)]
    exact h b' h2

theorem Tab.stateAddr {f : Unit → Res α} {cr : Crypto} {m : Meta} {l : List Check} {Q : Res α → Prop}
    (h : m.key = deriveAddress cr stateSeedsRaw (stBump (L m.key).data) PROGRAM_ID → Tab (f ()) l Q) :
    Tab (verifyStateAddress cr m (stBump (L m.key).data) >>= f) (stateAddress cr L m :: l) Q :=
  .ensure (by rfl) h

theorem vaultHashed_eq {cr : Crypto} {st : Pubkey} {b : UInt8} :
    deriveAddress cr (vaultSeedsRaw st SPL_TOKEN_PROGRAM_ID ORCA_MINT_ID) b ASSOCIATED_TOKEN_PROGRAM_ID =
      cr.sha256 (vaultHashed st b) := by
  rw [deriveAddress, vaultHashed]
  congr 1
  simp [vaultSeedsRaw, pdaMarker, PDA_MARKER]

theorem Tab.vaultAddr {f : Unit → Res α} {cr : Crypto} {st v om : Meta} {l : List Check} {Q : Res α → Prop}
    (ho : om.key = ORCA_MINT_ID) (h : Tab (f ()) l Q) :
    Tab (verifyVaultAddress cr st v om (stVaultBump (L st.key).data) >>= f) (vaultAddress cr L st v :: l) Q := by
  refine .ensure ?_ fun _ => h
  rw [ho, vaultHashed_eq]
  rfl

/-- What follows calls other programs and makes the checks `l`. -/
structure After (l : List Check) (p : Res α) : Prop where
  only : ∀ e, p = .error e → (∃ c, e = .cpi c) ∨ FirstFails l e
  fails : ∀ e, FirstFails l e → p = .error e ∨ ∃ c, p = .error (.cpi c)

theorem After.ok {a : α} : After [] (.ok a : Res α) := ⟨fun _ h => (nomatch h), fun _ h => (nomatch h)⟩

theorem After.cpi {l : List Check} {p : Res β} {f : β → Res α} (h1 : CpiOnly p) (h2 : ∀ b, p = .ok b → After l (f b)) :
    After l (p >>= f) := by
  cases hp : p with
  | error e =>
    obtain ⟨c, rfl⟩ := h1 e hp
    exact ⟨fun e h => by cases h; exact Or.inl ⟨c, rfl⟩, fun e _ => Or.inr ⟨c, rfl⟩⟩
  | ok b => exact h2 b hp

theorem After.pass {l : List Check} {p : Res β} {f : β → Res α} {b : β} (h1 : p = .ok b) (h2 : After l (f b)) :
    After l (p >>= f) := by rw [h1]; exact h2

theorem After.step {l : List Check} {p : Res β} {f : β → Res α} {c : Prop} {e : Err}
    (h1 : ¬ c → p = .error e) (h2 : c → ∃ b, p = .ok b ∧ After l (f b)) : After ((c, e) :: l) (p >>= f) := by
  by_cases hc : c
  · obtain ⟨b, h3, h4⟩ := h2 hc
    rw [bind_ok_eq h3]
    refine ⟨fun e' h => (h4.only e' h).imp id fun h => .there hc h, fun e' h => ?_⟩
    cases h with
    | here h => exact absurd hc h
    | there _ h => exact h4.fails e' h
  · rw [bind_err_eq (h1 hc)]
    refine ⟨fun e' h => by cases h; exact Or.inr (.here hc), fun e' h => ?_⟩
    cases h with
    | here h => exact Or.inl rfl
    | there h _ => exact absurd h hc

theorem signerPda_cpi {cr : Crypto} {seeds : List Bytes} {b : UInt8} : CpiOnly (signerPda cr seeds b) := .okOr _ _

theorem Tab.back {f : UInt64 → Res α} {v st : Pubkey} {a b : UInt64} {l : List Check} {Q : Res α → Prop}
    (ha : a = readU64 (L v).data 64) (hb : b = readU64 (L st).data 8)
    (h : ∀ n : UInt64, n.toNat = balance L v - escrow L st → Tab (f n) l Q) :
    Tab (okOr (checkedSubU64 a b) (.custom .InsufficientVaultBacking) >>= f)
      ((escrow L st ≤ balance L v, .custom .InsufficientVaultBacking) :: l) Q := by
  subst ha hb
  refine .step (fun h' => okOr_eq_err.2 ⟨checkedSubU64_none.2 (by unfold escrow balance at h'; omega), rfl⟩) fun h' => ?_
  cases hc : checkedSubU64 (readU64 (L v).data 64) (readU64 (L st).data 8) with
  | none => rw [checkedSubU64_none] at hc; unfold escrow balance at h'; omega
  | some n =>
    refine ⟨n, rfl, h n ?_⟩
    rw [checkedSubU64_eq_some] at hc
    unfold escrow balance
    omega

theorem processStake_tab {a : UInt64} {s v oa xa xm st om tp : Meta} {rest : List Meta} :
    Tab (processStake x L (s :: v :: oa :: xa :: xm :: st :: om :: tp :: rest) a)
      (stakeChecks x L a.toNat s v oa xa xm st om tp) (After []) := by
  unfold processStake stakeChecks
  iterate 8 rw [bind_ok_eq (getAccountInfo_ok.2 rfl)]
  simp only [List.cons_append, List.nil_append, List.append_assoc]
  refine .signs fun _ _ => .isAt fun ho => .isAt fun hx => .isAt fun ht => .token fun toa _ e1 => .ensure ?_ fun _ =>
    .token fun _ _ _ => .writable fun _ => .ownedBy fun _ => .mint fun tm hm => .ownedBy fun _ => .ownedBy fun _ =>
    .state fun _ _ => .stateAddr fun _ => .vaultAddr ho (.token fun tv _ e2 => .back e2 rfl fun n hn => ?_)
  · rw [e1, not_lt]; rfl
  obtain ⟨_, e3, _⟩ := decoded_mint_fields hm
  have e3' : tm.supply.toNat = supply L xm.key := by rw [e3]; rfl
  have key : ∀ c, convertOrcaToXorca a n tm.supply = .ok c → c.toNat =
    mintFor a.toNat (balance L v.key - escrow L st.key) (supply L xm.key) := by
    intro c hc; rw [convertOrcaToXorca_ok hc, hn, e3']
  refine .step (fun h' => convertOrcaToXorca_err.2 ?_) fun h' => ?_
  · rw [hn, e3']
    refine ⟨?_, rfl⟩
    simp only [not_or] at h'
    refine ⟨h'.1, h'.2.1, ?_⟩
    have h3 := h'.2.2
    rw [mintFor, if_neg (by tauto)] at h3
    omega
  · cases hc : convertOrcaToXorca a n tm.supply with
    | error e =>
      exfalso
      rw [convertOrcaToXorca_err, hn, e3'] at hc
      obtain ⟨⟨h1, h2, h3⟩, _⟩ := hc
      rcases h' with h' | h' | h'
      · exact h1 h'
      · exact h2 h'
      · rw [mintFor, if_neg (by tauto)] at h'
        omega
    | ok c =>
      have := key c hc
      refine ⟨c, rfl, .ensure ?_ fun _ => .nil ?_⟩
      · rw [u64_ne_zero_iff, this]
      · exact .cpi cpiTokenTransfer_cpi fun _ _ => .cpi signerPda_cpi fun _ _ => .cpi cpiMintTo_cpi fun _ _ => .ok

theorem processSet_tab {d : StateUpdateInstruction} {au st : Meta} {rest : List Meta} :
    Tab (processSet x L (au :: st :: rest) d) (setChecks x L d au st) (After []) := by
  unfold processSet setChecks
  iterate 2 rw [bind_ok_eq (getAccountInfo_ok.2 rfl)]
  refine .signs fun _ _ => .writable fun _ => .ownedBy fun _ => .state fun _ _ => .stateAddr fun _ => .isAt fun _ => ?_
  cases d with
  | UpdateCoolDownPeriod c => exact .ensure (by simp) fun _ => .nil .ok
  | UpdateUpdateAuthority k =>
    refine .cons (fun h => absurd ?_ h) fun _ => .nil .ok
    intro c h; cases h

theorem processWithdraw_tab {i : UInt8} {u st pw oa v om sp tp : Meta} {rest : List Meta} :
    Tab (processWithdraw x L (u :: st :: pw :: oa :: v :: om :: sp :: tp :: rest) i)
      (withdrawChecks x L i u st pw oa v om sp tp) (After []) := by
  unfold processWithdraw withdrawChecks
  iterate 8 rw [bind_ok_eq (getAccountInfo_ok.2 rfl)]
  simp only [List.cons_append, List.nil_append, List.append_assoc]
  refine .signs fun _ _ => .isAt fun ho => .ownedBy fun _ => .writable fun _ => .ownedBy fun stp => .state fun stl std =>
    .stateAddr fun _ => .vaultAddr ho (.writable fun _ => .ownedBy fun pwp => .record fun pwl pwd => .ensure ?_ fun _ =>
    .token fun _ op _ => .token fun _ vp _ => .isAt fun _ => .isAt fun _ => .ensure ?_ fun _ => .ensure ?_ fun hen => .nil ?_)
  · rfl
  · rw [not_lt]; rfl
  · rw [not_lt]; rfl
  have n1 : st.key ≠ pw.key := fun h => by rw [h, pwd] at std; exact absurd std (by decide)
  have n2 : st.key ≠ oa.key := fun h => token_ne_program (by rw [← stp, h, op])
  have n3 : st.key ≠ v.key := fun h => token_ne_program (by rw [← stp, h, vp])
  have m2 : pw.key ≠ oa.key := fun h => token_ne_program (by rw [← pwp, h, op])
  have m3 : pw.key ≠ v.key := fun h => token_ne_program (by rw [← pwp, h, vp])
  refine .cpi signerPda_cpi fun _ _ => .cpi cpiTokenTransfer_cpi fun L1 h1 => ?_
  have fr := splTransfer_frame (cpiTokenTransfer_ok.1 h1).2.2
  cases hL2 : closeProgramAccount L1 pw.key u.key with
  | error e =>
    rw [closeProgramAccount_err, fr.data_other (by simp [m2, m3])] at hL2
    rw [hL2.1] at pwl
    simp at pwl
  | ok L2 =>
    have hd : (L2 st.key).data = (L st.key).data := by
      rw [closeProgramAccount_data hL2 n1, fr.data_other (by simp [n2, n3])]
    refine .pass rfl (.pass (assertStateData_ok.2 ⟨rfl, by rw [hd]; exact ⟨stl, std⟩⟩) ?_)
    cases hs : checkedSubU64 (stEscrow (L2 st.key).data) (pwAmount (L pw.key).data) with
    | none =>
      rw [hd, checkedSubU64_none] at hs
      exact absurd hen (not_le.2 hs)
    | some e => exact .pass rfl .ok

theorem processUnstake_tab {a : UInt64} {i : UInt8} {u st pw xa xm om v sp tp : Meta} {rest : List Meta} :
    Tab (processUnstake x L (u :: st :: pw :: xa :: xm :: om :: v :: sp :: tp :: rest) a i)
      (unstakeChecks x L a.toNat i u st pw xa xm om v sp tp) (After (unstakeLate x L a.toNat st xm v)) := by
  unfold processUnstake unstakeChecks
  iterate 9 rw [bind_ok_eq (getAccountInfo_ok.2 rfl)]
  simp only [List.cons_append, List.nil_append, List.append_assoc]
  refine .signs fun _ _ => .isAt fun hx => .isAt fun ho => .isAt fun _ => .isAt fun _ => .writable fun _ => .ownedBy fun stp =>
    .token' fun tv _ e2 => .writable fun _ => .ownedBy fun pwp => .seeds fun b hb => .token fun txa xap e1 => .ensure ?_ fun _ =>
    .ownedBy fun xmp => .writable fun _ => .mint fun tm hm => .ensure ?_ fun _ => .ensure ?_ fun _ => .ownedBy fun _ =>
    .mint fun _ _ => .state fun stl std => .stateAddr fun _ => .vaultAddr ho (.back e2 rfl fun n hn => ?_)
  · rw [e1, not_lt]; rfl
  · obtain ⟨_, _, e4, e5, _⟩ := decoded_mint_fields hm
    rw [e4, e5]; tauto
  · obtain ⟨_, _, _, _, _, e6, _⟩ := decoded_mint_fields hm
    rw [e6, not_not]
  obtain ⟨_, e3, _⟩ := decoded_mint_fields hm
  have e3' : tm.supply.toNat = supply L xm.key := by rw [e3]; rfl
  refine .step (fun h' => convertXorcaToOrca_err.2 ?_) fun h' => ?_
  · rw [hn, e3']
    refine ⟨?_, rfl⟩
    rw [redeemFor] at h'
    omega
  cases hc : convertXorcaToOrca a n tm.supply with
  | error e =>
    exfalso
    rw [convertXorcaToOrca_err, hn, e3'] at hc
    rw [redeemFor] at h'
    omega
  | ok w =>
    obtain ⟨_, _, hw⟩ := convertXorcaToOrca_ok hc
    rw [hn, e3'] at hw
    refine ⟨w, rfl, .ensure ?_ fun _ => .nil ?_⟩
    · rw [u64_ne_zero_iff, hw]
    refine .cpi cpiBurn_cpi fun L1 hL1 => ?_
    have fr := (splBurn_eff (cpiBurn_ok.1 hL1).2.2).frame
    have n1 : st.key ≠ xa.key := fun h => token_ne_program (by rw [← stp, h, xap])
    have n2 : st.key ≠ xm.key := fun h => token_ne_program (by rw [← stp, h, xmp])
    have hd : (L1 st.key).data = (L st.key).data := fr.data_other (by simp [n1, n2])
    refine .pass (assertStateData_ok.2 ⟨rfl, by rw [hd]; exact ⟨stl, std⟩⟩) ?_
    rw [hd]
    refine .step (fun h => okOr_eq_err.2 ⟨checkedAddU64_none.2 ?_, rfl⟩) fun h => ?_
    · rw [hw]; exact not_lt.1 h
    cases he : checkedAddU64 (stEscrow (L st.key).data) w with
    | none => rw [checkedAddU64_none, hw] at he; exact absurd h (not_lt.2 he)
    | some e =>
      refine ⟨e, rfl, .cpi signerPda_cpi fun _ _ => .cpi ?_ fun L3 _ => ?_⟩
      · intro e' h3
        by_contra hn
        have hp : e' = .panicked := by
          by_contra hp
          rw [createPendingWithdrawSecure_no (fun c hc => hn ⟨c, hc⟩) hp] at h3
          exact h3
        subst hp
        refine createPendingWithdrawSecure_no_panic ?_ h3
        rw [Ledger.setData_owner, fr.owner, pwp]
      · rw [Ledger.setData_same]
        have hcd : stCoolDown (setStEscrow (L st.key).data e) = readI64 (L st.key).data 16 := by
          change readI64 (writeAt (L st.key).data 8 (u64le e)) 16 = _
          rw [readI64_writeAt_apart (by simp; omega) (by simp [Apart])]
        rw [hcd]
        refine .step (fun h => okOr_eq_err.2 ⟨checkedAddI64_none.2 h, rfl⟩) fun h => ?_
        cases ht : checkedAddI64 x.now (readI64 (L st.key).data 16) with
        | none => exact absurd h (checkedAddI64_none.1 ht)
        | some t => exact ⟨t, rfl, .ok⟩

theorem processInitialize_tab {c : Int64} {p au st v xm om sp tp ap : Meta} {rest : List Meta} :
    Tab (processInitialize x L (p :: au :: st :: v :: xm :: om :: sp :: tp :: ap :: rest) c)
      (initializeChecks x L c p au st v xm om sp tp ap) (After []) := by
  unfold processInitialize initializeChecks
  iterate 9 rw [bind_ok_eq (getAccountInfo_ok.2 rfl)]
  refine .signs fun _ _ => .ensure Iff.rfl fun _ => .writable fun _ => .seeds fun b hb => .ensure ?_ fun _ => .ownedBy fun sts =>
    .ownedBy fun _ => .mint fun tm hm => ?_
  · simp
  obtain ⟨_, e1, e2, e3, e4, e5, e6⟩ := decoded_mint_fields hm
  rw [e1, e2, e3, e4, e5, e6]
  refine .isAt fun _ => .ensure ?_ fun _ => .isAt fun _ => .ensure Iff.rfl fun _ => .ensure Iff.rfl fun _ =>
    .ensure Iff.rfl fun _ => .ensure Iff.rfl fun _ => .ownedBy fun _ => .mint fun tom ho => .isAt fun hom => .ensure ?_ fun _ =>
    .signs fun _ _ => .isAt fun _ => .writable fun _ => .ownedBy fun _ => .isAt fun _ => .isAt fun _ => ?_
  · rw [u64_eq_zero_iff]; rfl
  · rw [(decoded_mint_fields ho).2.2.2.2.1]
  rw [hom]
  extract_lets seeds
  cases hv : findProgramAddress x.cr (vaultSeedsRaw st.key SPL_TOKEN_PROGRAM_ID ORCA_MINT_ID)
      ASSOCIATED_TOKEN_PROGRAM_ID with
  | none => 
    refine .cons (fun _ => rfl) fun ⟨k, b, h⟩ => ?_
    rw [show findProgramAddress x.cr (vaultSeedsRaw st.key SPL_TOKEN_PROGRAM_ID ORCA_MINT_ID)
      ASSOCIATED_TOKEN_PROGRAM_ID = some (k, b) from h] at hv
    cases hv
  | some kb =>
    change Tab (assertAccountSeeds x.cr v ASSOCIATED_TOKEN_PROGRAM_ID
      (vaultSeedsRaw st.key SPL_TOKEN_PROGRAM_ID ORCA_MINT_ID) >>= _) _ _
    refine .seeds fun vb hvb => .ensure (not_lt) fun _ => .nil (.cpi signerPda_cpi fun _ _ => .cpi ?_ fun L1 h1 => ?_)
    · intro e he
      unfold createStateBorsh at he
      rw [bind_eq_err] at he
      rcases he with he | ⟨L1, h1, he⟩
      · exact createAccountSecure_cpi e he
      · exfalso
        rw [bind_eq_err] at he
        rcases he with he | ⟨_, _, he⟩
        · rw [ensure_eq_err, createAccountSecure_data sts h1] at he
          exact he.1 (le_of_eq (State.serialize_length List.length_replicate List.length_replicate))
        · cases he
    · refine .cpi ?_ fun _ _ => .ok
      intro e he
      rcases cpiCreateAtaIdempotent_err he with h | ⟨_, h⟩
      · exact h
      · rw [hvb] at h; cases h

theorem Spec.FirstFails.mem {l : List Check} {e : Err} (h : FirstFails l e) : e ∈ l.map Prod.snd := by
  induction h with
  | here h => exact List.mem_cons_self ..
  | there _ _ ih => exact List.mem_cons_of_mem _ ih

theorem Spec.FirstFails.unique {l : List Check} {e e' : Err} (h : FirstFails l e) (h' : FirstFails l e') : e = e' := by
  induction h with
  | here h =>
    cases h' with
    | here _ => rfl
    | there k _ => exact absurd k h
  | there h _ ih =>
    cases h' with
    | here k => exact absurd h k
    | there _ k => exact ih k

theorem Spec.FirstFails.append_left {l l' : List Check} {e : Err} (h : FirstFails l e) : FirstFails (l ++ l') e := by
  induction h with
  | here h => exact .here h
  | there h _ ih => exact .there h ih

theorem Spec.FirstFails.append_right {l l' : List Check} {e : Err} (h : AllHold l) (h' : FirstFails l' e) :
    FirstFails (l ++ l') e := by
  induction l with
  | nil => exact h'
  | cons c l ih => exact .there (h _ (List.mem_cons_self ..)) (ih fun d hd => h d (List.mem_cons_of_mem _ hd))

theorem checks_few {ix : Instruction} (h : accs.length < accountsNeeded ix) :
    checks x L ix accs = [(False, .custom .NotEnoughAccountKeys)] := by
  cases ix <;> simp only [accountsNeeded] at h <;>
    rcases accs with _ | ⟨_, _ | ⟨_, _ | ⟨_, _ | ⟨_, _ | ⟨_, _ | ⟨_, _ | ⟨_, _ | ⟨_, _ | ⟨_, _⟩⟩⟩⟩⟩⟩⟩⟩⟩ <;>
    first | rfl | (simp only [List.length_cons] at h; omega)

theorem exists_cons_of_length {n : Nat} (h : n + 1 ≤ accs.length) :
    ∃ m rest, accs = m :: rest ∧ n ≤ rest.length := by
  cases accs with
  | nil => simp at h
  | cons m rest => exact ⟨m, rest, rfl, by simpa using h⟩

theorem dispatch_tab {ix : Instruction} :
    Tab (dispatch x L accs ix) (checks x L ix accs) (After (lateChecks x L ix accs)) := by
  rcases lt_or_ge accs.length (accountsNeeded ix) with h | h
  · rw [few_accounts ix h, checks_few h]
    exact .cons (fun _ => rfl) fun k => k.elim
  · cases ix with
    | Stake a =>
      iterate 8 (replace h := exists_cons_of_length h; obtain ⟨_, _, rfl, h⟩ := h)
      exact processStake_tab
    | Unstake a i =>
      iterate 9 (replace h := exists_cons_of_length h; obtain ⟨_, _, rfl, h⟩ := h)
      exact processUnstake_tab
    | Withdraw i =>
      iterate 8 (replace h := exists_cons_of_length h; obtain ⟨_, _, rfl, h⟩ := h)
      exact processWithdraw_tab
    | Initialize c =>
      iterate 9 (replace h := exists_cons_of_length h; obtain ⟨_, _, rfl, h⟩ := h)
      exact processInitialize_tab
    | Set d =>
      iterate 2 (replace h := exists_cons_of_length h; obtain ⟨_, _, rfl, h⟩ := h)
      exact processSet_tab

end Xorca
