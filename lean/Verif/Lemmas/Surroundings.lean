import Verif.Lemmas.Set
import Verif.Surroundings
import Verif.Lemmas.Runtime
import Verif.Lemmas.Exec
/-
Calls in two surroundings that agree on what the call looks at.
-/
namespace Xorca
open Spec

variable {x x' : Ctx} {cr cr' : Crypto} {L : Ledger} {accs : List Meta}

theorem bind_same {α β : Type} {p q : Res α} {f g : α → Res β} (h : p = q) (hf : ∀ a, q = .ok a → f a = g a) :
    (p >>= f) = (q >>= g) := by
  subst h
  cases p with
  | error e => rfl
  | ok a => exact hf a rfl

theorem sameOn_mono {S T S' T' : List Bytes} (h : SameOn cr cr' S T) (h1 : ∀ s ∈ S', s ∈ S) (h2 : ∀ s ∈ T', s ∈ T) :
    SameOn cr cr' S' T' := ⟨fun s hs => h.hash s (h1 s hs), fun s hs => h.curve s (h2 s hs)⟩

theorem derive_same {seeds : List Bytes} {b : UInt8} {p : Pubkey}
    (h : SameOn cr cr' [seeds.flatten ++ [b] ++ p.bytes ++ PDA_MARKER] []) :
    deriveAddress cr' seeds b p = deriveAddress cr seeds b p := h.hash _ (by simp)

theorem create_same {seeds : List Bytes} {b : UInt8} {p : Pubkey}
    (h : SameOn cr cr' [seeds.flatten ++ [b] ++ p.bytes ++ PDA_MARKER]
      [seeds.flatten ++ [b] ++ p.bytes ++ PDA_MARKER]) :
    createProgramAddress cr' seeds b p = createProgramAddress cr seeds b p := by
  unfold createProgramAddress
  rw [derive_same (sameOn_mono h (by simp) (by simp))]
  have := h.curve _ (List.mem_singleton.2 rfl)
  unfold deriveAddress
  dsimp only
  rw [this]

theorem findFrom_same {seeds : List Bytes} {p k : Pubkey} {b : UInt8} {n : Nat} (hn : n ≤ 255)
    (hf : findFrom cr seeds p n = some (k, b))
    (h : ∀ c : UInt8, b.toNat ≤ c.toNat → SameOn cr cr' [seeds.flatten ++ [c] ++ p.bytes ++ PDA_MARKER]
      [seeds.flatten ++ [c] ++ p.bytes ++ PDA_MARKER]) :
    findFrom cr' seeds p n = findFrom cr seeds p n := by
  induction n with
  | zero => rfl
  | succ n ih =>
    have hb : b.toNat ≤ n + 1 := by
      clear ih h
      have : ∀ n, n ≤ 255 → findFrom cr seeds p n = some (k, b) → b.toNat ≤ n := by
        intro n
        induction n with
        | zero => intro _ h; simp [findFrom] at h
        | succ n ih =>
          intro hn h
          unfold findFrom at h
          split at h
          · simp only [Option.some.injEq, Prod.mk.injEq] at h
            rw [← h.2, UInt8.toNat_ofNat_of_lt' (by change _ < 256; omega)]
          · exact Nat.le_succ_of_le (ih (by omega) h)
      exact this _ hn hf
    have hc : (UInt8.ofNat (n + 1)).toNat = n + 1 := UInt8.toNat_ofNat_of_lt' (by change _ < 256; omega)
    have e := create_same (h (UInt8.ofNat (n + 1)) (by omega))
    unfold findFrom at hf ⊢
    rw [e]
    cases hq : createProgramAddress cr seeds (UInt8.ofNat (n + 1)) p with
    | some q => rfl
    | none => rw [hq] at hf; exact ih (by omega) hf

theorem mem_tried {f : UInt8 → Bytes} {b c : UInt8} (h : b.toNat ≤ c.toNat) : f c ∈ tried f b := by
  have := c.toNat_lt
  refine List.mem_map.2 ⟨255 - c.toNat, List.mem_range.2 (by omega), ?_⟩
  rw [show 255 - (255 - c.toNat) = c.toNat by omega, UInt8.ofNat_toNat]

theorem single_tried {f : UInt8 → Bytes} {b c : UInt8} (h : b.toNat ≤ c.toNat) : ∀ s ∈ [f c], s ∈ tried f b := by
  intro s hs; rw [List.mem_singleton.1 hs]; exact mem_tried h

theorem hashed_state {c : UInt8} : stateSeedsRaw.flatten ++ [c] ++ PROGRAM_ID.bytes ++ PDA_MARKER = stateHashed c := rfl

theorem hashed_record {u : Pubkey} {i c : UInt8} :
    (pendingWithdrawSeedsRaw u [i]).flatten ++ [c] ++ PROGRAM_ID.bytes ++ PDA_MARKER = recordHashed u i c := by
  simp [pendingWithdrawSeedsRaw, recordHashed, SEED_PENDING_WITHDRAW, PDA_MARKER, pdaMarker]

theorem hashed_vault {st : Pubkey} {c : UInt8} :
    (vaultSeedsRaw st SPL_TOKEN_PROGRAM_ID ORCA_MINT_ID).flatten ++ [c] ++ ASSOCIATED_TOKEN_PROGRAM_ID.bytes ++
      PDA_MARKER = vaultHashed st c := by
  simp [vaultSeedsRaw, vaultHashed, PDA_MARKER, pdaMarker]

theorem find_state_same {k : Pubkey} {b : UInt8} (hf : StateAddr cr k b) (h : SameOn cr cr' (tried stateHashed b) (tried stateHashed b)) :
    findProgramAddress cr' stateSeedsRaw PROGRAM_ID = findProgramAddress cr stateSeedsRaw PROGRAM_ID :=
  findFrom_same (Nat.le_refl _) hf fun c hc => by
    rw [hashed_state]; exact sameOn_mono h (single_tried hc) (single_tried hc)

theorem find_record_same {u k : Pubkey} {i b : UInt8} (hf : RecordAddr cr u i k b)
    (h : SameOn cr cr' (tried (recordHashed u i) b) (tried (recordHashed u i) b)) :
    findProgramAddress cr' (pendingWithdrawSeedsRaw u [i]) PROGRAM_ID =
      findProgramAddress cr (pendingWithdrawSeedsRaw u [i]) PROGRAM_ID :=
  findFrom_same (Nat.le_refl _) hf fun c hc => by
    rw [hashed_record]; exact sameOn_mono h (single_tried hc) (single_tried hc)

theorem find_vault_same {st k : Pubkey} {b : UInt8} (hf : VaultAddr cr st k b)
    (h : SameOn cr cr' (tried (vaultHashed st) b) (tried (vaultHashed st) b)) :
    findProgramAddress cr' (vaultSeedsRaw st SPL_TOKEN_PROGRAM_ID ORCA_MINT_ID) ASSOCIATED_TOKEN_PROGRAM_ID =
      findProgramAddress cr (vaultSeedsRaw st SPL_TOKEN_PROGRAM_ID ORCA_MINT_ID) ASSOCIATED_TOKEN_PROGRAM_ID :=
  findFrom_same (Nat.le_refl _) hf fun c hc => by
    rw [hashed_vault]; exact sameOn_mono h (single_tried hc) (single_tried hc)

theorem verifyState_same {m : Meta} {b : UInt8} (h : SameOn cr cr' [stateHashed b] []) :
    verifyStateAddress cr' m b = verifyStateAddress cr m b := by
  unfold verifyStateAddress; rw [derive_same (by rw [hashed_state]; exact h)]

theorem verifyVault_same {st v om : Meta} {b : UInt8} (ho : om.key = ORCA_MINT_ID)
    (h : SameOn cr cr' [vaultHashed st.key b] []) : verifyVaultAddress cr' st v om b = verifyVaultAddress cr st v om b := by
  unfold verifyVaultAddress; rw [ho, derive_same (by rw [hashed_vault]; exact h)]

theorem verifyRecord_same {m : Meta} {u : Pubkey} {i b : UInt8} (h : SameOn cr cr' [recordHashed u i b] []) :
    verifyPendingWithdrawAddress cr' m u [i] b = verifyPendingWithdrawAddress cr m u [i] b := by
  unfold verifyPendingWithdrawAddress; rw [derive_same (by rw [hashed_record]; exact h)]

theorem signerState_same {b : UInt8} (h : SameOn cr cr' [stateHashed b] [stateHashed b]) :
    signerPda cr' stateSeedsRaw b = signerPda cr stateSeedsRaw b := by
  unfold signerPda; rw [create_same (by rw [hashed_state]; exact h)]

theorem signerRecord_same {u : Pubkey} {i b : UInt8} (h : SameOn cr cr' [recordHashed u i b] [recordHashed u i b]) :
    signerPda cr' (pendingWithdrawSeedsRaw u [i]) b = signerPda cr (pendingWithdrawSeedsRaw u [i]) b := by
  unfold signerPda; rw [create_same (by rw [hashed_record]; exact h)]

theorem seeds_same {m : Meta} {p : Pubkey} {seeds : List Bytes}
    (h : findProgramAddress cr' seeds p = findProgramAddress cr seeds p) :
    assertAccountSeeds cr' m p seeds = assertAccountSeeds cr m p seeds := by
  unfold assertAccountSeeds; rw [h]

theorem createSecure_same {c : Caller} {f k o : Pubkey} {n : Nat} (h : x'.rentMin n = x.rentMin n) :
    createAccountSecure x' c L f k n o = createAccountSecure x c L f k n o := by
  unfold createAccountSecure; rw [h]

/-! ### The instructions -/

theorem stateBump_of {m : Meta} {d : Bytes} (h : assertStateData L m = .ok d) :
    stBump d = readU8 (L m.key).data 6 ∧ stVaultBump d = readU8 (L m.key).data 7 := by
  rw [assertStateData_ok] at h; rw [h.1]; exact ⟨rfl, rfl⟩

theorem stake_same {n : UInt64} {st : Meta} (h5 : accs[5]? = some st) (h : SameOn x.cr x'.cr (stakeHashes L st.key)
      [stateHashed (readU8 (L st.key).data 6)]) :
    processStake x' L accs n = processStake x L accs n := by
  have k1 : SameOn x.cr x'.cr [stateHashed (readU8 (L st.key).data 6)]
      [stateHashed (readU8 (L st.key).data 6)] := sameOn_mono h (by simp [stakeHashes]) (by simp)
  have k0 := sameOn_mono k1 (fun _ h => h) (S' := [stateHashed (readU8 (L st.key).data 6)]) (T' := []) (by simp)
  have k2 : SameOn x.cr x'.cr [vaultHashed st.key (readU8 (L st.key).data 7)] [] := sameOn_mono h (by simp [stakeHashes]) (by simp)
  unfold processStake
  refine bind_same rfl fun s h0 => bind_same rfl fun v h1 => bind_same rfl fun oa h2 => bind_same rfl fun xa h3 =>
    bind_same rfl fun xm h4 => bind_same rfl fun sta hst => bind_same rfl fun om h6 => bind_same rfl fun tp h7 =>
    bind_same rfl fun _ _ => bind_same rfl fun _ ho => bind_same rfl fun _ _ => bind_same rfl fun _ _ =>
    bind_same rfl fun _ _ => bind_same rfl fun _ _ => bind_same rfl fun _ _ => bind_same rfl fun _ _ =>
    bind_same rfl fun _ _ => bind_same rfl fun _ _ => bind_same rfl fun _ _ => bind_same rfl fun _ _ =>
    bind_same rfl fun d hd => ?_
  rw [getAccountInfo_ok, h5, Option.some.injEq] at hst
  subst hst
  rw [assertAccountAddress_ok] at ho
  obtain ⟨e1, e2⟩ := stateBump_of hd
  refine bind_same (by rw [e1]; exact verifyState_same k0) fun _ _ =>
    bind_same (by rw [e2]; exact verifyVault_same ho k2) fun _ _ => bind_same rfl fun _ _ => bind_same rfl fun _ _ =>
    bind_same rfl fun _ _ => bind_same rfl fun _ _ => bind_same rfl fun _ _ =>
    bind_same (by rw [e1]; exact signerState_same k1) fun _ _ => bind_same rfl fun _ _ => rfl

theorem unstake_same {n : UInt64} {i b : UInt8} {u st : Meta} {k : Pubkey} (h0 : accs[0]? = some u) (h1 : accs[1]? = some st)
    (hf : RecordAddr x.cr u.key i k b) (h : SameOn x.cr x'.cr (unstakeHashes L st.key u.key i b) (tried (recordHashed u.key i) b))
    (hnow : x'.now = x.now) (hrent : x'.rentMin 1024 = x.rentMin 1024) :
    processUnstake x' L accs n i = processUnstake x L accs n i := by
  have k0 : SameOn x.cr x'.cr [stateHashed (readU8 (L st.key).data 6)] [] := sameOn_mono h (by simp [unstakeHashes]) (by simp)
  have k2 : SameOn x.cr x'.cr [vaultHashed st.key (readU8 (L st.key).data 7)] [] := sameOn_mono h (by simp [unstakeHashes]) (by simp)
  have k3 : SameOn x.cr x'.cr (tried (recordHashed u.key i) b) (tried (recordHashed u.key i) b) :=
    sameOn_mono h (fun s hs => List.mem_append_left _ hs) fun _ h => h
  have k4 : SameOn x.cr x'.cr [recordHashed u.key i b] [recordHashed u.key i b] :=
    sameOn_mono k3 (single_tried (Nat.le_refl _)) (single_tried (Nat.le_refl _))
  unfold processUnstake
  refine bind_same rfl fun u' hu => bind_same rfl fun sta hst => bind_same rfl fun pw h2 => bind_same rfl fun xa h3 =>
    bind_same rfl fun xm h4 => bind_same rfl fun om h6 => bind_same rfl fun v h5 => bind_same rfl fun sp h7 =>
    bind_same rfl fun tp h8 =>
    bind_same rfl fun _ _ => bind_same rfl fun _ _ => bind_same rfl fun _ ho => bind_same rfl fun _ _ =>
    bind_same rfl fun _ _ => bind_same rfl fun _ _ => bind_same rfl fun _ _ => bind_same rfl fun _ _ =>
    bind_same rfl fun _ _ => bind_same rfl fun _ _ => ?_
  rw [getAccountInfo_ok, h0, Option.some.injEq] at hu
  rw [getAccountInfo_ok, h1, Option.some.injEq] at hst
  subst hu hst
  rw [assertAccountAddress_ok] at ho
  dsimp only
  refine bind_same (seeds_same (find_record_same hf k3)) fun b' hb => ?_
  obtain rfl : b = b' := by
    rw [assertAccountSeeds_ok] at hb
    have := hf.symm.trans hb
    simp only [Option.some.injEq, Prod.mk.injEq] at this
    exact this.2
  refine bind_same rfl fun _ _ => bind_same rfl fun _ _ => bind_same rfl fun _ _ => bind_same rfl fun _ _ =>
    bind_same rfl fun _ _ => bind_same rfl fun _ _ => bind_same rfl fun _ _ => bind_same rfl fun _ _ =>
    bind_same rfl fun _ _ => bind_same rfl fun d hd => ?_
  obtain ⟨e1, e2⟩ := stateBump_of hd
  refine bind_same (by rw [e1]; exact verifyState_same k0) fun _ _ =>
    bind_same (by rw [e2]; exact verifyVault_same ho k2) fun _ _ => bind_same rfl fun _ _ => bind_same rfl fun _ _ =>
    bind_same rfl fun _ _ => bind_same rfl fun _ _ => bind_same rfl fun _ _ => bind_same rfl fun _ _ =>
    bind_same (signerRecord_same k4) fun _ _ => bind_same ?_ fun _ _ => bind_same (by rw [hnow]) fun _ _ => rfl
  unfold createPendingWithdrawSecure
  rw [createSecure_same (n := PENDING_WITHDRAW_LEN) hrent]

theorem withdraw_same {i : UInt8} {u st pw : Meta} (h0 : accs[0]? = some u) (h1 : accs[1]? = some st)
    (h2 : accs[2]? = some pw) (h : SameOn x.cr x'.cr (withdrawHashes L st.key u.key pw.key i)
      [stateHashed (readU8 (L st.key).data 6)])
    (hnow : recTime L pw.key ≤ x'.now.toInt ↔ recTime L pw.key ≤ x.now.toInt) :
    processWithdraw x' L accs i = processWithdraw x L accs i := by
  have k1 : SameOn x.cr x'.cr [stateHashed (readU8 (L st.key).data 6)]
      [stateHashed (readU8 (L st.key).data 6)] := sameOn_mono h (by simp [withdrawHashes]) (by simp)
  have k0 := sameOn_mono k1 (fun _ h => h) (S' := [stateHashed (readU8 (L st.key).data 6)]) (T' := []) (by simp)
  have k2 : SameOn x.cr x'.cr [vaultHashed st.key (readU8 (L st.key).data 7)] [] := sameOn_mono h (by simp [withdrawHashes]) (by simp)
  have k3 : SameOn x.cr x'.cr [recordHashed u.key i (readU8 (L pw.key).data 6)] [] :=
    sameOn_mono h (by simp [withdrawHashes]) (by simp)
  unfold processWithdraw
  refine bind_same rfl fun u' hu => bind_same rfl fun sta hst => bind_same rfl fun pw' hpw => bind_same rfl fun oa h3 =>
    bind_same rfl fun v h5 => bind_same rfl fun om h6 => bind_same rfl fun sp h7 => bind_same rfl fun tp h8 =>
    bind_same rfl fun _ _ => bind_same rfl fun _ ho => bind_same rfl fun _ _ => bind_same rfl fun _ _ =>
    bind_same rfl fun _ _ => bind_same rfl fun d hd => ?_
  rw [getAccountInfo_ok, h0, Option.some.injEq] at hu
  rw [getAccountInfo_ok, h1, Option.some.injEq] at hst
  rw [getAccountInfo_ok, h2, Option.some.injEq] at hpw
  subst hu hst hpw
  rw [assertAccountAddress_ok] at ho
  obtain ⟨e1, e2⟩ := stateBump_of hd
  refine bind_same (by rw [e1]; exact verifyState_same k0) fun _ _ =>
    bind_same (by rw [e2]; exact verifyVault_same ho k2) fun _ _ => bind_same rfl fun _ _ => bind_same rfl fun _ _ =>
    bind_same rfl fun p hp => ?_
  rw [assertPendingWithdrawData_ok] at hp
  have e3 : pwBump p = readU8 (L pw.key).data 6 := by rw [hp.1]; rfl
  have e4 : (¬ x'.now.toInt < (pwTimestamp p).toInt) ↔ ¬ x.now.toInt < (pwTimestamp p).toInt := by
    have : (pwTimestamp p).toInt = recTime L pw.key := by rw [hp.1]; rfl
    rw [this]; omega
  refine bind_same (by rw [e3]; exact verifyRecord_same k3) fun _ _ => bind_same rfl fun _ _ => bind_same rfl fun _ _ =>
    bind_same rfl fun _ _ => bind_same rfl fun _ _ => bind_same (by unfold ensure; simp only [e4]) fun _ _ =>
    bind_same rfl fun _ _ => bind_same (by rw [e1]; exact signerState_same k1) fun _ _ => bind_same rfl fun _ _ =>
    bind_same rfl fun _ _ => bind_same rfl fun _ _ => bind_same rfl fun _ _ => rfl

theorem set_same {ins : StateUpdateInstruction} {st : Meta} (h1 : accs[1]? = some st)
    (h : SameOn x.cr x'.cr (setHashes L st.key) []) : processSet x' L accs ins = processSet x L accs ins := by
  unfold processSet
  refine bind_same rfl fun au h0 => bind_same rfl fun sta hst => bind_same rfl fun _ _ => bind_same rfl fun _ _ =>
    bind_same rfl fun _ _ => bind_same rfl fun d hd => ?_
  rw [getAccountInfo_ok, h1, Option.some.injEq] at hst
  subst hst
  refine bind_same (by rw [(stateBump_of hd).1]; exact verifyState_same h) fun _ _ => bind_same rfl fun _ _ => rfl

theorem initialize_same {c : Int64} {st : Meta} {k v : Pubkey} {b vb : UInt8} (h2 : accs[2]? = some st)
    (hk : StateAddr x.cr k b) (hv : VaultAddr x.cr st.key v vb) (h : SameOn x.cr x'.cr (initHashes st.key b vb) (initHashes st.key b vb))
    (hr1 : x'.rentMin 2048 = x.rentMin 2048) (hr2 : x'.rentMin 165 = x.rentMin 165) :
    processInitialize x' L accs c = processInitialize x L accs c := by
  have k1 : SameOn x.cr x'.cr (tried stateHashed b) (tried stateHashed b) :=
    sameOn_mono h (fun s hs => List.mem_append_left _ hs) (fun s hs => List.mem_append_left _ hs)
  have k2 : SameOn x.cr x'.cr (tried (vaultHashed st.key) vb) (tried (vaultHashed st.key) vb) :=
    sameOn_mono h (fun s hs => List.mem_append_right _ hs) (fun s hs => List.mem_append_right _ hs)
  have k3 : SameOn x.cr x'.cr [stateHashed b] [stateHashed b] :=
    sameOn_mono k1 (single_tried (Nat.le_refl _)) (single_tried (Nat.le_refl _))
  unfold processInitialize
  refine bind_same rfl fun p h0 => bind_same rfl fun au h1 => bind_same rfl fun sta hst => bind_same rfl fun va h3 =>
    bind_same rfl fun xm h4 => bind_same rfl fun om h5 => bind_same rfl fun sp h6 => bind_same rfl fun tp h7 =>
    bind_same rfl fun ap h8 => bind_same rfl fun _ _ => bind_same rfl fun _ _ => bind_same rfl fun _ _ => ?_
  rw [getAccountInfo_ok, h2, Option.some.injEq] at hst
  subst hst
  refine bind_same (seeds_same (find_state_same hk k1)) fun b' hb => ?_
  obtain rfl : b = b' := by
    rw [assertAccountSeeds_ok] at hb
    have := hk.symm.trans hb
    simp only [Option.some.injEq, Prod.mk.injEq] at this
    exact this.2
  refine bind_same rfl fun _ _ => bind_same rfl fun _ _ => bind_same rfl fun _ _ => bind_same rfl fun _ _ =>
    bind_same rfl fun _ _ => bind_same rfl fun _ _ => bind_same rfl fun _ _ => bind_same rfl fun _ _ =>
    bind_same rfl fun _ _ => bind_same rfl fun _ _ => bind_same rfl fun _ _ => bind_same rfl fun _ _ =>
    bind_same rfl fun _ _ => bind_same rfl fun _ ho => bind_same rfl fun _ _ => bind_same rfl fun _ _ =>
    bind_same rfl fun _ _ => bind_same rfl fun _ _ => bind_same rfl fun _ _ => bind_same rfl fun _ _ =>
    bind_same rfl fun _ _ => ?_
  rw [assertAccountAddress_ok] at ho
  dsimp only
  rw [ho]
  have ef := find_vault_same hv k2
  refine bind_same (by rw [ef]) fun q _ => ?_
  obtain ⟨_, vbump⟩ := q
  dsimp only
  refine bind_same (seeds_same ef) fun _ _ => bind_same rfl fun _ _ => bind_same (signerState_same k3) fun _ _ => ?_
  refine bind_same ?_ fun L1 _ => bind_same ?_ fun _ _ => rfl
  · unfold createStateBorsh
    rw [createSecure_same (n := STATE_LEN) hr1]
  · unfold cpiCreateAtaIdempotent
    refine bind_same rfl fun _ _ => bind_same rfl fun _ _ => bind_same (by rw [ef]) fun _ _ => ?_
    have e : ∀ M f a, ataCreatePda x' M f a = ataCreatePda x M f a := by
      intro M f a
      unfold ataCreatePda
      rw [show x'.rentMin TOKEN_ACCOUNT_LEN = x.rentMin TOKEN_ACCOUNT_LEN from hr2]
    simp only [e]

/-- The state address checked by a successful Set. -/
theorem set_addr {x : Ctx} {L L' : Ledger} {au st : Meta} {rest : List Meta} {ins : StateUpdateInstruction}
    {logs : List Bytes} (h : processSet x L (au :: st :: rest) ins = .ok (L', logs)) :
    st.key = x.cr.sha256 (stateHashed (readU8 (L st.key).data 6)) := by
  have hr : ∃ a st1, SetRun x L (au :: st :: rest) a st1 := by
    cases ins with
    | UpdateCoolDownPeriod c =>
      obtain ⟨a, st1, r, -⟩ := processSet_coolDown_run h
      exact ⟨a, st1, r⟩
    | UpdateUpdateAuthority k =>
      obtain ⟨a, st1, r, -⟩ := processSet_authority_run h
      exact ⟨a, st1, r⟩
  obtain ⟨a, st1, r⟩ := hr
  obtain ⟨rs, hr⟩ := r.accs_eq
  simp only [List.cons.injEq] at hr
  obtain ⟨rfl, rfl, rfl⟩ := hr
  exact r.st_addr

end Xorca
