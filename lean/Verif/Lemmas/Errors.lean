import Verif.Lemmas.Exec
/-
Which errors the parts of the program can return.
-/
namespace Xorca
open Spec

theorem assertAccountRole_SW_err {m : Meta} {e : Err} :
    assertAccountRole m [.Signer, .Writable] = .error e ↔
      ¬ (m.isSigner = true ∧ m.isWritable = true) ∧ e = .custom .InvalidAccountRole := by
  rcases m with ⟨k, s, w⟩
  cases s <;> cases w <;> simp [assertAccountRole, eq_comm]

theorem assertAccountRole_W_err {m : Meta} {e : Err} :
    assertAccountRole m [.Writable] = .error e ↔
      ¬ m.isWritable = true ∧ e = .custom .InvalidAccountRole := by
  rcases m with ⟨k, s, w⟩
  cases s <;> cases w <;> simp [assertAccountRole, eq_comm]

theorem assertAccountOwner_err {L : Ledger} {m : Meta} {o : Pubkey} {e : Err} :
    assertAccountOwner L m o = .error e ↔ ¬ (L m.key).owner = o ∧ .custom .IncorrectOwner = e := ensure_eq_err

theorem assertAccountAddress_err {m : Meta} {o : Pubkey} {e : Err} :
    assertAccountAddress m o = .error e ↔ ¬ m.key = o ∧ .custom .IncorrectAccountAddress = e := ensure_eq_err

theorem assertAccountSeeds_err {cr : Crypto} {m : Meta} {p : Pubkey} {seeds : List Bytes} {e : Err} :
    assertAccountSeeds cr m p seeds = .error e ↔
      (findProgramAddress cr seeds p = none ∧ .panicked = e) ∨
      (∃ k b, findProgramAddress cr seeds p = some (k, b) ∧ ¬ m.key = k ∧ .custom .InvalidSeeds = e) := by
  unfold assertAccountSeeds
  simp only [bind_eq_err, okOr_eq_err, okOr_eq_ok, ensure_eq_err, ensure_eq_ok, exists_unit, Prod.exists,
    reduceCtorEq, and_false, or_false]

theorem assertStateData_err {L : Ledger} {m : Meta} {e : Err} :
    assertStateData L m = .error e ↔
      ¬ (2048 ≤ (L m.key).data.length ∧ readU8 (L m.key).data 0 = 1) ∧ e = .custom .InvalidAccountData := by
  constructor
  · intro h
    refine ⟨?_, ?_⟩
    · rintro ⟨h1, h2⟩
      rw [assertStateData_ok.2 ⟨rfl, h1, h2⟩] at h
      cases h
    · unfold assertStateData assertAccountData assertAccountLen assertAccountDiscriminator at h
      simp only [bind_eq_err, exists_unit, reduceCtorEq, and_false, or_false] at h
      rcases h with h | ⟨_, h⟩
      · split at h
        · cases h; rfl
        · cases h
      · split at h
        · cases h; rfl
        · split at h
          · cases h
          · cases h; rfl
  · rintro ⟨h1, rfl⟩
    unfold assertStateData assertAccountData assertAccountLen assertAccountDiscriminator
    by_cases hl : (L m.key).data.length < STATE_LEN
    · rw [if_pos hl]; rfl
    · rw [if_neg hl]
      change ¬ _ < 2048 at hl
      have h2 : ¬ readU8 (L m.key).data 0 = 1 := fun h => h1 ⟨by omega, h⟩
      cases hd : (L m.key).data with
      | nil => rfl
      | cons c r =>
        rw [hd] at h2
        simp only [readU8, List.getD_cons_zero] at h2
        have : ¬ AccountDiscriminator.State.toU8 = c := fun h => h2 h.symm
        simp only [if_neg this]
        rfl

theorem assertPendingWithdrawData_err {L : Ledger} {m : Meta} {e : Err} :
    assertPendingWithdrawData L m = .error e ↔
      ¬ (1024 ≤ (L m.key).data.length ∧ readU8 (L m.key).data 0 = 2) ∧ e = .custom .InvalidAccountData := by
  constructor
  · intro h
    refine ⟨?_, ?_⟩
    · rintro ⟨h1, h2⟩
      rw [assertPendingWithdrawData_ok.2 ⟨rfl, h1, h2⟩] at h
      cases h
    · unfold assertPendingWithdrawData assertAccountData assertAccountLen assertAccountDiscriminator at h
      simp only [bind_eq_err, exists_unit, reduceCtorEq, and_false, or_false] at h
      rcases h with h | ⟨_, h⟩
      · split at h
        · cases h; rfl
        · cases h
      · split at h
        · cases h; rfl
        · split at h
          · cases h
          · cases h; rfl
  · rintro ⟨h1, rfl⟩
    unfold assertPendingWithdrawData assertAccountData assertAccountLen assertAccountDiscriminator
    by_cases hl : (L m.key).data.length < PENDING_WITHDRAW_LEN
    · rw [if_pos hl]; rfl
    · rw [if_neg hl]
      change ¬ _ < 1024 at hl
      have h2 : ¬ readU8 (L m.key).data 0 = 2 := fun h => h1 ⟨by omega, h⟩
      cases hd : (L m.key).data with
      | nil => rfl
      | cons c r =>
        rw [hd] at h2
        simp only [readU8, List.getD_cons_zero] at h2
        have : ¬ AccountDiscriminator.PendingWithdraw.toU8 = c := fun h => h2 h.symm
        simp only [if_neg this]
        rfl

theorem assertTokenMintData_err {L : Ledger} {m : Meta} {e : Err} :
    assertTokenMintData L m = .error e ↔
      decodeTokenMint (L m.key).data = none ∧ .custom .InvalidAccountData = e := okOr_eq_err

/-- `makeOwnerTokenAccountAssertions` only fails with these errors. -/
theorem makeOwnerTokenAccountAssertions_err {L : Ledger} {ta ow mi : Meta} {w : Bool} {e : Err}
    (h : makeOwnerTokenAccountAssertions L ta ow mi w = .error e) :
    e = .custom .InvalidAccountRole ∨ e = .custom .IncorrectOwner ∨ e = .custom .InvalidAccountData := by
  unfold makeOwnerTokenAccountAssertions at h
  cases w <;>
  simp only [Bool.false_eq_true, if_false, if_true, bind_eq_err,
    exists_unit, assertAccountRole_W_err, assertAccountOwner_err, assertTokenAccountData, okOr_eq_err,
    ensure_eq_err, reduceCtorEq, false_or, and_false, or_false] at h
  · rcases h.2 with h | ⟨_, h⟩
    · exact Or.inr (Or.inl h.2.symm)
    · rcases h with h | ⟨t, _, h⟩
      · exact Or.inr (Or.inr h.2.symm)
      · rcases h with h | ⟨_, h⟩
        · exact Or.inr (Or.inr h.2.symm)
        · exact Or.inr (Or.inr h.2.symm)
  · rcases h with h | ⟨_, h⟩
    · exact Or.inl h.2
    rcases h with h | ⟨_, h⟩
    · exact Or.inr (Or.inl h.2.symm)
    · rcases h with h | ⟨t, _, h⟩
      · exact Or.inr (Or.inr h.2.symm)
      · rcases h with h | ⟨_, h⟩
        · exact Or.inr (Or.inr h.2.symm)
        · exact Or.inr (Or.inr h.2.symm)

theorem makeOwner_no {L : Ledger} {ta ow mi : Meta} {w : Bool} {e : Err}
    (h1 : e ≠ .custom .InvalidAccountRole) (h2 : e ≠ .custom .IncorrectOwner)
    (h3 : e ≠ .custom .InvalidAccountData) :
    (makeOwnerTokenAccountAssertions L ta ow mi w = .error e) = False := by
  simp only [eq_iff_iff, iff_false]
  intro h
  rcases makeOwnerTokenAccountAssertions_err h with h | h | h <;> contradiction

theorem verifyStateAddress_err {cr : Crypto} {m : Meta} {b : UInt8} {e : Err} :
    verifyStateAddress cr m b = .error e ↔
      ¬ m.key = deriveAddress cr stateSeedsRaw b PROGRAM_ID ∧ .custom .InvalidSeeds = e := ensure_eq_err

theorem verifyVaultAddress_err {cr : Crypto} {s v o : Meta} {b : UInt8} {e : Err} :
    verifyVaultAddress cr s v o b = .error e ↔
      ¬ v.key = deriveAddress cr (vaultSeedsRaw s.key SPL_TOKEN_PROGRAM_ID o.key) b
        ASSOCIATED_TOKEN_PROGRAM_ID ∧ .custom .InvalidSeeds = e := ensure_eq_err

theorem verifyPendingWithdrawAddress_err {cr : Crypto} {m : Meta} {k : Pubkey} {i : Bytes} {b : UInt8}
    {e : Err} :
    verifyPendingWithdrawAddress cr m k i b = .error e ↔
      ¬ m.key = deriveAddress cr (pendingWithdrawSeedsRaw k i) b PROGRAM_ID ∧
        .custom .InvalidSeeds = e := ensure_eq_err

theorem signerPda_err {cr : Crypto} {seeds : List Bytes} {b : UInt8} {e : Err} :
    signerPda cr seeds b = .error e ↔
      cr.onCurve (deriveAddress cr seeds b PROGRAM_ID) = true ∧ .cpi .invalidSeeds = e := by
  unfold signerPda createProgramAddress
  rw [okOr_eq_err]
  cases h : cr.onCurve (deriveAddress cr seeds b PROGRAM_ID) <;> simp [h]

/-! ### Calls of other programs only fail with their own errors -/

/-- Every error is one of a called program. -/
def CpiOnly {α : Type} (r : Res α) : Prop := ∀ e, r = .error e → ∃ c, e = .cpi c

theorem CpiOnly.ok {α : Type} (a : α) : CpiOnly (.ok a : Res α) := by intro e h; cases h
theorem CpiOnly.ensure (c : Prop) [Decidable c] (k : CpiError) : CpiOnly (ensure c (.cpi k)) := by
  intro e h; rw [ensure_eq_err] at h; exact ⟨k, h.2.symm⟩
theorem CpiOnly.okOr {α : Type} (o : Option α) (k : CpiError) : CpiOnly (okOr o (.cpi k)) := by
  intro e h; rw [okOr_eq_err] at h; exact ⟨k, h.2.symm⟩
theorem CpiOnly.bind {α β : Type} {r : Res α} {f : α → Res β} (h1 : CpiOnly r) (h2 : ∀ a, CpiOnly (f a)) :
    CpiOnly (r >>= f) := by
  intro e h
  rw [bind_eq_err] at h
  rcases h with h | ⟨a, _, h⟩
  · exact h1 e h
  · exact h2 a e h
theorem CpiOnly.ite {α : Type} {c : Prop} [Decidable c] {r s : Res α} (h1 : CpiOnly r) (h2 : CpiOnly s) :
    CpiOnly (if c then r else s) := by split <;> assumption

theorem CpiOnly.no {α : Type} {r : Res α} (h : CpiOnly r) {e : Err} (he : ∀ c, e ≠ .cpi c) :
    (r = .error e) = False := by
  simp only [eq_iff_iff, iff_false]
  intro h'
  obtain ⟨c, hc⟩ := h e h'
  exact he c hc

/-- Closes `CpiOnly` goals by structure. -/
macro "cpi_only" : tactic => `(tactic| repeat' (first
  | with_reducible exact CpiOnly.ok _ | with_reducible exact CpiOnly.ensure _ _
  | with_reducible exact CpiOnly.okOr _ _ | with_reducible assumption
  | with_reducible refine CpiOnly.bind ?_ (fun _ => ?_) | with_reducible refine CpiOnly.ite ?_ ?_))

theorem systemTransfer_cpi {L : Ledger} {a b : Pubkey} {n : UInt64} : CpiOnly (systemTransfer L a b n) := by
  unfold systemTransfer; cpi_only
theorem systemAllocate_cpi {L : Ledger} {a : Pubkey} {n : Nat} : CpiOnly (systemAllocate L a n) := by
  unfold systemAllocate; cpi_only
theorem systemAssign_cpi {L : Ledger} {a b : Pubkey} : CpiOnly (systemAssign L a b) := by
  unfold systemAssign; cpi_only
theorem systemCreateAccount_cpi {L : Ledger} {a b o : Pubkey} {l : UInt64} {n : Nat} :
    CpiOnly (systemCreateAccount L a b l n o) := by
  unfold systemCreateAccount
  exact .bind (.ensure _ _) fun _ => .bind systemAllocate_cpi fun _ => .bind systemAssign_cpi fun _ =>
    systemTransfer_cpi
theorem unpackTokenAccount_cpi {d : Bytes} : CpiOnly (unpackTokenAccount d) := by
  unfold unpackTokenAccount; cpi_only
theorem unpackMint_cpi {d : Bytes} : CpiOnly (unpackMint d) := by
  unfold unpackMint; cpi_only
theorem validateOwner_cpi {L : Ledger} {a b : Pubkey} : CpiOnly (validateOwner L a b) := by
  unfold validateOwner; cpi_only
theorem authorizeDebit_cpi {L : Ledger} {t : TokenAccount} {d : Bytes} {a : Pubkey} {n : UInt64} {k : Bool} :
    CpiOnly (authorizeDebit L t d a n k) := by
  unfold authorizeDebit
  exact .ite (.bind validateOwner_cpi fun _ => .bind (.ensure _ _) fun _ => .ite (.ok _) (.ok _))
    (.bind validateOwner_cpi fun _ => .ok _)
theorem splTransfer_cpi {L : Ledger} {a b c : Pubkey} {n : UInt64} : CpiOnly (splTransfer L a b c n) := by
  unfold splTransfer
  exact .bind (.ensure _ _) fun _ => .bind unpackTokenAccount_cpi fun _ => .bind unpackTokenAccount_cpi fun _ =>
    .bind (.ensure _ _) fun _ => .bind (.ensure _ _) fun _ => .bind (.ensure _ _) fun _ =>
    .bind (.ensure _ _) fun _ => .bind authorizeDebit_cpi fun _ => .ite (.ok _)
      (.bind (.okOr _ _) fun _ => .bind (.okOr _ _) fun _ => .ok _)
theorem splMintTo_cpi {L : Ledger} {a b c : Pubkey} {n : UInt64} : CpiOnly (splMintTo L a b c n) := by
  unfold splMintTo
  exact .bind (.ensure _ _) fun _ => .bind unpackTokenAccount_cpi fun _ => .bind (.ensure _ _) fun _ =>
    .bind (.ensure _ _) fun _ => .bind (.ensure _ _) fun _ => .bind unpackMint_cpi fun _ =>
    .bind (.ensure _ _) fun _ => .bind validateOwner_cpi fun _ => .bind (.okOr _ _) fun _ =>
    .bind (.okOr _ _) fun _ => .ok _
theorem splBurn_cpi {L : Ledger} {a b c : Pubkey} {n : UInt64} : CpiOnly (splBurn L a b c n) := by
  unfold splBurn
  exact .bind (.ensure _ _) fun _ => .bind unpackTokenAccount_cpi fun _ => .bind unpackMint_cpi fun _ =>
    .bind (.ensure _ _) fun _ => .bind (.ensure _ _) fun _ => .bind (.ensure _ _) fun _ =>
    .bind (.ensure _ _) fun _ => .ite
      (.bind (.ok _) fun _ => .bind (.okOr _ _) fun _ => .bind (.okOr _ _) fun _ => .ok _)
      (.bind authorizeDebit_cpi fun _ => .bind (.okOr _ _) fun _ => .bind (.okOr _ _) fun _ => .ok _)

theorem cpiTokenTransfer_cpi {c : Caller} {L : Ledger} {a b k : Pubkey} {n : UInt64} :
    CpiOnly (cpiTokenTransfer c L a b k n) :=
  .bind (.ensure _ _) fun _ => .bind (.ensure _ _) fun _ => splTransfer_cpi
theorem cpiMintTo_cpi {c : Caller} {L : Ledger} {a b k : Pubkey} {n : UInt64} :
    CpiOnly (cpiMintTo c L a b k n) :=
  .bind (.ensure _ _) fun _ => .bind (.ensure _ _) fun _ => splMintTo_cpi
theorem cpiBurn_cpi {c : Caller} {L : Ledger} {a b k : Pubkey} {n : UInt64} :
    CpiOnly (cpiBurn c L a b k n) :=
  .bind (.ensure _ _) fun _ => .bind (.ensure _ _) fun _ => splBurn_cpi
theorem cpiCreateAccount_cpi {c : Caller} {L : Ledger} {a b o : Pubkey} {l : UInt64} {n : Nat} :
    CpiOnly (cpiCreateAccount c L a b l n o) :=
  .bind (.ensure _ _) fun _ => .bind (.ensure _ _) fun _ => systemCreateAccount_cpi
theorem cpiSystemTransfer_cpi {c : Caller} {L : Ledger} {a b : Pubkey} {l : UInt64} :
    CpiOnly (cpiSystemTransfer c L a b l) :=
  .bind (.ensure _ _) fun _ => .bind (.ensure _ _) fun _ => systemTransfer_cpi
theorem cpiAllocate_cpi {c : Caller} {L : Ledger} {a : Pubkey} {n : Nat} : CpiOnly (cpiAllocate c L a n) :=
  .bind (.ensure _ _) fun _ => .bind (.ensure _ _) fun _ => systemAllocate_cpi
theorem cpiAssign_cpi {c : Caller} {L : Ledger} {a b : Pubkey} : CpiOnly (cpiAssign c L a b) :=
  .bind (.ensure _ _) fun _ => .bind (.ensure _ _) fun _ => systemAssign_cpi
theorem createAccountSecure_cpi {x : Ctx} {c : Caller} {L : Ledger} {a b o : Pubkey} {n : Nat} :
    CpiOnly (createAccountSecure x c L a b n o) := by
  unfold createAccountSecure
  exact .ite (.ok _) (.ite cpiCreateAccount_cpi (.ite
    (.bind cpiSystemTransfer_cpi fun _ => .bind cpiAllocate_cpi fun _ => cpiAssign_cpi)
    (.bind (.ok _) fun _ => .bind cpiAllocate_cpi fun _ => cpiAssign_cpi)))

theorem cpiTransfer_no {c : Caller} {L : Ledger} {a b k : Pubkey} {n : UInt64} {e : Err} (he : ∀ c, e ≠ .cpi c) :
    (cpiTokenTransfer c L a b k n = .error e) = False := cpiTokenTransfer_cpi.no he
theorem cpiMintTo_no {c : Caller} {L : Ledger} {a b k : Pubkey} {n : UInt64} {e : Err} (he : ∀ c, e ≠ .cpi c) :
    (cpiMintTo c L a b k n = .error e) = False := cpiMintTo_cpi.no he
theorem cpiBurn_no {c : Caller} {L : Ledger} {a b k : Pubkey} {n : UInt64} {e : Err} (he : ∀ c, e ≠ .cpi c) :
    (cpiBurn c L a b k n = .error e) = False := cpiBurn_cpi.no he

end Xorca
