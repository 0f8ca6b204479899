import Verif.Assertions
import Verif.Lemmas.Codec
/-
Inversion lemmas for assertions and CPIs.
-/
namespace Xorca

/-! ### Ledger updates -/

@[simp] theorem Ledger.set_same (L : Ledger) (k : Pubkey) (a : Account) : (L.set k a) k = a := by
  simp [Ledger.set]
theorem Ledger.set_other (L : Ledger) {k k' : Pubkey} (a : Account) (h : k' ≠ k) : (L.set k a) k' = L k' := by
  simp [Ledger.set, h]
@[simp] theorem Ledger.setData_same (L : Ledger) (k : Pubkey) (d : Bytes) :
    (L.setData k d) k = { L k with data := d } := by simp [Ledger.setData]
theorem Ledger.setData_other (L : Ledger) {k k' : Pubkey} (d : Bytes) (h : k' ≠ k) :
    (L.setData k d) k' = L k' := by simp [Ledger.setData, Ledger.set, h]
@[simp] theorem Ledger.setData_owner (L : Ledger) (k k' : Pubkey) (d : Bytes) :
    ((L.setData k d) k').owner = (L k').owner := by
  simp only [Ledger.setData, Ledger.set]; split
  · next h => rw [h]
  · rfl
@[simp] theorem Ledger.setData_lamports (L : Ledger) (k k' : Pubkey) (d : Bytes) :
    ((L.setData k d) k').lamports = (L k').lamports := by
  simp only [Ledger.setData, Ledger.set]; split
  · next h => rw [h]
  · rfl
theorem Ledger.setData_data (L : Ledger) (k k' : Pubkey) (d : Bytes) :
    ((L.setData k d) k').data = if k' = k then d else (L k').data := by
  simp only [Ledger.setData, Ledger.set]; split <;> rfl
@[simp] theorem Ledger.setLamports_same (L : Ledger) (k : Pubkey) (v : UInt64) :
    (L.setLamports k v) k = { L k with lamports := v } := by simp [Ledger.setLamports]
theorem Ledger.setLamports_other (L : Ledger) {k k' : Pubkey} (v : UInt64) (h : k' ≠ k) :
    (L.setLamports k v) k' = L k' := by simp [Ledger.setLamports, Ledger.set, h]
@[simp] theorem Ledger.setLamports_owner (L : Ledger) (k k' : Pubkey) (v : UInt64) :
    ((L.setLamports k v) k').owner = (L k').owner := by
  simp only [Ledger.setLamports, Ledger.set]; split
  · next h => rw [h]
  · rfl
@[simp] theorem Ledger.setLamports_data (L : Ledger) (k k' : Pubkey) (v : UInt64) :
    ((L.setLamports k v) k').data = (L k').data := by
  simp only [Ledger.setLamports, Ledger.set]; split
  · next h => rw [h]
  · rfl
/-! ### Assertions -/

theorem getAccountInfo_ok {accounts : List Meta} {i : Nat} {m : Meta} :
    getAccountInfo accounts i = .ok m ↔ accounts[i]? = some m := by
  unfold getAccountInfo
  split
  · next h => simp [List.getElem?_eq_none h]
  · cases h : accounts[i]? <;> simp

theorem getAccountInfo_err {accounts : List Meta} {i : Nat} {e : Err} :
    getAccountInfo accounts i = .error e ↔ accounts.length ≤ i ∧ e = .custom .NotEnoughAccountKeys := by
  unfold getAccountInfo
  split
  · next h => simp [h, eq_comm]
  · next h =>
    cases h' : accounts[i]? with
    | some m => simp [h]
    | none => rw [List.getElem?_eq_none_iff] at h'; omega

theorem assertAccountRole_SW {m : Meta} {u : Unit} :
    assertAccountRole m [.Signer, .Writable] = .ok u ↔ m.isSigner = true ∧ m.isWritable = true := by
  rcases m with ⟨k, s, w⟩
  cases s <;> cases w <;> simp [assertAccountRole]

theorem assertAccountRole_W {m : Meta} {u : Unit} :
    assertAccountRole m [.Writable] = .ok u ↔ m.isWritable = true := by
  rcases m with ⟨k, s, w⟩
  cases s <;> cases w <;> simp [assertAccountRole]

theorem assertAccountOwner_ok {L : Ledger} {m : Meta} {o : Pubkey} {u : Unit} :
    assertAccountOwner L m o = .ok u ↔ (L m.key).owner = o := ensure_eq_ok

theorem assertAccountAddress_ok {m : Meta} {o : Pubkey} {u : Unit} :
    assertAccountAddress m o = .ok u ↔ m.key = o := ensure_eq_ok

theorem assertAccountSeeds_ok {cr : Crypto} {m : Meta} {p : Pubkey} {seeds : List Bytes} {b : UInt8} :
    assertAccountSeeds cr m p seeds = .ok b ↔ findProgramAddress cr seeds p = some (m.key, b) := by
  unfold assertAccountSeeds
  simp only [bind_eq_ok, okOr_eq_ok, ensure_eq_ok, exists_unit, Except.ok.injEq, Prod.exists]
  constructor
  · rintro ⟨a, b', h1, h2, h3⟩; rw [h1, h2, h3]
  · intro h; exact ⟨m.key, b, h, rfl, rfl⟩

theorem assertAccountData_ok {L : Ledger} {m : Meta} {n : Nat} {d : AccountDiscriminator} {b : Bytes}
    (hn : 0 < n) :
    assertAccountData L m n d = .ok b ↔
      b = (L m.key).data ∧ n ≤ b.length ∧ readU8 b 0 = d.toU8 := by
  unfold assertAccountData assertAccountLen assertAccountDiscriminator
  by_cases h : (L m.key).data.length < n
  · rw [if_pos h]
    simp only [bind, Except.bind]
    constructor
    · intro h; cases h
    · rintro ⟨rfl, h1, _⟩; omega
  · rw [if_neg h]
    cases hd : (L m.key).data with
    | nil => rw [hd] at h; simp at h; omega
    | cons c r =>
      rw [hd] at h
      simp only [bind, Except.bind]
      by_cases hc : d.toU8 = c
      · simp only [if_pos hc, Except.ok.injEq]
        constructor
        · rintro rfl; exact ⟨rfl, by simpa using h, by simp [readU8, hc]⟩
        · rintro ⟨h1, _⟩; exact h1.symm
      · simp only [if_neg hc]
        constructor
        · intro h; cases h
        · rintro ⟨rfl, _, h2⟩; simp [readU8] at h2; exact absurd h2.symm hc

theorem assertStateData_ok {L : Ledger} {m : Meta} {b : Bytes} :
    assertStateData L m = .ok b ↔ b = (L m.key).data ∧ 2048 ≤ b.length ∧ readU8 b 0 = 1 :=
  assertAccountData_ok (by decide)

theorem assertPendingWithdrawData_ok {L : Ledger} {m : Meta} {b : Bytes} :
    assertPendingWithdrawData L m = .ok b ↔ b = (L m.key).data ∧ 1024 ≤ b.length ∧ readU8 b 0 = 2 :=
  assertAccountData_ok (by decide)

theorem assertTokenMintData_ok {L : Ledger} {m : Meta} {t : TokenMint} :
    assertTokenMintData L m = .ok t ↔ decodeTokenMint (L m.key).data = some t := okOr_eq_ok

theorem makeOwnerTokenAccountAssertions_ok {L : Ledger} {ta ow mi : Meta} {w : Bool} {t : TokenAccount} :
    makeOwnerTokenAccountAssertions L ta ow mi w = .ok t ↔
      (w = true → ta.isWritable = true) ∧ (L ta.key).owner = SPL_TOKEN_PROGRAM_ID ∧
      decodeTokenAccount (L ta.key).data = some t ∧ t.owner = ow.key ∧ t.mint = mi.key := by
  unfold makeOwnerTokenAccountAssertions
  cases w <;>
  simp only [Bool.false_eq_true, if_false, if_true, false_implies, true_implies, true_and, bind_eq_ok,
    exists_unit, assertAccountRole_W, assertAccountOwner_ok, assertTokenAccountData, okOr_eq_ok,
    ensure_eq_ok, Except.ok.injEq]
  · constructor
    · rintro ⟨h2, t', h3, h4, h5, rfl⟩; exact ⟨h2, h3, h4, h5⟩
    · rintro ⟨h2, h3, h4, h5⟩; exact ⟨h2, t, h3, h4, h5, rfl⟩
  · constructor
    · rintro ⟨h1, h2, t', h3, h4, h5, rfl⟩; exact ⟨h1, h2, h3, h4, h5⟩
    · rintro ⟨h1, h2, h3, h4, h5⟩; exact ⟨h1, h2, t, h3, h4, h5, rfl⟩

theorem verifyStateAddress_ok {cr : Crypto} {m : Meta} {b : UInt8} {u : Unit} :
    verifyStateAddress cr m b = .ok u ↔ m.key = deriveAddress cr stateSeedsRaw b PROGRAM_ID := ensure_eq_ok

theorem verifyVaultAddress_ok {cr : Crypto} {s v o : Meta} {b : UInt8} {u : Unit} :
    verifyVaultAddress cr s v o b = .ok u ↔
      v.key = deriveAddress cr (vaultSeedsRaw s.key SPL_TOKEN_PROGRAM_ID o.key) b
        ASSOCIATED_TOKEN_PROGRAM_ID := ensure_eq_ok

theorem verifyPendingWithdrawAddress_ok {cr : Crypto} {m : Meta} {k : Pubkey} {i : Bytes} {b : UInt8}
    {u : Unit} :
    verifyPendingWithdrawAddress cr m k i b = .ok u ↔
      m.key = deriveAddress cr (pendingWithdrawSeedsRaw k i) b PROGRAM_ID := ensure_eq_ok

theorem signerPda_ok {cr : Crypto} {seeds : List Bytes} {b : UInt8} {k : Pubkey} :
    signerPda cr seeds b = .ok k ↔
      k = deriveAddress cr seeds b PROGRAM_ID ∧ cr.onCurve (deriveAddress cr seeds b PROGRAM_ID) = false := by
  unfold signerPda createProgramAddress
  rw [okOr_eq_ok]
  cases h : cr.onCurve (deriveAddress cr seeds b PROGRAM_ID) <;> simp [h, eq_comm]

/-! ### Address search -/

theorem findFrom_some {cr : Crypto} {seeds : List Bytes} {p k : Pubkey} {b : UInt8} {n : Nat}
    (h : findFrom cr seeds p n = some (k, b)) :
    k = deriveAddress cr seeds b p ∧ cr.onCurve k = false := by
  induction n with
  | zero => simp [findFrom] at h
  | succ n ih =>
    unfold findFrom at h
    split at h
    · next k' hk =>
      simp only [Option.some.injEq, Prod.mk.injEq] at h
      obtain ⟨rfl, rfl⟩ := h
      simp only [createProgramAddress] at hk
      split at hk
      · cases hk
      · next hc => cases hk; exact ⟨rfl, by simpa using hc⟩
    · exact ih h

theorem findProgramAddress_some {cr : Crypto} {seeds : List Bytes} {p k : Pubkey} {b : UInt8}
    (h : findProgramAddress cr seeds p = some (k, b)) :
    k = deriveAddress cr seeds b p ∧ cr.onCurve k = false := findFrom_some h

/-! ### Token data -/

/-- What a token operation may do to the data of one token account besides setting the amount to `v`. -/
structure AmountSet (d d' : Bytes) (v : UInt64) : Prop where
  len : d'.length = d.length
  amount : readU64 d' 64 = v
  head : slice d' 0 64 = slice d 0 64
  mid : slice d' 76 45 = slice d 76 45
  tail : slice d' 129 36 = slice d 129 36
  flag : readU32 d' 72 = readU32 d 72 ∨ readU32 d' 72 = 0

theorem slice_slice {d : Bytes} {o n p m : Nat} (h : p + m ≤ n) :
    slice (slice d o n) p m = slice d (o + p) m := by
  simp only [slice]
  apply List.ext_getElem?
  intro i
  simp only [List.getElem?_take, List.getElem?_drop]
  split
  · rw [if_pos (by omega), Nat.add_assoc]
  · rfl

theorem slice_eq_of_slice_eq {d d' : Bytes} {o n p m : Nat} (h : slice d' o n = slice d o n)
    (hp : o ≤ p) (hm : p + m ≤ o + n) : slice d' p m = slice d p m := by
  obtain ⟨q, rfl⟩ := Nat.le.dest hp
  rw [← slice_slice (n := n) (by omega), h, slice_slice (by omega)]

namespace AmountSet
variable {d d' : Bytes} {v : UInt64}

theorem mint (h : AmountSet d d' v) : readKey d' 0 = readKey d 0 := by
  unfold readKey; rw [slice_eq_of_slice_eq h.head (by omega) (by omega)]
theorem owner (h : AmountSet d d' v) : readKey d' 32 = readKey d 32 := by
  unfold readKey; rw [slice_eq_of_slice_eq h.head (by omega) (by omega)]
theorem state (h : AmountSet d d' v) : readU8 d' 108 = readU8 d 108 := by
  rw [readU8_eq_slice, readU8_eq_slice, slice_eq_of_slice_eq h.mid (by omega) (by omega)]
theorem native (h : AmountSet d d' v) : readU32 d' 109 = readU32 d 109 := by
  unfold readU32; rw [slice_eq_of_slice_eq h.mid (by omega) (by omega)]
theorem close (h : AmountSet d d' v) : readU32 d' 129 = readU32 d 129 := by
  unfold readU32; rw [slice_eq_of_slice_eq h.tail (by omega) (by omega)]

end AmountSet

theorem amountSet_writeAt {d : Bytes} {v : UInt64} (h : 72 ≤ d.length) :
    AmountSet d (writeAt d 64 (u64le v)) v where
  len := writeAt_length (by simpa using h)
  amount := readU64_writeAt_same h
  head := slice_writeAt_before (by simpa using h) (by omega)
  mid := slice_writeAt_after (by simpa using h) (by simp)
  tail := slice_writeAt_after (by simpa using h) (by simp)
  flag := Or.inl (readU32_writeAt_apart (by simpa using h) (by simp [Apart]))

theorem validateOwner_ok {L : Ledger} {e a : Pubkey} {u : Unit} :
    validateOwner L e a = .ok u ↔
      e = a ∧ ¬ ((L a).owner = SPL_TOKEN_PROGRAM_ID ∧ (L a).data.length = 355) := by
  unfold validateOwner
  simp only [bind_eq_ok, ensure_eq_ok, exists_unit, TOKEN_MULTISIG_LEN]
  exact and_congr_right fun _ => ensure_eq_ok

theorem authorizeDebit_ok {L : Ledger} {t : TokenAccount} {d sd : Bytes} {auth : Pubkey} {amt v : UInt64}
    {keep : Bool} (hl : 165 ≤ d.length) (h : authorizeDebit L t d auth amt keep = .ok sd) :
    AmountSet d (writeAt sd 64 (u64le v)) v ∧
      (t.owner = auth ∨ (t.delegateFlag = 1 ∧ t.delegate = auth)) ∧
      (t.delegateFlag ≠ 1 → sd = d) := by
  unfold authorizeDebit at h
  split at h
  · next hd =>
    simp only [bind_eq_ok, exists_unit] at h
    obtain ⟨_, _, h⟩ := h
    refine ⟨?_, Or.inr hd, fun hn => absurd hd.1 hn⟩
    split at h
    · cases h; exact amountSet_writeAt (by omega)
    · simp only [TA_DELEGATE_AMOUNT, TA_DELEGATE_FLAG, Except.ok.injEq] at h
      generalize t.delegateAmount - amt = rest at h
      have l1 : (writeAt d 121 (u64le rest)).length = d.length := writeAt_length (by simp; omega)
      have l2 : (writeAt (writeAt d 121 (u64le rest)) 72 (u32le 0)).length = d.length := by
        rw [writeAt_length (by rw [l1]; simp; omega), l1]
      have w1 : ∀ {o n}, Apart o n 121 8 → slice (writeAt d 121 (u64le rest)) o n = slice d o n :=
        fun ha => slice_writeAt_apart (by simp; omega) (by simpa using ha)
      have w2 : ∀ {o n}, Apart o n 72 4 → slice (writeAt (writeAt d 121 (u64le rest)) 72 (u32le 0)) o n =
          slice (writeAt d 121 (u64le rest)) o n :=
        fun ha => slice_writeAt_apart (by rw [l1]; simp; omega) (by simpa using ha)
      split at h
      · subst h
        have a := amountSet_writeAt (d := writeAt (writeAt d 121 (u64le rest)) 72 (u32le 0)) (v := v)
          (by rw [l2]; omega)
        refine ⟨by rw [a.len, l2], a.amount, ?_, ?_, ?_, ?_⟩
        · rw [a.head, w2 (by simp [Apart]), w1 (by simp [Apart])]
        · rw [a.mid, w2 (by simp [Apart]), w1 (by simp [Apart])]
        · rw [a.tail, w2 (by simp [Apart]), w1 (by simp [Apart])]
        · right
          rcases a.flag with f | f
          · rw [f]; exact readU32_writeAt_same (by rw [l1]; omega)
          · exact f
      · subst h
        have a := amountSet_writeAt (d := writeAt d 121 (u64le rest)) (v := v) (by rw [l1]; omega)
        refine ⟨by rw [a.len, l1], a.amount, ?_, ?_, ?_, ?_⟩
        · rw [a.head, w1 (by simp [Apart])]
        · rw [a.mid, w1 (by simp [Apart])]
        · rw [a.tail, w1 (by simp [Apart])]
        · left
          rcases a.flag with f | f
          · rw [f, readU32, w1 (by simp [Apart]), readU32]
          · rw [f]; have := a.flag
            have e : readU32 (writeAt d 121 (u64le rest)) 72 = readU32 d 72 := by
              rw [readU32, w1 (by simp [Apart]), readU32]
            rw [← e]
            have g : readU32 (writeAt (writeAt d 121 (u64le rest)) 64 (u64le v)) 72 =
                readU32 (writeAt d 121 (u64le rest)) 72 :=
              readU32_writeAt_apart (by rw [l1]; simp; omega) (by simp [Apart])
            rw [← g, f]
  · simp only [bind_eq_ok, exists_unit, validateOwner_ok, Except.ok.injEq] at h
    obtain ⟨h1, rfl⟩ := h
    exact ⟨amountSet_writeAt (by omega), Or.inl h1.1, fun _ => rfl⟩

end Xorca
