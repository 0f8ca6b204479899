import Verif.Outside
import Verif.Lemmas.Books
/-
What an instruction of the token program does to each account.
-/
namespace Xorca
open Spec

variable {cr : Crypto} {L L' : Ledger}

/-! ### Data changed only at some offsets -/

/-- Bytes at offsets outside `S` are unchanged. -/
def Touch (S : Nat → Prop) (d d' : Bytes) : Prop := d'.length = d.length ∧ ∀ j, ¬ S j → d'[j]? = d[j]?

namespace Touch
variable {S : Nat → Prop} {d d' : Bytes}

theorem refl : Touch S d d := ⟨rfl, fun _ _ => rfl⟩

theorem write (h : Touch S d d') {o : Nat} {b : Bytes} (hl : o + b.length ≤ d.length)
    (hb : ∀ j, o ≤ j → j < o + b.length → S j) : Touch S d (writeAt d' o b) := by
  have e := sameExcept_writeAt (d := d') (o := o) (b := b) (by rw [h.1]; exact hl)
  refine ⟨e.1.trans h.1, fun j hj => ?_⟩
  rw [e.2 j ?_, h.2 j hj]
  by_contra hc
  exact hj (hb j (by omega) (by omega))

theorem pack (h : Touch S d d') {o : Nat} {k : Option Pubkey} (hl : o + 36 ≤ d.length)
    (hb : ∀ j, o ≤ j → j < o + 36 → S j) : Touch S d (packKey d' o k) := by
  cases k with
  | none => exact h.write (by simp; omega) (fun j h1 h2 => hb j h1 (by simp at h2; omega))
  | some k =>
    have h1 : Touch S d (writeAt d' o (u32le 1)) :=
      h.write (by simp; omega) (fun j h1 h2 => hb j h1 (by simp at h2; omega))
    have hk : k.bytes.length = 32 := k.len
    exact h1.write (by rw [hk]; omega) (fun j h1 h2 => hb j (by omega) (by rw [hk] at h2; omega))

theorem slice (h : Touch S d d') {o n : Nat} (hs : ∀ j, o ≤ j → j < o + n → ¬ S j) :
    Xorca.slice d' o n = Xorca.slice d o n :=
  slice_congr fun j h1 h2 => h.2 j (hs j h1 h2)

theorem u8 (h : Touch S d d') {o : Nat} (hs : ¬ S o) : readU8 d' o = readU8 d o := readU8_congr (h.2 o hs)
theorem u32 (h : Touch S d d') {o : Nat} (hs : ∀ j, o ≤ j → j < o + 4 → ¬ S j) : readU32 d' o = readU32 d o := by
  unfold readU32; rw [h.slice hs]
theorem u64 (h : Touch S d d') {o : Nat} (hs : ∀ j, o ≤ j → j < o + 8 → ¬ S j) : readU64 d' o = readU64 d o := by
  unfold readU64; rw [h.slice hs]
theorem key (h : Touch S d d') {o : Nat} (hs : ∀ j, o ≤ j → j < o + 32 → ¬ S j) : readKey d' o = readKey d o := by
  unfold readKey; rw [h.slice hs]

end Touch

/-! ### What may happen to one account -/

/-- An allowed change of an account of the token program. -/
structure Edit (cr : Crypto) (k : Pubkey) (a a' : Account) : Prop where
  own : a'.owner = SPL_TOKEN_PROGRAM_ID ∨ a'.owner = SYSTEM_PROGRAM_ID
  token : PoolToken cr a → a'.owner = SPL_TOKEN_PROGRAM_ID ∧
    Touch (fun j => (64 ≤ j ∧ j < 72) ∨ j = 108) a.data a'.data ∧
    (readU8 a'.data 108 = 1 ∨ readU8 a'.data 108 = 2) ∧
    (readU64 a.data 64).toNat ≤ (readU64 a'.data 64).toNat
  sound : TokenSound a → a'.owner = SPL_TOKEN_PROGRAM_ID → TokenSound a'
  mint : k = XORCA_MINT_ID → a.data.length = 82 → readU8 a.data 45 = 1 → a.lamports ≠ 0 →
    a'.owner = SPL_TOKEN_PROGRAM_ID ∧ a'.data.length = 82 ∧ readU8 a'.data 45 = 1 ∧ a'.lamports ≠ 0
  supply : k = XORCA_MINT_ID → PoolMint cr a → SameExcept 36 8 a.data a'.data ∧
    (readU64 a'.data 36).toNat ≤ (readU64 a.data 36).toNat

/-- What an instruction of the token program may do to a ledger. -/
def TokStep (cr : Crypto) (L L' : Ledger) : Prop :=
  ∀ k, Credited (L k) (L' k) ∨ ((L k).owner = SPL_TOKEN_PROGRAM_ID ∧ Edit cr k (L k) (L' k))

theorem Spec.Credited.refl (a : Account) : Credited a a := ⟨rfl, rfl, Nat.le_refl _⟩

theorem lamports_ne {a a' : Account} (h : a.lamports.toNat ≤ a'.lamports.toNat) (h0 : a.lamports ≠ 0) :
    a'.lamports ≠ 0 := by
  intro hc; rw [hc] at h
  apply h0
  apply UInt64.toNat_inj.1
  have : (0 : UInt64).toNat = 0 := rfl
  omega

theorem Spec.Credited.sound {a a' : Account} (h : Credited a a') (hs : TokenSound a) : TokenSound a' := by
  obtain ⟨h1, h2, h3⟩ := h
  refine ⟨?_, ?_⟩
  · rw [h2]; exact fun a b c => lamports_ne h3 (hs.paid a b c)
  · rw [h2]; exact hs.plain

theorem system_ne_program : SYSTEM_PROGRAM_ID ≠ PROGRAM_ID := program_ne_system.symm

/-- Such a step is an environment step and keeps the ledger steady. -/
theorem TokStep.env (hs : Steady cr L) (h : TokStep cr L L') : EnvStep cr L L' ∧ Steady cr L' := by
  have hm : (L' XORCA_MINT_ID).owner = SPL_TOKEN_PROGRAM_ID ∧ (L' XORCA_MINT_ID).data.length = 82 ∧
      readU8 (L' XORCA_MINT_ID).data 45 = 1 ∧ (L' XORCA_MINT_ID).lamports ≠ 0 := by
    obtain ⟨m1, m2, m3, m4⟩ := hs.mint
    rcases h XORCA_MINT_ID with ⟨h1, h2, h3⟩ | ⟨_, e⟩
    · exact ⟨h1.trans m1, by rw [h2, m2], by rw [h2, m3], lamports_ne h3 m4⟩
    · exact e.mint rfl m2 m3 m4
  refine ⟨⟨?_, ?_, ?_, ?_, fun _ => Or.inr ⟨hm.2.1, hm.2.2.1⟩⟩, ⟨?_, hs.nobody, ?_, hm⟩⟩
  · intro k ho _
    rcases h k with ⟨h1, h2, h3⟩ | ⟨h1, _⟩
    · exact ⟨h1.trans ho, h2, h3⟩
    · exact absurd (h1.symm.trans ho) token_ne_program
  · intro k ho
    rcases h k with ⟨h1, h2, h3⟩ | ⟨_, e⟩
    · exact Or.inr ⟨h1.symm.trans ho, h2⟩
    · rcases e.own with h1 | h1
      · exact absurd (h1.symm.trans ho) token_ne_program
      · exact absurd (h1.symm.trans ho) system_ne_program
  · intro k p
    rcases h k with ⟨h1, h2, h3⟩ | ⟨_, e⟩
    · unfold balance; rw [h2]
      exact ⟨h1.trans p.prog, p.len, fun _ _ _ _ => rfl, p.state, Nat.le_refl _⟩
    · obtain ⟨e1, e2, e3, e4⟩ := e.token p
      exact ⟨e1, e2.1.trans p.len, fun j _ hj hj2 => e2.2 j (by rintro (h | h); exacts [hj h, hj2 h]), e3, e4⟩
  · intro p
    rcases h XORCA_MINT_ID with ⟨h1, h2, h3⟩ | ⟨_, e⟩
    · unfold Spec.supply; rw [h2]
      exact ⟨h1.trans p.prog, ⟨rfl, fun _ _ => rfl⟩, Nat.le_refl _⟩
    · exact ⟨hm.1, e.supply rfl p⟩
  · intro k b hk
    rcases h k with ⟨h1, h2, h3⟩ | ⟨h1, _⟩
    · rw [h1]; exact hs.state k b hk
    · rcases hs.state k b hk with h2 | h2
      · exact absurd (h1.symm.trans h2) token_ne_system
      · exact absurd (h1.symm.trans h2) token_ne_program
  · intro k ho
    rcases h k with hc | ⟨h1, e⟩
    · exact hc.sound (hs.sound k (hc.1.symm.trans ho))
    · exact e.sound (hs.sound k h1) ho

/-! ### Kinds of edits -/

/-- A change of a token account (not a mint). -/
theorem edit_token {k : Pubkey} {a a' : Account} (hl : a.data.length = 165) (ho : a'.owner = SPL_TOKEN_PROGRAM_ID)
    (ht : PoolToken cr a → Touch (fun j => (64 ≤ j ∧ j < 72) ∨ j = 108) a.data a'.data ∧
      (readU8 a'.data 108 = 1 ∨ readU8 a'.data 108 = 2) ∧ (readU64 a.data 64).toNat ≤ (readU64 a'.data 64).toNat)
    (hs : TokenSound a → TokenSound a') : Edit cr k a a' where
  own := Or.inl ho
  token p := ⟨ho, ht p⟩
  sound h _ := hs h
  mint _ h := by omega
  supply _ p := by have := p.len; omega

/-- A change that leaves mint, state and native flag of a used token account alone. -/
theorem sound_keep {a a' : Account} {S : Nat → Prop} (ht : Touch S a.data a'.data)
    (h0 : ∀ j, j < 32 → ¬ S j) (h1 : ∀ j, 109 ≤ j → j < 113 → ¬ S j)
    (h2 : a.data.length = 165 → readU8 a.data 108 ≠ 0)
    (h3 : readU32 a.data 109 = 0 → a.lamports.toNat ≤ a'.lamports.toNat) (hs : TokenSound a) : TokenSound a' := by
  have e1 : readU32 a'.data 109 = readU32 a.data 109 := ht.u32 (fun j h h' => h1 j h (by omega))
  have e0 : readKey a'.data 0 = readKey a.data 0 := ht.key (fun j _ h' => h0 j (by omega))
  refine ⟨?_, ?_⟩
  · rw [ht.1, e1]
    intro a1 _ a3
    exact lamports_ne (h3 a3) (hs.paid a1 (h2 a1) a3)
  · rw [ht.1, e1, e0]; exact hs.plain

/-- A change of an account that is neither a token account nor the xORCA mint. -/
theorem edit_other {k : Pubkey} {a a' : Account} (hl : a.data.length ≠ 165) (hl' : a'.data.length ≠ 165)
    (ho : a'.owner = SPL_TOKEN_PROGRAM_ID)
    (hm : k = XORCA_MINT_ID → ¬ (a.data.length = 82 ∧ readU8 a.data 45 = 1)) : Edit cr k a a' where
  own := Or.inl ho
  token p := absurd p.len hl
  sound _ _ := ⟨fun h => absurd h hl', fun h => absurd h hl'⟩
  mint h h1 h2 _ := absurd ⟨h1, h2⟩ (hm h)
  supply h p := absurd ⟨p.len, p.init⟩ (hm h)

/-- A change of a mint. -/
theorem edit_mint {k : Pubkey} {a a' : Account} {S : Nat → Prop} (hl : a.data.length = 82)
    (ho : a'.owner = SPL_TOKEN_PROGRAM_ID) (ht : Touch S a.data a'.data) (h45 : ¬ S 45)
    (hlam : a.lamports ≠ 0 → a'.lamports ≠ 0)
    (hp : k = XORCA_MINT_ID → PoolMint cr a → SameExcept 36 8 a.data a'.data ∧
      (readU64 a'.data 36).toNat ≤ (readU64 a.data 36).toNat) : Edit cr k a a' where
  own := Or.inl ho
  token p := by have := p.len; omega
  sound _ _ := ⟨fun h => by rw [ht.1] at h; omega, fun h => by rw [ht.1] at h; omega⟩
  mint _ h1 h2 h3 := ⟨ho, ht.1.trans h1, by rw [ht.u8 h45, h2], hlam h3⟩
  supply := hp

/-- The account is closed. -/
theorem edit_close {k : Pubkey} {a a' : Account} (hl : a.data.length = 165) (ho : a'.owner = SYSTEM_PROGRAM_ID)
    (hp : ¬ PoolToken cr a) : Edit cr k a a' where
  own := Or.inr ho
  token p := absurd p hp
  sound _ h := absurd (h.symm.trans ho) token_ne_system
  mint _ h := by omega
  supply _ p := by have := p.len; omega

/-- Lamports leave, but not all. -/
theorem edit_lamports {k : Pubkey} {a a' : Account} (ho : a'.owner = SPL_TOKEN_PROGRAM_ID) (hd : a'.data = a.data)
    (hl : a'.lamports ≠ 0) : Edit cr k a a' where
  own := Or.inl ho
  token p := by rw [hd]; exact ⟨ho, Touch.refl, p.state, Nat.le_refl _⟩
  sound h _ := ⟨fun _ _ _ => hl, by rw [hd]; exact h.plain⟩
  mint _ h1 h2 _ := by rw [hd]; exact ⟨ho, h1, h2, hl⟩
  supply _ _ := by rw [hd]; exact ⟨⟨rfl, fun _ _ => rfl⟩, Nat.le_refl _⟩

/-! ### Authorities -/

/-- The pool does not pass an authority check. -/
theorem checkOwner_notPool {sg : Pubkey → Bool} {e auth : Pubkey} {ms : List Pubkey} {u : Unit} (hs : Steady cr L)
    (hn : NotPool cr sg) (h : checkOwner sg L e auth ms = .ok u) : ¬ ∃ b, StateAddr cr e b := by
  rintro ⟨b, hb⟩
  unfold checkOwner at h
  simp only [bind_eq_ok, exists_unit, ensure_eq_ok] at h
  obtain ⟨rfl, h⟩ := h
  rw [if_neg ?_] at h
  · rw [ensure_eq_ok, hn _ b hb] at h; exact absurd h (by decide)
  · rintro ⟨h1, _⟩
    rcases hs.state _ b hb with h2 | h2
    · exact token_ne_system (h1.symm.trans h2)
    · exact token_ne_program (h1.symm.trans h2)

theorem needToken_ok {k : Pubkey} {t : TokenAccount} (h : needToken L k = .ok t) :
    (L k).owner = SPL_TOKEN_PROGRAM_ID ∧ (L k).data.length = 165 ∧ readU8 (L k).data 108 ≠ 0 ∧
      (∃ st, tokenStateOf (readU8 (L k).data 108) = some st ∧ tokenAccountAt (L k).data st = t) ∧
      (readU32 (L k).data 109 = 0 ∨ readU32 (L k).data 109 = 1) ∧
      (readU32 (L k).data 129 = 0 ∨ readU32 (L k).data 129 = 1) := by
  unfold needToken at h
  simp only [bind_eq_ok, exists_unit, ensure_eq_ok, unpackTokenAccount_ok] at h
  obtain ⟨h1, h2, h3, h4, h5⟩ := h
  exact ⟨h1, h2, h5, h3, h4.2.1, h4.2.2⟩

theorem needMint_ok {k : Pubkey} {t : TokenMint} (h : needMint L k = .ok t) :
    (L k).owner = SPL_TOKEN_PROGRAM_ID ∧ (L k).data.length = 82 ∧ readU8 (L k).data 45 = 1 ∧
      t = tokenMintAt (L k).data true := by
  unfold needMint at h
  simp only [bind_eq_ok, exists_unit, ensure_eq_ok, unpackMint_ok] at h
  exact ⟨h.1, h.2.1, h.2.2.1, h.2.2.2.1.symm⟩

/-- A debit: the bytes changed, and that the pool cannot be debited. -/
theorem checkDebit_ok {sg : Pubkey → Bool} {t : TokenAccount} {d sd : Bytes} {st : TokenAccountState} {auth : Pubkey}
    {ms : List Pubkey} {n v : UInt64} {keep : Bool} (hs : Steady cr L) (hn : NotPool cr sg)
    (ht : tokenAccountAt d st = t) (hl : d.length = 165)
    (h : checkDebit sg L t d auth ms n keep = .ok sd) :
    Touch (fun j => (64 ≤ j ∧ j < 76) ∨ (121 ≤ j ∧ j < 129)) d (writeAt sd 64 (u64le v)) ∧
      readU64 (writeAt sd 64 (u64le v)) 64 = v ∧
      ¬ ((∃ b, StateAddr cr (readKey d 32) b) ∧ readU32 d 72 = 0) := by
  subst ht
  have key : Touch (fun j => (64 ≤ j ∧ j < 76) ∨ (121 ≤ j ∧ j < 129)) d sd ∧
      ¬ ((∃ b, StateAddr cr (readKey d 32) b) ∧ readU32 d 72 = 0) := by
    unfold checkDebit at h
    split at h
    · next hd =>
      simp only [bind_eq_ok, exists_unit] at h
      obtain ⟨h1, _, h⟩ := h
      refine ⟨?_, ?_⟩
      · split at h
        · cases h; exact Touch.refl
        · simp only [TA_DELEGATE_AMOUNT, TA_DELEGATE_FLAG, Except.ok.injEq] at h
          subst h
          have t1 : Touch (fun j => (64 ≤ j ∧ j < 76) ∨ (121 ≤ j ∧ j < 129)) d
              (writeAt d 121 (u64le ((tokenAccountAt d st).delegateAmount - n))) :=
            Touch.refl.write (by simp; omega) (by intro j h1 h2; simp at h2; right; omega)
          split
          · exact t1.write (by simp; omega) (by intro j h1 h2; simp at h2; left; omega)
          · exact t1
      · rintro ⟨_, h2⟩
        have := hd.1
        change readU32 d 72 = 1 at this
        rw [h2] at this; exact absurd this (by decide)
    · simp only [bind_eq_ok, exists_unit, Except.ok.injEq] at h
      obtain ⟨h1, rfl⟩ := h
      exact ⟨Touch.refl, fun hc => checkOwner_notPool hs hn h1 hc.1⟩
  refine ⟨key.1.write (by simp; omega) (by intro j h1 h2; simp at h2; left; omega), ?_, key.2⟩
  exact readU64_writeAt_same (by rw [key.1.1]; omega)

theorem poolToken_noDebit {a : Account} (h : ¬ ((∃ b, StateAddr cr (readKey a.data 32) b) ∧ readU32 a.data 72 = 0)) :
    ¬ PoolToken cr a := fun p => h ⟨p.owner, p.delegate⟩

theorem poolToken_noOwner {a : Account} (h : ¬ ∃ b, StateAddr cr (readKey a.data 32) b) : ¬ PoolToken cr a :=
  fun p => h p.owner

end Xorca
