import Verif.Freeze
import Verif.Lemmas.OutsideTok
import Verif.Lemmas.World
import Verif.Lemmas.TokenScripts
/-
Helpers for C109: nobody freezes an account of a mint without a freeze authority.
-/
namespace Xorca
open Spec

variable {cr : Crypto} {L L' L1 : Ledger} {m : Pubkey} {rent : Nat → UInt64} {sg : Pubkey → Bool}

/-- What may happen to an account while the mint `m` has no freeze authority. -/
structure Keep (m k : Pubkey) (a a' : Account) : Prop where
  mint : k = m → Unfreezable a → Unfreezable a'
  froz : FrozenToken m a' → FrozenToken m a

def KeepAll (m : Pubkey) (L L' : Ledger) : Prop := ∀ k, Keep m k (L k) (L' k)

theorem KeepAll.refl : KeepAll m L L := fun _ => ⟨fun _ h => h, id⟩

theorem KeepAll.trans (h : KeepAll m L L1) (h' : KeepAll m L1 L') : KeepAll m L L' :=
  fun k => ⟨fun e u => (h' k).mint e ((h k).mint e u), fun f => (h k).froz ((h' k).froz f)⟩

theorem keep_same {k : Pubkey} {a a' : Account} (ho : a'.owner = a.owner) (hd : a'.data = a.data)
    (hl : a.lamports ≠ 0 → a'.lamports ≠ 0) : Keep m k a a' :=
  ⟨fun _ u => ⟨ho.trans u.prog, by rw [hd]; exact u.len, by rw [hd]; exact u.init, by rw [hd]; exact u.none, hl u.alive⟩,
    fun f => ⟨ho.symm.trans f.prog, by rw [← hd]; exact f.len, by rw [← hd]; exact f.mint, by rw [← hd]; exact f.state⟩⟩

theorem keep_setData {k : Pubkey} {d : Bytes} (h : Keep m k (L k) { L k with data := d }) : KeepAll m L (L.setData k d) := by
  intro j
  by_cases e : j = k
  · subst e; rw [Ledger.setData_same]; exact h
  · rw [Ledger.setData_other _ _ e]; exact ⟨fun _ h => h, id⟩

/-- A token account whose mint and state stay. -/
theorem keep_token {k : Pubkey} {a a' : Account} {S : Nat → Prop} (hl : a.data.length = 165) (ho : a'.owner = a.owner)
    (ht : Touch S a.data a'.data) (h0 : ∀ j, j < 32 → ¬ S j) (h1 : ¬ S 108) : Keep m k a a' where
  mint _ u := by have := u.len; omega
  froz f := ⟨ho.symm.trans f.prog, hl, by rw [← ht.key (fun j _ h => h0 j (by omega))]; exact f.mint,
    by rw [← ht.u8 h1]; exact f.state⟩

/-- A token account that is not frozen afterwards. -/
theorem keep_thawed {k : Pubkey} {a a' : Account} (hl : a.data.length ≠ 82) (h : readU8 a'.data 108 ≠ 2) :
    Keep m k a a' where
  mint _ u := absurd u.len hl
  froz f := absurd f.state h

/-- A mint whose freeze authority, if absent, stays absent. -/
theorem keep_mint {k : Pubkey} {a a' : Account} {S : Nat → Prop} (hl : a.data.length = 82) (ho : a'.owner = a.owner)
    (ht : Touch S a.data a'.data) (h45 : ¬ S 45) (h46 : readU32 a.data 46 = 0 → readU32 a'.data 46 = 0)
    (hlam : a'.lamports = a.lamports) : Keep m k a a' where
  mint _ u := ⟨ho.trans u.prog, ht.1.trans u.len, by rw [ht.u8 h45]; exact u.init, h46 u.none, by rw [hlam]; exact u.alive⟩
  froz f := by have := f.len; have := ht.1; omega

/-- An account that is neither mint nor token account. -/
theorem keep_other {k : Pubkey} {a a' : Account} (h : ¬ (a.data.length = 82 ∧ readU8 a.data 45 = 1))
    (hl : a'.data.length ≠ 165) : Keep m k a a' where
  mint _ u := absurd ⟨u.len, u.init⟩ h
  froz f := absurd f.len hl

theorem keep_moveLamports {src dst : Pubkey} {n : UInt64} (h : moveLamports L src dst n = .ok L')
    (h0 : (L src).data.length = 82 → (L' src).lamports ≠ 0) : KeepAll m L L' := by
  obtain ⟨m1, m2, -, -⟩ := moveLamports_ok h
  intro k
  by_cases hk : k = src
  · subst hk
    refine ⟨fun _ u => ?_, ?_⟩
    · exact ⟨(m1 k).1.trans u.prog, by rw [(m1 k).2]; exact u.len, by rw [(m1 k).2]; exact u.init,
        by rw [(m1 k).2]; exact u.none, h0 u.len⟩
    · intro f
      exact ⟨(m1 k).1.symm.trans f.prog, by rw [← (m1 k).2]; exact f.len, by rw [← (m1 k).2]; exact f.mint,
        by rw [← (m1 k).2]; exact f.state⟩
  · exact keep_same (m1 k).1 (m1 k).2 (lamports_ne (m2 k hk))

/-! ### Instructions of the token program -/

theorem keep_setToken {k : Pubkey} {d : Bytes} {S : Nat → Prop} (hl : (L k).data.length = 165)
    (ht : Touch S (L k).data d) (h0 : ∀ j, j < 32 → ¬ S j) (h1 : ¬ S 108) : KeepAll m L (L.setData k d) :=
  keep_setData (keep_token hl rfl ht h0 h1)

/-- A new token account is not frozen. -/
theorem initState {d : Bytes} {mint owner : Pubkey} (hl : d.length = 165) :
    readU8 (packKey (writeAt (writeAt (packKey (writeAt (writeAt d 0 mint.bytes) 32 owner.bytes) 72 none) 108 [1]) 121
      (u64le 0)) 129 none) 108 = 1 := by
  have l0 : (writeAt d 0 mint.bytes).length = 165 := by rw [writeAt_length (by rw [mint.len]; omega), hl]
  generalize writeAt d 0 mint.bytes = d0 at l0
  have t1 : Touch (fun j => 32 ≤ j) d0 (writeAt d0 32 owner.bytes) :=
    Touch.refl.write (by rw [owner.len]; omega) (fun j h _ => h)
  have t2 : Touch (fun j => 32 ≤ j) d0 (packKey (writeAt d0 32 owner.bytes) 72 none) :=
    t1.pack (by omega) (fun j h _ => by omega)
  have l2 := t2.1.trans l0
  generalize packKey (writeAt d0 32 owner.bytes) 72 none = d2 at l2
  have e : readU8 (writeAt d2 108 [1]) 108 = 1 := readU8_writeAt_same (by omega)
  have l3 : (writeAt d2 108 [1]).length = 165 := by rw [writeAt_length (by simp; omega), l2]
  generalize writeAt d2 108 [1] = d3 at e l3
  have t4 : Touch (fun j => 121 ≤ j) d3 (writeAt d3 121 (u64le 0)) :=
    Touch.refl.write (by simp; omega) (fun j h _ => h)
  have t5 := t4.pack (o := 129) (k := none) (by omega) (fun j h _ => by omega)
  rw [t5.u8 (by omega), e]

theorem keep_initAccount {acc mint owner : Pubkey} (h : tokInitAccount rent L acc mint owner = .ok L') :
    KeepAll m L L' := by
  unfold tokInitAccount at h
  simp only [bind_eq_ok, exists_unit, ensure_eq_ok] at h
  simp only [TOKEN_ACCOUNT_LEN] at h
  obtain ⟨⟨ho, hl⟩, h108, hr, h⟩ := h
  obtain ⟨l2, m2⟩ := initBytes (mint := mint) (owner := owner) hl
  have e2 := initState (mint := mint) (owner := owner) hl
  generalize packKey (writeAt (writeAt (packKey (writeAt (writeAt (L acc).data 0 mint.bytes) 32 owner.bytes) 72
    none) 108 [1]) 121 (u64le 0)) 129 none = d2 at h l2 m2 e2
  have fin : ∀ d3 : Bytes, Touch (fun j => (109 ≤ j ∧ j < 121) ∨ (64 ≤ j ∧ j < 72)) d2 d3 →
      KeepAll m L (L.setData acc d3) := by
    intro d3 t
    refine keep_setData (keep_thawed (by omega) ?_)
    show readU8 d3 108 ≠ 2
    rw [t.u8 (by omega), e2]; decide
  split at h
  · simp only [bind_eq_ok, Except.ok.injEq] at h
    obtain ⟨v, _, rfl⟩ := h
    apply fin
    refine Touch.write (Touch.write (Touch.write Touch.refl ?_ ?_) ?_ ?_) ?_ ?_ <;>
      first | (intro j h1 h2; simp at h2; omega) | (simp; omega)
  · simp only [bind_eq_ok, Except.ok.injEq] at h
    obtain ⟨_, _, rfl⟩ := h
    apply fin
    refine Touch.write (Touch.write Touch.refl ?_ ?_) ?_ ?_ <;>
      first | (intro j h1 h2; simp at h2; omega) | (simp; omega)

theorem keep_transfer {src dst auth : Pubkey} {ms : List Pubkey} {n : UInt64} {chk : Option (Pubkey × UInt8)}
    (hs : Steady cr L) (hn : NotPool cr sg) (h : tokTransfer sg L src dst auth ms n chk = .ok L') : KeepAll m L L' := by
  unfold tokTransfer at h
  simp only [bind_eq_ok, exists_unit, ensure_eq_ok] at h
  obtain ⟨s, hk, t, hk', _, hamt, hmint, _, sd, hsd, h⟩ := h
  split at h
  · cases h; exact .refl
  next hne =>
  simp only [bind_eq_ok, okOr_eq_ok] at h
  obtain ⟨sa, hsa, ta, hta, h⟩ := h
  obtain ⟨ho, hl, h108, ⟨st, _, rfl⟩, hnat, -⟩ := needToken_ok hk
  obtain ⟨ho', hl', h108', ⟨st', _, rfl⟩, -⟩ := needToken_ok hk'
  obtain ⟨c1, -, -⟩ := checkDebit_ok (v := sa) hs hn rfl hl hsd
  have k1 : KeepAll m L (L.setData src (writeAt sd TA_AMOUNT (u64le sa))) :=
    keep_setToken hl c1 (by intro j hj; omega) (by omega)
  have e : ((L.setData src (writeAt sd TA_AMOUNT (u64le sa))) dst) = L dst := Ledger.setData_other _ _ (Ne.symm hne)
  have k2 : KeepAll m (L.setData src (writeAt sd TA_AMOUNT (u64le sa)))
      ((L.setData src (writeAt sd TA_AMOUNT (u64le sa))).setData dst (writeAt (L dst).data TA_AMOUNT (u64le ta))) := by
    refine keep_setToken (S := fun j => 64 ≤ j ∧ j < 72) (by rw [e]; exact hl') ?_ (by intro j hj; omega) (by omega)
    rw [e]
    exact Touch.refl.write (by simp [TA_AMOUNT]; omega) (by intro j h1 h2; simp [TA_AMOUNT] at h1 h2; omega)
  split at h
  · refine (k1.trans k2).trans (keep_moveLamports h fun h82 => ?_)
    rw [Ledger.setData_other _ _ hne, Ledger.setData_same] at h82
    have := c1.1
    simp only [TA_AMOUNT] at h82
    omega
  · simp only [Except.ok.injEq] at h
    subst h
    exact k1.trans k2

theorem keep_setAccountAuthority {acc auth : Pubkey} {ty : AuthorityType} {new : Option Pubkey} {ms : List Pubkey}
    (h : tokSetAccountAuthority sg L acc ty new auth ms = .ok L') : KeepAll m L L' := by
  unfold tokSetAccountAuthority at h
  simp only [bind_eq_ok, exists_unit, ensure_eq_ok] at h
  obtain ⟨t, hk, _, h⟩ := h
  obtain ⟨ho, hl, h108, -⟩ := needToken_ok hk
  have fin : ∀ d, Touch (fun j => (32 ≤ j ∧ j < 64) ∨ (72 ≤ j ∧ j < 108) ∨ 113 ≤ j) (L acc).data d →
      KeepAll m L (L.setData acc d) := fun d t => keep_setToken hl t (by intro j hj; omega) (by omega)
  cases ty with
  | mintTokens => simp at h
  | freezeAccount => simp at h
  | accountOwner =>
    simp only [bind_eq_ok, exists_unit, Except.ok.injEq] at h
    obtain ⟨hc, k, _, rfl⟩ := h
    have hb := k.len
    apply fin
    have t1 : Touch (fun j => (32 ≤ j ∧ j < 64) ∨ (72 ≤ j ∧ j < 108) ∨ 113 ≤ j) (L acc).data
        (writeAt (packKey (writeAt (L acc).data 32 k.bytes) 72 none) 121 (u64le 0)) := by
      refine Touch.write (Touch.pack (Touch.write Touch.refl ?_ ?_) ?_ ?_) ?_ ?_ <;>
        first | (intro j h1 h2; simp at h2; omega) | (intro j h1 h2; rw [hb] at h2; omega) | (simp; omega) | omega
    split
    · exact t1.pack (by omega) (by intro j h1 h2; omega)
    · exact t1
  | closeAccount =>
    simp only [bind_eq_ok, exists_unit, Except.ok.injEq] at h
    obtain ⟨hc, rfl⟩ := h
    exact fin _ (Touch.refl.pack (by omega) (by intro j h1 h2; omega))

theorem keep_setMintAuthority {acc auth : Pubkey} {ty : AuthorityType} {new : Option Pubkey} {ms : List Pubkey}
    (h : tokSetMintAuthority sg L acc ty new auth ms = .ok L') : KeepAll m L L' := by
  unfold tokSetMintAuthority at h
  simp only [bind_eq_ok] at h
  obtain ⟨q, hk, h⟩ := h
  obtain ⟨ho, hl, h45, rfl⟩ := needMint_ok hk
  cases ty with
  | accountOwner => simp at h
  | closeAccount => simp at h
  | mintTokens =>
    simp only [bind_eq_ok, exists_unit, ensure_eq_ok, Except.ok.injEq] at h
    obtain ⟨_, hc, rfl⟩ := h
    have t : Touch (fun j => j < 36) (L acc).data (packKey (L acc).data 0 new) :=
      Touch.refl.pack (by omega) (by intro j h1 h2; omega)
    refine keep_setData (keep_mint hl rfl t (by omega) (fun h => ?_) rfl)
    show readU32 (packKey (L acc).data 0 new) 46 = 0
    rw [t.u32 (by intro j h1 h2; omega), h]
  | freezeAccount =>
    simp only [bind_eq_ok, exists_unit, ensure_eq_ok, Except.ok.injEq] at h
    obtain ⟨hf, hc, rfl⟩ := h
    have t : Touch (fun j => 46 ≤ j) (L acc).data (packKey (L acc).data 46 new) :=
      Touch.refl.pack (by omega) (by intro j h1 h2; omega)
    refine keep_setData (keep_mint hl rfl t (by omega) (fun h => ?_) rfl)
    change readU32 (L acc).data 46 = 1 at hf
    rw [h] at hf; exact absurd hf (by decide)

theorem keep_two {mint k0 : Pubkey} {d : Bytes} {w : UInt64} {S : Nat → Prop} (hl : (L k0).data.length = 165)
    (hlm : (L mint).data.length = 82) (ht : Touch S (L k0).data d) (h0 : ∀ j, j < 32 → ¬ S j) (h1 : ¬ S 108) :
    KeepAll m L ((L.setData k0 d).setData mint (writeAt (L mint).data MINT_SUPPLY (u64le w))) := by
  have hne : mint ≠ k0 := by rintro rfl; omega
  have e : (L.setData k0 d) mint = L mint := Ledger.setData_other _ _ hne
  have t : Touch (fun j => 36 ≤ j ∧ j < 44) (L mint).data (writeAt (L mint).data MINT_SUPPLY (u64le w)) :=
    Touch.refl.write (by simp [MINT_SUPPLY]; omega) (by intro j h1 h2; simp [MINT_SUPPLY] at h1 h2; omega)
  refine (keep_setToken hl ht h0 h1).trans (keep_setData (keep_mint (S := fun j => 36 ≤ j ∧ j < 44) (by rw [e]; exact hlm) rfl
    (by rw [e]; exact t) (by omega) (fun h => ?_) rfl))
  rw [e] at h
  show readU32 (writeAt (L mint).data MINT_SUPPLY (u64le w)) 46 = 0
  rw [t.u32 (by intro j h1 h2; omega), h]

theorem keep_burn {src mint auth : Pubkey} {ms : List Pubkey} {n : UInt64} {chk : Option (Pubkey × UInt8)}
    (hs : Steady cr L) (hn : NotPool cr sg) (h : tokBurn sg L src mint auth ms n chk = .ok L') : KeepAll m L L' := by
  unfold tokBurn at h
  simp only [bind_eq_ok, exists_unit, ensure_eq_ok, okOr_eq_ok, Except.ok.injEq] at h
  obtain ⟨s, hk, q, hm, _, hnat, hamt, hmint, _, sd, hsd, sa, hsa, v, hv, rfl⟩ := h
  obtain ⟨ho, hl, h108, ⟨st, _, rfl⟩, -⟩ := needToken_ok hk
  obtain ⟨hom, hlm, h45, rfl⟩ := needMint_ok hm
  have c1 : Touch (fun j => (64 ≤ j ∧ j < 76) ∨ (121 ≤ j ∧ j < 129)) (L src).data (writeAt sd 64 (u64le sa)) := by
    unfold checkBurn at hsd
    split at hsd
    · simp only [Except.ok.injEq] at hsd
      subst hsd
      exact Touch.refl.write (by simp; omega) (by intro j h1 h2; simp at h2; omega)
    · exact (checkDebit_ok (v := sa) hs hn rfl hl hsd).1
  exact keep_two hl hlm c1 (by intro j hj; omega) (by omega)

theorem keep_close {src dst auth : Pubkey} {ms : List Pubkey} (h : tokClose sg L src dst auth ms = .ok L') :
    KeepAll m L L' := by
  unfold tokClose at h
  simp only [bind_eq_ok, exists_unit, ensure_eq_ok, okOr_eq_ok, Except.ok.injEq] at h
  obtain ⟨hne, t, hk, _, hau, v, hv, rfl⟩ := h
  obtain ⟨ho, hl, h108, -⟩ := needToken_ok hk
  rw [checkedAddU64_eq_some] at hv
  intro k
  by_cases hk : k = src
  · subst hk
    rw [Ledger.set_same]
    exact keep_thawed (by omega) (by decide)
  · rw [Ledger.set_other _ _ hk]
    refine keep_same (by simp) (by simp) (lamports_ne ?_)
    by_cases h2 : k = dst
    · subst h2; rw [Ledger.setLamports_same]; change _ ≤ v.toNat; omega
    · rw [Ledger.setLamports_other _ _ h2]

theorem keep_freeze {acc mint auth : Pubkey} {ms : List Pubkey} {thaw : Bool}
    (hm : mint = m → thaw = false → Unfreezable (L m))
    (h : tokFreeze sg L acc mint auth ms thaw = .ok L') : KeepAll m L L' := by
  unfold tokFreeze at h
  simp only [bind_eq_ok, exists_unit, ensure_eq_ok, Except.ok.injEq, unpackMint_ok] at h
  obtain ⟨t, hk, _, _, hmint, q, ⟨_, _, e, _⟩, hf, _, rfl⟩ := h
  obtain ⟨ho, hl, h108, ⟨st, _, rfl⟩, -⟩ := needToken_ok hk
  have ht : Touch (fun j => j = 108) (L acc).data (writeAt (L acc).data 108 [if thaw then 1 else 2]) :=
    Touch.refl.write (by simp; omega) (by intro j h1 h2; simp at h2; omega)
  refine keep_setData ⟨fun _ u => by have := u.len; omega, fun f => ?_⟩
  exfalso
  have h1 : readKey (L acc).data 0 = m := by
    rw [← ht.key (fun j _ h => by omega)]; exact f.mint
  have h2 : mint = m := hmint.symm.trans h1
  subst h2 e
  cases thaw with
  | true =>
    have h3 := f.state
    dsimp only at h3
    rw [if_pos rfl, readU8_writeAt_same (by omega)] at h3
    exact absurd h3 (by decide)
  | false =>
    have : readU32 (L mint).data 46 = 1 := hf
    rw [(hm rfl rfl).none] at this
    exact absurd this (by decide)

theorem keepAll_token {ix : TokenIx} (hs : Steady cr L) (hrent : ∀ n, rent n ≠ 0) (hn : NotPool cr sg)
    (hm : ∀ acc auth ms, ix = .freeze acc m auth ms false → Unfreezable (L m)) (h : tokenExec rent sg L ix = .ok L') : KeepAll m L L' := by
  cases ix with
  | initializeMint mint dec auth fr =>
    simp only [tokenExec, tokInitMint, bind_eq_ok, exists_unit, ensure_eq_ok, Except.ok.injEq] at h
    simp only [TOKEN_MINT_LEN] at h
    obtain ⟨⟨ho, hl⟩, h45, hr, rfl⟩ := h
    refine keep_setData (keep_other (by rw [h45]; simp) ?_)
    have : Touch (fun _ => True) (L mint).data (packKey (writeAt (packKey (L mint).data 0 (some auth)) 44 [dec, 1]) 46 fr) := by
      refine Touch.pack (Touch.write (Touch.pack Touch.refl ?_ ?_) ?_ ?_) ?_ ?_ <;>
        first | (intros; trivial) | omega | (simp; omega)
    show (packKey (writeAt (packKey (L mint).data 0 (some auth)) 44 [dec, 1]) 46 fr).length ≠ 165
    rw [this.1]; omega
  | initializeAccount acc mint owner => exact keep_initAccount h
  | initializeMultisig acc q keys =>
    simp only [tokenExec, tokInitMultisig, bind_eq_ok, exists_unit, ensure_eq_ok, Except.ok.injEq] at h
    simp only [TOKEN_MULTISIG_LEN] at h
    obtain ⟨⟨ho, hl⟩, h45, hr, hk, rfl⟩ := h
    have hlen : (keys.flatMap (·.bytes)).length = 32 * keys.length := by
      clear hk hm
      induction keys with
      | nil => rfl
      | cons a l ih => rw [List.flatMap_cons, List.length_append, ih, a.len, List.length_cons]; omega
    have ht : Touch (fun _ => True) (L acc).data
        (writeAt (writeAt (L acc).data 0 [q, UInt8.ofNat keys.length, 1]) 3 (keys.flatMap (·.bytes))) := by
      refine Touch.write (Touch.write Touch.refl ?_ ?_) ?_ ?_
      · simp; omega
      · intros; trivial
      · rw [hlen]; omega
      · intros; trivial
    refine keep_setData (keep_other (by omega) ?_)
    show (writeAt (writeAt (L acc).data 0 [q, UInt8.ofNat keys.length, 1]) 3 (keys.flatMap (·.bytes))).length ≠ 165
    rw [ht.1]; omega
  | transfer src dst auth ms n chk => exact keep_transfer hs hn h
  | approve src delegate auth ms n chk =>
    simp only [tokenExec, tokApprove, bind_eq_ok, exists_unit, ensure_eq_ok, Except.ok.injEq] at h
    obtain ⟨t, hk, _, _, hc, rfl⟩ := h
    obtain ⟨ho, hl, -⟩ := needToken_ok hk
    refine keep_setToken (S := fun j => (72 ≤ j ∧ j < 108) ∨ 121 ≤ j) hl ?_ (by intro j hj; omega) (by omega)
    refine Touch.write (Touch.pack Touch.refl ?_ ?_) ?_ ?_ <;>
      first | (intro j h1 h2; simp at h2; omega) | (simp; omega)
  | revoke src auth ms =>
    simp only [tokenExec, tokRevoke, bind_eq_ok, exists_unit, ensure_eq_ok, Except.ok.injEq] at h
    obtain ⟨t, hk, _, hc, rfl⟩ := h
    obtain ⟨ho, hl, -⟩ := needToken_ok hk
    refine keep_setToken (S := fun j => (72 ≤ j ∧ j < 108) ∨ 121 ≤ j) hl ?_ (by intro j hj; omega) (by omega)
    refine Touch.write (Touch.pack Touch.refl ?_ ?_) ?_ ?_ <;>
      first | (intro j h1 h2; simp at h2; omega) | (simp; omega)
  | setAuthority acc ty new auth ms =>
    simp only [tokenExec] at h
    split at h
    · exact keep_setAccountAuthority h
    · exact keep_setMintAuthority h
  | mintTo mint dst auth ms n chk =>
    simp only [tokenExec, tokMintTo, bind_eq_ok, exists_unit, ensure_eq_ok, okOr_eq_ok, Except.ok.injEq] at h
    obtain ⟨t, hk, _, hnat, hmint, q, hq, _, hfl, hau, ta, hta, v, hv, rfl⟩ := h
    obtain ⟨ho, hl, -⟩ := needToken_ok hk
    obtain ⟨hom, hlm, h45, rfl⟩ := needMint_ok hq
    refine keep_two (S := fun j => 64 ≤ j ∧ j < 72) hl hlm (Touch.refl.write (by simp [TA_AMOUNT]; omega) ?_)
      (by intro j hj; omega) (by omega)
    intro j h1 h2; simp [TA_AMOUNT] at h1 h2; omega
  | burn src mint auth ms n chk => exact keep_burn hs hn h
  | closeAccount src dst auth ms => exact keep_close h
  | freeze acc mint auth ms thaw =>
    exact keep_freeze (fun h1 h2 => hm acc auth ms (by rw [h1, h2])) h
  | syncNative acc =>
    simp only [tokenExec, tokSync, bind_eq_ok, exists_unit, ensure_eq_ok, okOr_eq_ok, Except.ok.injEq] at h
    obtain ⟨t, hk, hn, v, _, _, rfl⟩ := h
    obtain ⟨ho, hl, -⟩ := needToken_ok hk
    refine keep_setToken (S := fun j => 64 ≤ j ∧ j < 72) hl (Touch.refl.write (by simp [TA_AMOUNT]; omega) ?_)
      (by intro j hj; omega) (by omega)
    intro j h1 h2; simp [TA_AMOUNT] at h1 h2; omega
  | query => simp only [tokenExec, Except.ok.injEq] at h; subst h; exact .refl
  | withdrawExcess src dst auth ms =>
    simp only [tokenExec, tokWithdrawExcess, bind_eq_ok, exists_unit, ensure_eq_ok, okOr_eq_ok] at h
    obtain ⟨ho, v, hv, h⟩ := h
    rw [checkedSubU64_eq_some] at hv
    obtain ⟨m1, m2, m3, m4⟩ := moveLamports_ok h
    refine keep_moveLamports h fun _ => u64_ne_zero (b := rent (L src).data.length) ?_ (hrent _)
    omega
  | unwrapLamports src dst auth ms n =>
    simp only [tokenExec, tokUnwrap, bind_eq_ok, exists_unit, ensure_eq_ok, okOr_eq_ok] at h
    obtain ⟨t, hk, hnat, sd, hsd, sa, hsa, h⟩ := h
    obtain ⟨ho, hl, h108, ⟨st, _, rfl⟩, -⟩ := needToken_ok hk
    obtain ⟨c1, -, -⟩ := checkDebit_ok (v := sa) hs hn rfl hl hsd
    refine (keep_setToken hl c1 (by intro j hj; omega) (by omega)).trans (keep_moveLamports h fun h82 => ?_)
    rw [Ledger.setData_same] at h82
    have := c1.1
    dsimp only at h82
    omega

theorem keep_program {p : Pubkey} (h2 : p ≠ SPL_TOKEN_PROGRAM_ID) (h4 : ProgramRule sg p L L') : KeepAll m L L' := by
  intro k
  obtain ⟨r1, r2⟩ := h4 k
  by_cases hp : (L k).owner = p
  · refine ⟨fun _ u => absurd (u.prog.symm.trans hp) (Ne.symm h2), fun f => ?_⟩
    rcases r2 hp with h | ⟨h, -⟩
    · exact absurd (f.prog.symm.trans h) (Ne.symm h2)
    · have := f.state
      rw [allZero_u8 h] at this
      exact absurd this (by decide)
  · obtain ⟨c1, c2, c3⟩ := r1 hp
    exact keep_same c1 c2 (lamports_ne c3)

theorem keep_purge {k : Pubkey} (h0 : (L k).lamports = 0) : KeepAll m L (L.set k ⟨0, SYSTEM_PROGRAM_ID, []⟩) := by
  intro j
  by_cases e : j = k
  · subst e
    rw [Ledger.set_same]
    exact ⟨fun _ u => absurd h0 u.alive, fun f => absurd f.prog token_ne_system.symm⟩
  · rw [Ledger.set_other _ _ e]; exact ⟨fun _ h => h, id⟩

theorem keepAll_outside (hs : Steady cr L) (hm : Unfreezable (L m)) (h : Outside cr L L') : KeepAll m L L' := by
  cases h with
  | token h1 h2 h3 => exact keepAll_token hs h1 h2 (fun _ _ _ _ => hm) h3
  | program h1 h2 h3 h4 => exact keep_program h2 h4
  | purge h0 => exact keep_purge h0

/-! ### Calls of the program -/

theorem keep_amount {k : Pubkey} {a a' : Account} {w : UInt64} (hl : a.data.length = 165) (ho : a'.owner = a.owner)
    (h : AmountSet a.data a'.data w) : Keep m k a a' where
  mint _ u := by have := u.len; omega
  froz f := ⟨ho.symm.trans f.prog, hl, by rw [← h.mint]; exact f.mint, by rw [← h.state]; exact f.state⟩

theorem keep_supply {k : Pubkey} {a a' : Account} {w : UInt64} (hl : a.data.length = 82) (ho : a'.owner = a.owner)
    (hd : a'.data = writeAt a.data 36 (u64le w)) (hlam : a'.lamports = a.lamports) : Keep m k a a' := by
  have t : Touch (fun j => 36 ≤ j ∧ j < 44) a.data a'.data := by
    rw [hd]
    exact Touch.refl.write (by simp; omega) (by intro j h1 h2; simp at h2; omega)
  exact keep_mint hl ho t (by omega) (fun h => by rw [t.u32 (by intro j h1 h2; omega), h]) hlam

/-- An account not of the token program before and after. -/
theorem keep_foreign {k : Pubkey} {a a' : Account} (h : a.owner ≠ SPL_TOKEN_PROGRAM_ID)
    (h' : a'.owner ≠ SPL_TOKEN_PROGRAM_ID) : Keep m k a a' :=
  ⟨fun _ u => absurd u.prog h, fun f => absurd f.prog h'⟩

theorem keepAll_call {x : Ctx} {accs : List Meta} {ix : Instruction} {logs : List Bytes}
    (hfit : LamportsFit L accs) (hsig : SignersOk x.cr L accs) (h : Runs x L accs ix L' logs) : KeepAll m L L' := by
  have hd := h.dispatch
  cases ix with
  | Stake n =>
    obtain ⟨s, v, oa, xa, xm, st, om, tp, L1, q, r⟩ := processStake_run hd
    have e := r.eff hsig
    obtain ⟨w3, hw3, -⟩ := e.xm_data
    have ho : ∀ k, (L' k).owner = (L k).owner := e.frame.owner
    have hl : ∀ k, (L' k).lamports = (L k).lamports := e.frame.lamports
    intro k
    by_cases k1 : k = oa.key
    · subst k1; obtain ⟨w, hw, -⟩ := e.oa_data; exact keep_amount e.oa_ok.len (ho _) hw
    by_cases k2 : k = v.key
    · subst k2; obtain ⟨w, hw, -⟩ := e.v_data
      have := amountSet_writeAt (d := (L v.key).data) (v := w) (by have := e.v_ok.len; omega)
      rw [← hw] at this; exact keep_amount e.v_ok.len (ho _) this
    by_cases k3 : k = xa.key
    · subst k3; obtain ⟨w, hw, -⟩ := e.xa_data
      have := amountSet_writeAt (d := (L xa.key).data) (v := w) (by have := e.xa_ok.len; omega)
      rw [← hw] at this; exact keep_amount e.xa_ok.len (ho _) this
    by_cases k4 : k = XORCA_MINT_ID
    · subst k4; exact keep_supply e.xm_ok.len (ho _) hw3 (hl _)
    · rw [e.frame.other k (by simp [k1, k2, k3, k4])]; exact ⟨fun _ h => h, id⟩
  | Unstake n i =>
    obtain ⟨u, st, pw, xa, xm, om, v, sp, tp, L1, L3, w, e, ts, b, r⟩ := processUnstake_run hd
    obtain ⟨f, -⟩ := r.eff hsig
    obtain ⟨w3, hw3, -⟩ := f.xm_data
    obtain ⟨l, hpw, -⟩ := f.pw_new
    have hll : ∀ k, (L k).owner = SPL_TOKEN_PROGRAM_ID → k ≠ pw.key → (L' k).lamports = (L k).lamports := by
      intro k hk hkp
      by_cases hu : k = u.key
      · subst hu
        rcases f.payer with h1 | h1
        · exact absurd (hk.symm.trans h1) token_ne_system
        · have := f.paid
          exact UInt64.toNat_inj.1 (by omega)
      · exact f.lamports k (by simp [hkp, hu])
    intro k
    by_cases hkp : k = pw.key
    · subst hkp
      exact keep_foreign (by rw [r.pw_prog]; exact token_ne_system.symm) (by rw [hpw]; exact token_ne_program.symm)
    by_cases hk : (L k).owner = SPL_TOKEN_PROGRAM_ID
    · by_cases k1 : k = xa.key
      · subst k1; obtain ⟨w, hw, -⟩ := f.xa_data; exact keep_amount f.xa_ok.len (f.owner _ hkp) hw
      by_cases k4 : k = XORCA_MINT_ID
      · subst k4; exact keep_supply f.xm_ok.len (f.owner _ hkp) hw3 (hll _ hk hkp)
      have k5 : k ≠ st.key := by rintro rfl; exact token_ne_program (hk.symm.trans r.st_prog)
      exact keep_same (f.owner k hkp) (f.data k (by simp [hkp, k1, k4, k5])) (by rw [hll k hk hkp]; exact id)
    · exact keep_foreign hk (by rw [f.owner k hkp]; exact hk)
  | Withdraw i =>
    obtain ⟨u, st, pw, oa, v, om, sp, tp, L1, L2, e, r⟩ := processWithdraw_run hd
    obtain ⟨f, -⟩ := r.eff hsig
    have hpw := f.pw_closed
    have hll : ∀ k, k ≠ pw.key → (L k).lamports.toNat ≤ (L' k).lamports.toNat := by
      intro k hkp
      by_cases hu : k = u.key
      · subst hu
        obtain ⟨rest, hr⟩ := r.accs_eq
        have := hfit u (by rw [hr]; simp) pw (by rw [hr]; simp) hkp
        rw [f.refund, UInt64.toNat_add, Nat.mod_eq_of_lt this]
        omega
      · rw [f.lamports k (by simp [hkp, hu])]
    intro k
    by_cases hkp : k = pw.key
    · subst hkp
      exact keep_foreign (by rw [r.pw_prog]; exact token_ne_program.symm) (by rw [hpw]; exact token_ne_system.symm)
    by_cases hk : (L k).owner = SPL_TOKEN_PROGRAM_ID
    · by_cases k1 : k = v.key
      · subst k1; obtain ⟨w, hw, -⟩ := f.v_data; exact keep_amount f.v_ok.len (f.owner _ hkp) hw
      by_cases k2 : k = oa.key
      · subst k2; obtain ⟨w, hw, -⟩ := f.oa_data
        have := amountSet_writeAt (d := (L oa.key).data) (v := w) (by have := f.oa_ok.len; omega)
        rw [← hw] at this; exact keep_amount f.oa_ok.len (f.owner _ hkp) this
      have k5 : k ≠ st.key := by rintro rfl; exact token_ne_program (hk.symm.trans r.st_prog)
      exact keep_same (f.owner k hkp) (f.data k (by simp [hkp, k1, k2, k5])) (lamports_ne (hll k hkp))
    · exact keep_foreign hk (by rw [f.owner k hkp]; exact hk)
  | Set ins =>
    obtain ⟨a, st, d, r, rfl⟩ := processSet_run hd
    have hst : (L st.key).owner ≠ SPL_TOKEN_PROGRAM_ID := by rw [r.st_prog]; exact token_ne_program.symm
    exact keep_setData (keep_foreign hst hst)
  | Initialize c =>
    obtain ⟨p, au, st, v, xm, om, sp, tp, ap, L1, b, vb, r⟩ := processInitialize_run hd
    have f := r.eff hsig
    obtain ⟨l, hst, -⟩ := f.st_new
    obtain ⟨lv, hv, hlv⟩ := f.v_new
    intro k
    by_cases k1 : k = st.key
    · subst k1
      exact keep_foreign (by rw [r.st_sys]; exact token_ne_system.symm) (by rw [hst]; exact token_ne_program.symm)
    by_cases k2 : k = v.key
    · subst k2
      refine ⟨fun _ u => absurd (u.prog.symm.trans r.v_sys) token_ne_system, fun g => ?_⟩
      obtain ⟨e1, e2, e3, e4, e5, e6, e7, e8⟩ := freshToken_fields ORCA_MINT_ID st.key
      have := g.state
      rw [hv] at this
      simp_all
    by_cases k3 : k = p.key
    · subst k3
      rcases f.payer with h1 | h1
      · obtain ⟨l, hp, -⟩ := f.paid
        exact keep_foreign (by rw [h1]; exact token_ne_system.symm) (by rw [hp, h1]; exact token_ne_system.symm)
      · rw [h1]; exact ⟨fun _ h => h, id⟩
    · rw [f.other k (by simp [k1, k2, k3])]; exact ⟨fun _ h => h, id⟩

/-- The step in which an account gets frozen. -/
theorem freezing_step {e : Entry} {k : Pubkey} (hs : Steady cr e.pre) (hr : e.Real cr) (h0 : ¬ FrozenToken m (e.pre k))
    (h1 : FrozenToken m (e.post k)) :
    e.label = .env ∧ ∃ rent sg auth ms, NotPool cr sg ∧ tokenExec rent sg e.pre (.freeze k m auth ms false) = .ok e.post ∧
      readU32 (e.pre m).data 46 = 1 ∧ readKey (e.pre m).data 50 = auth ∧ (NotMultisig e.pre auth → sg auth = true) := by
  cases hr with
  | @call x accs ix logs M M' hx hrent hsig hfit hrun =>
    subst hx
    exact absurd ((keepAll_call hfit hsig hrun k).froz h1) h0
  | @out M M' ho =>
    refine ⟨rfl, ?_⟩
    dsimp only at hs h0 h1 ⊢
    cases ho with
    | @token _ rent sg ix h2 h3 h4 =>
      by_cases hix : ∃ acc auth ms, ix = .freeze acc m auth ms false
      · obtain ⟨acc, auth, ms, rfl⟩ := hix
        have h5 := h4
        unfold tokenExec tokFreeze at h5
        simp only [bind_eq_ok, exists_unit, ensure_eq_ok, Except.ok.injEq, unpackMint_ok] at h5
        obtain ⟨t, hk, _, _, hmint, q, ⟨_, _, rfl, _⟩, hf, hc, h6⟩ := h5
        have hka : acc = k := by
          by_contra hka
          rw [← h6, Ledger.setData_other _ _ (Ne.symm hka)] at h1
          exact h0 h1
        subst hka
        have ha := checkOwner_expected hc
        refine ⟨rent, sg, auth, ms, h3, h4, hf, ha, fun hnm => ?_⟩
        unfold checkOwner at hc
        simp only [bind_eq_ok, exists_unit, ensure_eq_ok] at hc
        have hc := hc.2
        rw [if_neg (show ¬ (_ ∧ (M auth).data.length = TOKEN_MULTISIG_LEN) from hnm), ensure_eq_ok] at hc
        exact hc
      · exact absurd ((keepAll_token hs h2 h3 (fun acc auth ms e => absurd ⟨acc, auth, ms, e⟩ hix) h4 k).froz h1) h0
    | @program _ sg p q1 q2 q3 q4 =>
      exact absurd ((keep_program q2 q4 k).froz h1) h0
    | @purge j hj => exact absurd ((keep_purge hj k).froz h1) h0

/-- Along everything that can happen. -/
theorem keepAll_world {h : List Entry} (hs : Steady cr L) (hm : Unfreezable (L m)) (hw : World cr L h L') :
    KeepAll m L L' := by
  induction hw with
  | nil => exact .refl
  | @step h e hw hr ih =>
    obtain ⟨-, h2, -⟩ := world_path hs hw
    have hm' := (ih m).mint rfl hm
    cases hr with
    | @call x accs ix logs M M' hx hrent hsig hfit hrun =>
      subst hx
      exact ih.trans (keepAll_call hfit hsig hrun)
    | @out M M' ho => exact ih.trans (keepAll_outside h2 hm' ho)

end Xorca
