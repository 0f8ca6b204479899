import Verif.Lemmas.Outside
/-
Each instruction of the token program, not signed by the pool, is an allowed step and keeps the books of xORCA.
-/
namespace Xorca
open Spec

variable {cr : Crypto} {L L' : Ledger} {sg : Pubkey → Bool} {rent : Nat → UInt64}

/-! ### Books -/

/-- No account gains xORCA, and the supply stays. -/
def Calm (L L' : Ledger) : Prop :=
  (∀ k, tokensOf L' XORCA_MINT_ID k ≤ tokensOf L XORCA_MINT_ID k) ∧ supply L' XORCA_MINT_ID = supply L XORCA_MINT_ID

theorem Calm.books (h : Calm L L') (ha : Accounted L) : Accounted L' := by
  intro S
  rw [h.2]
  exact Nat.le_trans (Finset.sum_le_sum fun k _ => h.1 k) (ha S)

/-- What is to be shown about a step. -/
def Fine (cr : Crypto) (L L' : Ledger) : Prop := TokStep cr L L' ∧ (Accounted L → Accounted L')

theorem Fine.refl : Fine cr L L := ⟨fun _ => Or.inl (.refl _), id⟩

theorem tokStep_setData {k : Pubkey} {d : Bytes} (ho : (L k).owner = SPL_TOKEN_PROGRAM_ID)
    (h : Edit cr k (L k) { L k with data := d }) : TokStep cr L (L.setData k d) := by
  intro k'
  by_cases hk : k' = k
  · subst hk; right
    have e : L.setData k' d k' = { L k' with data := d } := by simp [Ledger.setData, Ledger.set]
    rw [e]; exact ⟨ho, h⟩
  · left; rw [Ledger.setData_other _ _ hk]; exact .refl _

/-- One token account is rewritten, with its mint kept and its amount not raised (for xORCA). -/
theorem calm_setData {k : Pubkey} {d : Bytes} (hl : (L k).data.length = 165) (hm : XORCA_MINT_ID ≠ k)
    (h : d.length = 165 → readKey d 0 = XORCA_MINT_ID →
      readKey (L k).data 0 = XORCA_MINT_ID ∧ (readU64 d 64).toNat ≤ (readU64 (L k).data 64).toNat) :
    Calm L (L.setData k d) := by
  refine ⟨fun k' => ?_, ?_⟩
  · by_cases hk : k' = k
    · subst hk
      unfold tokensOf mintOf balance
      rw [Ledger.setData_owner, Ledger.setData_same]
      split
      · next hc =>
        obtain ⟨h1, h2⟩ := h hc.2.1 hc.2.2
        rw [if_pos ⟨hc.1, hl, h1⟩]; exact h2
      · exact Nat.zero_le _
    · exact Nat.le_of_eq (tokensOf_congr (by rw [Ledger.setData_owner]) (by rw [Ledger.setData_other _ _ hk]))
  · apply supply_of_data
    rw [Ledger.setData_other _ _ hm]

/-- An account that is not a token account is rewritten, with the supply kept. -/
theorem calm_setData' {k : Pubkey} {d : Bytes} (hl : d.length ≠ 165)
    (hm : XORCA_MINT_ID = k → readU64 d 36 = readU64 (L k).data 36) : Calm L (L.setData k d) := by
  refine ⟨fun k' => ?_, ?_⟩
  · by_cases hk : k' = k
    · subst hk
      rw [tokensOf_short (by rw [Ledger.setData_same]; exact hl)]; exact Nat.zero_le _
    · exact Nat.le_of_eq (tokensOf_congr (by rw [Ledger.setData_owner]) (by rw [Ledger.setData_other _ _ hk]))
  · by_cases hk : XORCA_MINT_ID = k
    · subst hk; unfold supply; rw [Ledger.setData_same, hm rfl]
    · apply supply_of_data; rw [Ledger.setData_other _ _ hk]

theorem mint_ne_of_len {k : Pubkey} (hs : Steady cr L) (hl : (L k).data.length ≠ 82) : XORCA_MINT_ID ≠ k := by
  rintro rfl; exact hl hs.mint.2.1

theorem u64_ne_zero {a b : UInt64} (h : b.toNat ≤ a.toNat) (h0 : b ≠ 0) : a ≠ 0 := by
  rintro rfl
  apply h0; apply UInt64.toNat_inj.1
  have : (0 : UInt64).toNat = 0 := rfl
  omega

/-! ### Creating accounts -/

theorem fine_initMint {mint : Pubkey} {dec : UInt8} {auth : Pubkey} {fr : Option Pubkey} (hs : Steady cr L)
    (h : tokInitMint rent L mint dec auth fr = .ok L') : Fine cr L L' := by
  unfold tokInitMint at h
  simp only [bind_eq_ok, exists_unit, ensure_eq_ok, Except.ok.injEq] at h
  simp only [TOKEN_MINT_LEN] at h
  obtain ⟨⟨ho, hl⟩, h45, _, rfl⟩ := h
  have ht : Touch (fun j => j < 36 ∨ 44 ≤ j) (L mint).data
      (packKey (writeAt (packKey (L mint).data 0 (some auth)) 44 [dec, 1]) 46 fr) := by
    refine Touch.pack (Touch.write (Touch.pack Touch.refl ?_ ?_) ?_ ?_) ?_ ?_
    · omega
    · intro j _ h; left; omega
    · simp; omega
    · intro j h _; right; omega
    · omega
    · intro j h _; right; omega
  have hne : XORCA_MINT_ID ≠ mint := by
    rintro rfl; rw [hs.mint.2.2.1] at h45; exact absurd h45 (by decide)
  exact ⟨tokStep_setData ho (edit_other (by omega) (by rw [ht.1]; omega) ho (fun h => absurd h.symm hne)),
    (calm_setData' (by rw [ht.1]; omega) (fun h => absurd h hne)).books⟩

theorem fine_initMultisig {acc : Pubkey} {m : UInt8} {keys : List Pubkey} (hs : Steady cr L)
    (h : tokInitMultisig rent L acc m keys = .ok L') : Fine cr L L' := by
  unfold tokInitMultisig at h
  simp only [bind_eq_ok, exists_unit, ensure_eq_ok, Except.ok.injEq] at h
  simp only [TOKEN_MULTISIG_LEN] at h
  obtain ⟨⟨ho, hl⟩, _, _, hk, rfl⟩ := h
  have hlen : (keys.flatMap (·.bytes)).length = 32 * keys.length := by
    clear hk
    induction keys with
    | nil => rfl
    | cons a l ih => rw [List.flatMap_cons, List.length_append, ih, a.len, List.length_cons]; omega
  have ht : Touch (fun _ => True) (L acc).data
      (writeAt (writeAt (L acc).data 0 [m, UInt8.ofNat keys.length, 1]) 3 (keys.flatMap (·.bytes))) := by
    refine Touch.write (Touch.write Touch.refl ?_ ?_) ?_ ?_
    · simp; omega
    · intros; trivial
    · rw [hlen]; omega
    · intros; trivial
  have hne := mint_ne_of_len hs (k := acc) (by omega)
  exact ⟨tokStep_setData ho (edit_other (by omega) (by rw [ht.1]; omega) ho (fun h => absurd h.symm hne)),
    (calm_setData' (by rw [ht.1]; omega) (fun h => absurd h hne)).books⟩

theorem native_ne_xorca : NATIVE_MINT_ID ≠ XORCA_MINT_ID := by decide

/-- The fields written for a new token account. -/
theorem initBytes {d : Bytes} {mint owner : Pubkey} (hl : d.length = 165) :
    (packKey (writeAt (writeAt (packKey (writeAt (writeAt d 0 mint.bytes) 32 owner.bytes) 72 none) 108 [1]) 121
      (u64le 0)) 129 none).length = 165 ∧
    readKey (packKey (writeAt (writeAt (packKey (writeAt (writeAt d 0 mint.bytes) 32 owner.bytes) 72 none) 108 [1]) 121
      (u64le 0)) 129 none) 0 = mint := by
  have l0 : (writeAt d 0 mint.bytes).length = 165 := by rw [writeAt_length (by rw [mint.len]; omega), hl]
  generalize hd0 : writeAt d 0 mint.bytes = d0 at l0
  have k0 : readKey d0 0 = mint := by rw [← hd0]; exact readKey_writeAt_same (by omega)
  have t1 : Touch (fun j => 32 ≤ j) d0 (writeAt d0 32 owner.bytes) :=
    Touch.refl.write (by rw [owner.len]; omega) (fun j h _ => h)
  have t2 : Touch (fun j => 32 ≤ j) d0 (packKey (writeAt d0 32 owner.bytes) 72 none) :=
    t1.pack (by omega) (fun j h _ => by omega)
  have t3 := t2.write (o := 108) (b := [1]) (by simp; omega) (fun j h _ => by omega)
  have t4 := t3.write (o := 121) (b := u64le 0) (by simp; omega) (fun j h _ => by omega)
  have t5 := t4.pack (o := 129) (k := none) (by omega) (fun j h _ => by omega)
  exact ⟨t5.1.trans l0, (t5.key (fun j _ h => by omega)).trans k0⟩

theorem fine_initAccount {acc mint owner : Pubkey} (hs : Steady cr L) (hrent : ∀ n, rent n ≠ 0)
    (h : tokInitAccount rent L acc mint owner = .ok L') : Fine cr L L' := by
  unfold tokInitAccount at h
  simp only [bind_eq_ok, exists_unit, ensure_eq_ok] at h
  simp only [TOKEN_ACCOUNT_LEN] at h
  obtain ⟨⟨ho, hl⟩, h108, hr, h⟩ := h
  have hne := mint_ne_of_len hs (k := acc) (by omega)
  have hlam : (L acc).lamports ≠ 0 := u64_ne_zero hr (hrent _)
  obtain ⟨l2, m2⟩ := initBytes (mint := mint) (owner := owner) hl
  generalize packKey (writeAt (writeAt (packKey (writeAt (writeAt (L acc).data 0 mint.bytes) 32 owner.bytes) 72
    none) 108 [1]) 121 (u64le 0)) 129 none = d2 at h l2 m2
  have notPool : ¬ PoolToken cr (L acc) := by
    intro p
    rcases p.state with h | h <;> rw [h108] at h <;> exact absurd h (by decide)
  have fin : ∀ d3 : Bytes, Touch (fun j => (109 ≤ j ∧ j < 121) ∨ (64 ≤ j ∧ j < 72)) d2 d3 →
      (mint = XORCA_MINT_ID → readU32 d3 109 = 0 ∧ readU64 d3 64 = 0) → Fine cr L (L.setData acc d3) := by
    intro d3 t hx
    have hm : readKey d3 0 = mint := by rw [t.key (fun j _ h => by omega), m2]
    refine ⟨tokStep_setData ho (edit_token hl ho (fun p => absurd p notPool) fun _ => ⟨fun _ _ _ => hlam, ?_⟩), ?_⟩
    · intro _ hc; rw [hm] at hc; exact (hx hc).1
    · intro ha S
      -- the new account holds no xORCA
      refine (Calm.books (L := L) ⟨fun k => ?_, ?_⟩ ha) S
      · by_cases hk : k = acc
        · subst hk
          have : tokensOf (L.setData k d3) XORCA_MINT_ID k = 0 := by
            rw [tokensOf_mint (m' := mint) (by unfold mintOf; rw [Ledger.setData_same, hm])
              (by rw [Ledger.setData_owner, ho]) (by rw [Ledger.setData_same, t.1, l2])]
            split
            · next hc => unfold balance; rw [Ledger.setData_same, (hx hc.symm).2]; rfl
            · rfl
          rw [this]; exact Nat.zero_le _
        · exact Nat.le_of_eq (tokensOf_congr (by rw [Ledger.setData_owner]) (by rw [Ledger.setData_other _ _ hk]))
      · apply supply_of_data; rw [Ledger.setData_other _ _ hne]
  split at h
  · next hc =>
    simp only [bind_eq_ok, Except.ok.injEq] at h
    obtain ⟨v, _, rfl⟩ := h
    apply fin
    · refine Touch.write (Touch.write (Touch.write Touch.refl ?_ ?_) ?_ ?_) ?_ ?_ <;>
        first | (intro j h1 h2; simp at h2; omega) | (simp; omega)
    · intro hx; rw [hc] at hx; exact absurd hx native_ne_xorca
  · simp only [bind_eq_ok, Except.ok.injEq] at h
    obtain ⟨_, _, rfl⟩ := h
    apply fin
    · refine Touch.write (Touch.write Touch.refl ?_ ?_) ?_ ?_ <;>
        first | (intro j h1 h2; simp at h2; omega) | (simp; omega)
    · intro _
      have l3 : (writeAt d2 109 (u32le 0)).length = 165 := by rw [writeAt_length (by simp; omega), l2]
      refine ⟨?_, readU64_writeAt_same (by omega)⟩
      rw [readU32_writeAt_apart (by simp; omega) (by simp [Apart]), readU32_writeAt_same (by omega)]

/-! ### Changes of a single account -/

/-- A change by a key other than the pool, of anything but mint, amount, state and native flag. -/
theorem fine_private {k : Pubkey} {d : Bytes} {t : TokenAccount} (hs : Steady cr L) (hk : needToken L k = .ok t)
    (hp : ¬ PoolToken cr (L k)) (ht : Touch (fun j => (32 ≤ j ∧ j < 64) ∨ (72 ≤ j ∧ j < 109) ∨ 113 ≤ j) (L k).data d) :
    Fine cr L (L.setData k d) := by
  obtain ⟨ho, hl, h108, -⟩ := needToken_ok hk
  have hne := mint_ne_of_len hs (k := k) (by omega)
  refine ⟨tokStep_setData ho (edit_token hl ho (fun p => absurd p hp) (sound_keep ht ?_ ?_ (fun _ => h108) ?_)),
    (calm_setData hl hne fun _ h => ⟨?_, ?_⟩).books⟩
  · intro j hj; omega
  · intro j h1 h2; omega
  · intro _; exact Nat.le_refl _
  · rw [← h]; exact (ht.key (fun j _ h => by omega)).symm
  · rw [ht.u64 (fun j _ h => by omega)]

theorem fine_approve {src delegate auth : Pubkey} {ms : List Pubkey} {n : UInt64} {chk : Option (Pubkey × UInt8)}
    (hs : Steady cr L) (hn : NotPool cr sg) (h : tokApprove sg L src delegate auth ms n chk = .ok L') : Fine cr L L' := by
  unfold tokApprove at h
  simp only [bind_eq_ok, exists_unit, ensure_eq_ok, Except.ok.injEq] at h
  obtain ⟨t, hk, _, _, hc, rfl⟩ := h
  obtain ⟨ho, hl, h108, ⟨st, _, rfl⟩, -⟩ := needToken_ok hk
  refine fine_private hs hk (poolToken_noOwner (checkOwner_notPool hs hn hc)) ?_
  refine Touch.write (Touch.pack Touch.refl ?_ ?_) ?_ ?_ <;>
    first | (intro j h1 h2; simp at h2; omega) | (simp; omega)

theorem fine_revoke {src auth : Pubkey} {ms : List Pubkey} (hs : Steady cr L) (hn : NotPool cr sg)
    (h : tokRevoke sg L src auth ms = .ok L') : Fine cr L L' := by
  unfold tokRevoke at h
  simp only [bind_eq_ok, exists_unit, ensure_eq_ok, Except.ok.injEq] at h
  obtain ⟨t, hk, _, hc, rfl⟩ := h
  obtain ⟨ho, hl, h108, ⟨st, _, rfl⟩, -⟩ := needToken_ok hk
  refine fine_private hs hk ?_ ?_
  · intro p
    refine checkOwner_notPool hs hn hc ?_
    rw [if_neg]
    · exact p.owner
    · rintro ⟨h1, _⟩
      change readU32 (L src).data 72 = 1 at h1
      rw [p.delegate] at h1; exact absurd h1 (by decide)
  · refine Touch.write (Touch.pack Touch.refl ?_ ?_) ?_ ?_ <;>
      first | (intro j h1 h2; simp at h2; omega) | (simp; omega)

theorem fine_setAccountAuthority {acc auth : Pubkey} {ty : AuthorityType} {new : Option Pubkey} {ms : List Pubkey}
    (hs : Steady cr L) (hn : NotPool cr sg) (h : tokSetAccountAuthority sg L acc ty new auth ms = .ok L') :
    Fine cr L L' := by
  unfold tokSetAccountAuthority at h
  simp only [bind_eq_ok, exists_unit, ensure_eq_ok] at h
  obtain ⟨t, hk, _, h⟩ := h
  obtain ⟨ho, hl, h108, ⟨st, _, rfl⟩, -⟩ := needToken_ok hk
  cases ty with
  | mintTokens => simp at h
  | freezeAccount => simp at h
  | accountOwner =>
    simp only [bind_eq_ok, exists_unit, Except.ok.injEq] at h
    obtain ⟨hc, k, _, rfl⟩ := h
    refine fine_private hs hk (poolToken_noOwner (checkOwner_notPool hs hn hc)) ?_
    have hb := k.len
    have t1 : Touch (fun j => (32 ≤ j ∧ j < 64) ∨ (72 ≤ j ∧ j < 109) ∨ 113 ≤ j) (L acc).data
        (writeAt (packKey (writeAt (L acc).data 32 k.bytes) 72 none) 121 (u64le 0)) := by
      refine Touch.write (Touch.pack (Touch.write Touch.refl ?_ ?_) ?_ ?_) ?_ ?_ <;>
        first | (intro j h1 h2; simp at h2; omega) | (intro j h1 h2; rw [hb] at h2; omega) | (simp; omega) | omega
    split
    · exact t1.pack (by omega) (by intro j h1 h2; omega)
    · exact t1
  | closeAccount =>
    simp only [bind_eq_ok, exists_unit, Except.ok.injEq] at h
    obtain ⟨hc, rfl⟩ := h
    refine fine_private hs hk ?_ (Touch.refl.pack (by omega) (by intro j h1 h2; omega))
    intro p
    refine checkOwner_notPool hs hn hc ?_
    unfold closer
    rw [if_neg]
    · exact p.owner
    · intro h1
      change readU32 (L acc).data 129 = 1 at h1
      rw [p.close] at h1; exact absurd h1 (by decide)

theorem fine_setMintAuthority {acc auth : Pubkey} {ty : AuthorityType} {new : Option Pubkey} {ms : List Pubkey}
    (hs : Steady cr L) (hn : NotPool cr sg) (h : tokSetMintAuthority sg L acc ty new auth ms = .ok L') :
    Fine cr L L' := by
  unfold tokSetMintAuthority at h
  simp only [bind_eq_ok] at h
  obtain ⟨m, hk, h⟩ := h
  obtain ⟨ho, hl, h45, rfl⟩ := needMint_ok hk
  have fin : ∀ d : Bytes, Touch (fun j => j < 36 ∨ 46 ≤ j) (L acc).data d → ¬ PoolMint cr (L acc) →
      Fine cr L (L.setData acc d) := by
    intro d t hp
    refine ⟨tokStep_setData ho (edit_mint hl ho t (by omega) id (fun _ p => absurd p hp)),
      (calm_setData' (by rw [t.1]; omega) (fun _ => t.u64 (fun j _ h => by omega))).books⟩
  cases ty with
  | accountOwner => simp at h
  | closeAccount => simp at h
  | mintTokens =>
    simp only [bind_eq_ok, exists_unit, ensure_eq_ok, Except.ok.injEq] at h
    obtain ⟨_, hc, rfl⟩ := h
    exact fin _ (Touch.refl.pack (by omega) (by intro j h1 h2; omega)) fun p => checkOwner_notPool hs hn hc p.auth
  | freezeAccount =>
    simp only [bind_eq_ok, exists_unit, ensure_eq_ok, Except.ok.injEq] at h
    obtain ⟨hf, hc, rfl⟩ := h
    refine fin _ (Touch.refl.pack (by omega) (by intro j h1 h2; omega)) fun p => ?_
    change readU32 (L acc).data 46 = 1 at hf
    rw [p.freeze] at hf; exact absurd hf (by decide)

theorem fine_freeze {acc mint auth : Pubkey} {ms : List Pubkey} {thaw : Bool} (hs : Steady cr L)
    (h : tokFreeze sg L acc mint auth ms thaw = .ok L') : Fine cr L L' := by
  unfold tokFreeze at h
  simp only [bind_eq_ok, exists_unit, ensure_eq_ok, Except.ok.injEq] at h
  obtain ⟨t, hk, _, _, _, m, _, _, _, rfl⟩ := h
  obtain ⟨ho, hl, h108, -⟩ := needToken_ok hk
  have hne := mint_ne_of_len hs (k := acc) (by omega)
  have ht : Touch (fun j => j = 108) (L acc).data (writeAt (L acc).data 108 [if thaw then 1 else 2]) :=
    Touch.refl.write (by simp; omega) (by intro j h1 h2; simp at h2; omega)
  refine ⟨tokStep_setData ho (edit_token hl ho (fun _ => ⟨⟨ht.1, fun j hj => ht.2 j (fun h => hj (Or.inr h))⟩, ?_, ?_⟩)
    (sound_keep ht ?_ ?_ (fun _ => h108) ?_)), (calm_setData hl hne fun _ h => ⟨?_, ?_⟩).books⟩
  · show readU8 (writeAt (L acc).data 108 [if thaw then 1 else 2]) 108 = 1 ∨ _
    rw [readU8_writeAt_same (by omega)]
    cases thaw <;> simp
  · rw [ht.u64 (fun j _ h => by omega)]
  · intro j hj; omega
  · intro j h1 h2; omega
  · intro _; exact Nat.le_refl _
  · rw [← h]; exact (ht.key (fun j _ h => by omega)).symm
  · rw [ht.u64 (fun j _ h => by omega)]

/-- A change of the amount of a native account. -/
theorem native_edit {k : Pubkey} {d : Bytes} (hs : Steady cr L) (ho : (L k).owner = SPL_TOKEN_PROGRAM_ID)
    (hl : (L k).data.length = 165) (h108 : readU8 (L k).data 108 ≠ 0) (hn : readU32 (L k).data 109 = 1)
    (ht : Touch (fun j => (64 ≤ j ∧ j < 76) ∨ (121 ≤ j ∧ j < 129)) (L k).data d) :
    ¬ PoolToken cr (L k) ∧ readKey (L k).data 0 ≠ XORCA_MINT_ID ∧ Fine cr L (L.setData k d) := by
  have hne := mint_ne_of_len hs (k := k) (by omega)
  have hx : readKey (L k).data 0 ≠ XORCA_MINT_ID := by
    intro hc
    have := (hs.sound k ho).plain hl hc
    rw [hn] at this; exact absurd this (by decide)
  have hp : ¬ PoolToken cr (L k) := by
    intro p; rw [p.native] at hn; exact absurd hn (by decide)
  refine ⟨hp, hx, tokStep_setData ho (edit_token hl ho (fun p => absurd p hp) (sound_keep ht ?_ ?_ (fun _ => h108) ?_)),
    (calm_setData hl hne fun _ h => ?_).books⟩
  · intro j hj; omega
  · intro j h1 h2; omega
  · intro _; exact Nat.le_refl _
  · rw [ht.key (fun j _ h => by omega)] at h; exact absurd h hx

theorem fine_sync {acc : Pubkey} (hs : Steady cr L) (h : tokSync L acc = .ok L') : Fine cr L L' := by
  unfold tokSync at h
  simp only [bind_eq_ok, exists_unit, ensure_eq_ok, Except.ok.injEq] at h
  obtain ⟨t, hk, hn, v, _, _, rfl⟩ := h
  obtain ⟨ho, hl, h108, ⟨st, _, rfl⟩, -⟩ := needToken_ok hk
  exact (native_edit hs ho hl h108 hn (Touch.refl.write (by simp [TA_AMOUNT]; omega)
    (by intro j h1 h2; simp [TA_AMOUNT] at h1 h2; omega))).2.2

/-! ### Lamports -/

theorem moveLamports_ok {src dst : Pubkey} {n : UInt64} (h : moveLamports L src dst n = .ok L') :
    (∀ k, (L' k).owner = (L k).owner ∧ (L' k).data = (L k).data) ∧
    (∀ k, k ≠ src → (L k).lamports.toNat ≤ (L' k).lamports.toNat) ∧
    (src = dst → (L' src).lamports = (L src).lamports) ∧
    (L src).lamports.toNat ≤ (L' src).lamports.toNat + n.toNat := by
  unfold moveLamports at h
  simp only [bind_eq_ok, okOr_eq_ok, Except.ok.injEq] at h
  obtain ⟨a, ha, b, hb, rfl⟩ := h
  rw [checkedSubU64_eq_some] at ha
  rw [checkedAddU64_eq_some] at hb
  refine ⟨fun k => by simp, ?_, ?_, ?_⟩
  · intro k hk
    by_cases h2 : k = dst
    · subst h2
      rw [Ledger.setLamports_same]
      rw [Ledger.setLamports_other _ _ hk] at hb
      change _ ≤ b.toNat; omega
    · rw [Ledger.setLamports_other _ _ h2, Ledger.setLamports_other _ _ hk]
  · rintro rfl
    rw [Ledger.setLamports_same] at hb ⊢
    change b.toNat = a.toNat + _ at hb
    apply UInt64.toNat_inj.1
    change b.toNat = _; omega
  · by_cases h2 : src = dst
    · subst h2
      rw [Ledger.setLamports_same] at hb ⊢
      change b.toNat = a.toNat + _ at hb
      change _ ≤ b.toNat + _; omega
    · rw [Ledger.setLamports_other _ _ h2, Ledger.setLamports_same]
      change _ ≤ a.toNat + _; omega

theorem fine_withdrawExcess {src dst : Pubkey} (hrent : ∀ n, rent n ≠ 0)
    (h : tokWithdrawExcess rent L src dst = .ok L') : Fine cr L L' := by
  unfold tokWithdrawExcess at h
  simp only [bind_eq_ok, exists_unit, ensure_eq_ok, okOr_eq_ok] at h
  obtain ⟨ho, v, hv, h⟩ := h
  rw [checkedSubU64_eq_some] at hv
  obtain ⟨m1, m2, m3, m4⟩ := moveLamports_ok h
  refine ⟨fun k => ?_, (Calm.books ⟨fun k => ?_, ?_⟩)⟩
  · by_cases hk : k = src
    · subst hk
      right
      refine ⟨ho, edit_lamports ((m1 _).1.trans ho) (m1 _).2 ?_⟩
      refine u64_ne_zero (b := rent (L k).data.length) ?_ (hrent _)
      omega
    · left; exact ⟨(m1 k).1, (m1 k).2, m2 k hk⟩
  · exact Nat.le_of_eq (tokensOf_congr (m1 k).1 (m1 k).2)
  · exact supply_of_data (m1 _).2

theorem fine_unwrap {src dst auth : Pubkey} {ms : List Pubkey} {n : UInt64} (hs : Steady cr L) (hn : NotPool cr sg)
    (h : tokUnwrap sg L src dst auth ms n = .ok L') : Fine cr L L' := by
  unfold tokUnwrap at h
  simp only [bind_eq_ok, exists_unit, ensure_eq_ok, okOr_eq_ok] at h
  obtain ⟨t, hk, hnat, sd, hsd, sa, hsa, h⟩ := h
  obtain ⟨ho, hl, h108, ⟨st, _, rfl⟩, -⟩ := needToken_ok hk
  obtain ⟨c1, c2, c3⟩ := checkDebit_ok (v := sa) hs hn rfl hl hsd
  obtain ⟨p1, p2, q1, q2⟩ := native_edit hs ho hl h108 hnat c1
  obtain ⟨m1, m2, m3, m4⟩ := moveLamports_ok h
  have hnat' : readU32 (L src).data 109 = 1 := hnat
  refine ⟨fun k => ?_, fun ha => ?_⟩
  · by_cases hk : k = src
    · subst hk
      right
      have e1 : (L' k).data = writeAt sd 64 (u64le sa) := by rw [(m1 k).2, Ledger.setData_same]; rfl
      refine ⟨ho, edit_token hl ?_ (fun p => absurd p p1) (sound_keep (S := fun j => (64 ≤ j ∧ j < 76) ∨ (121 ≤ j ∧ j < 129))
        (by rw [e1]; exact c1) ?_ ?_ (fun _ => h108) ?_)⟩
      · rw [(m1 k).1, Ledger.setData_owner, ho]
      · intro j hj; omega
      · intro j h1 h2; omega
      · intro h0; rw [hnat'] at h0; exact absurd h0 (by decide)
    · left
      have := m2 k hk
      rw [Ledger.setData_other _ _ hk] at this
      refine ⟨?_, ?_, this⟩
      · rw [(m1 k).1, Ledger.setData_owner]
      · rw [(m1 k).2, Ledger.setData_other _ _ hk]
  · have h1 := q2 ha
    refine Calm.books ⟨fun k => ?_, ?_⟩ h1
    · exact Nat.le_of_eq (tokensOf_congr (m1 k).1 (m1 k).2)
    · exact supply_of_data (m1 _).2

theorem fine_close {src dst auth : Pubkey} {ms : List Pubkey} (hs : Steady cr L) (hn : NotPool cr sg)
    (h : tokClose sg L src dst auth ms = .ok L') : Fine cr L L' := by
  unfold tokClose at h
  simp only [bind_eq_ok, exists_unit, ensure_eq_ok, okOr_eq_ok, Except.ok.injEq] at h
  obtain ⟨hne, t, hk, _, hau, v, hv, rfl⟩ := h
  obtain ⟨ho, hl, h108, ⟨st, _, rfl⟩, -⟩ := needToken_ok hk
  rw [checkedAddU64_eq_some] at hv
  have hm := mint_ne_of_len hs (k := src) (by omega)
  have hp : ¬ PoolToken cr (L src) := by
    intro p
    obtain ⟨b, hb⟩ := p.owner
    unfold checkClose at hau
    split at hau
    · next hc =>
      rcases hc with hc | hc
      · change readKey (L src).data 32 = _ at hc
        rw [hc] at hb; exact (hs.nobody b).1 hb
      · change readKey (L src).data 32 = _ at hc
        rw [hc] at hb; exact (hs.nobody b).2 hb
    · refine checkOwner_notPool hs hn hau ⟨b, ?_⟩
      unfold closer
      rw [if_neg]
      · exact hb
      · intro h1
        change readU32 (L src).data 129 = 1 at h1
        rw [p.close] at h1; exact absurd h1 (by decide)
  have hoth : ∀ k, k ≠ src → Credited (L k) ((L.setLamports dst v).set src ⟨0, SYSTEM_PROGRAM_ID, []⟩ k) := by
    intro k hk
    rw [Ledger.set_other _ _ hk]
    refine ⟨by simp, by simp, ?_⟩
    by_cases h2 : k = dst
    · subst h2; rw [Ledger.setLamports_same]; change _ ≤ v.toNat; omega
    · rw [Ledger.setLamports_other _ _ h2]
  refine ⟨fun k => ?_, Calm.books ⟨fun k => ?_, ?_⟩⟩
  · by_cases hk : k = src
    · subst hk; right
      exact ⟨ho, edit_close hl (by rw [Ledger.set_same]) hp⟩
    · exact Or.inl (hoth k hk)
  · by_cases hk : k = src
    · subst hk
      rw [tokensOf_foreign (by rw [Ledger.set_same]; exact token_ne_system.symm)]; exact Nat.zero_le _
    · exact Nat.le_of_eq (tokensOf_congr (hoth k hk).1 (hoth k hk).2.1)
  · exact supply_of_data (hoth _ hm).2.1

/-! ### Moving tokens -/

theorem tokens_of {L L' : Ledger} {k m : Pubkey} {S : Nat → Prop} {v : UInt64} (ho : (L' k).owner = SPL_TOKEN_PROGRAM_ID)
    (hl : (L k).data.length = 165) (ht : Touch S (L k).data (L' k).data) (hS : ∀ j, j < 32 → ¬ S j)
    (hv : readU64 (L' k).data 64 = v) :
    tokensOf L' m k = if m = mintOf L k then v.toNat else 0 := by
  rw [tokensOf_mint (m' := mintOf L k) ?_ ho (ht.1.trans hl)]
  · unfold balance; rw [hv]
  · exact ht.key (fun j _ h => hS j (by omega))

theorem fine_transfer {src dst auth : Pubkey} {ms : List Pubkey} {n : UInt64} {chk : Option (Pubkey × UInt8)}
    (hs : Steady cr L) (hn : NotPool cr sg) (h : tokTransfer sg L src dst auth ms n chk = .ok L') : Fine cr L L' := by
  unfold tokTransfer at h
  simp only [bind_eq_ok, exists_unit, ensure_eq_ok] at h
  obtain ⟨s, hk, t, hk', _, hamt, hmint, _, sd, hsd, h⟩ := h
  split at h
  · cases h; exact .refl
  next hne =>
  simp only [bind_eq_ok, okOr_eq_ok] at h
  obtain ⟨sa, hsa, ta, hta, h⟩ := h
  obtain ⟨ho, hl, h108, ⟨st, _, rfl⟩, hnat, -⟩ := needToken_ok hk
  obtain ⟨ho', hl', h108', ⟨st', _, rfl⟩, -⟩ := needToken_ok hk'
  rw [checkedSubU64_eq_some] at hsa
  rw [checkedAddU64_eq_some] at hta
  change (readU64 (L src).data 64).toNat = _ at hsa
  change ta.toNat = (readU64 (L dst).data 64).toNat + _ at hta
  change readKey (L src).data 0 = readKey (L dst).data 0 at hmint
  obtain ⟨c1, c2, c3⟩ := checkDebit_ok (v := sa) hs hn rfl hl hsd
  have td : Touch (fun j => 64 ≤ j ∧ j < 72) (L dst).data (writeAt (L dst).data 64 (u64le ta)) :=
    Touch.refl.write (by simp; omega) (by intro j h1 h2; simp at h2; omega)
  have vd : readU64 (writeAt (L dst).data 64 (u64le ta)) 64 = ta := readU64_writeAt_same (by omega)
  -- the final ledger
  obtain ⟨f1, f2, f3, f4, f5, f6⟩ : (∀ k, (L' k).owner = (L k).owner) ∧ (∀ k, k ≠ src → k ≠ dst → (L' k).data = (L k).data) ∧
      (L' src).data = writeAt sd 64 (u64le sa) ∧ (L' dst).data = writeAt (L dst).data 64 (u64le ta) ∧
      (∀ k, k ≠ src → (L k).lamports.toNat ≤ (L' k).lamports.toNat) ∧
      (readU32 (L src).data 109 = 0 → (L' src).lamports = (L src).lamports) := by
    have e1 : ((L.setData src (writeAt sd TA_AMOUNT (u64le sa))).setData dst
        (writeAt (L dst).data TA_AMOUNT (u64le ta)) src).data = writeAt sd 64 (u64le sa) := by
      rw [Ledger.setData_other _ _ hne]; simp [TA_AMOUNT]
    have e2 : ∀ k, k ≠ src → k ≠ dst → (L.setData src (writeAt sd TA_AMOUNT (u64le sa))).setData dst
        (writeAt (L dst).data TA_AMOUNT (u64le ta)) k = L k := by
      intro k h1 h2; rw [Ledger.setData_other _ _ h2, Ledger.setData_other _ _ h1]
    split at h
    · next hc =>
      obtain ⟨m1, m2, m3, m4⟩ := moveLamports_ok h
      refine ⟨fun k => by rw [(m1 k).1]; simp, fun k h1 h2 => by rw [(m1 k).2, e2 k h1 h2], by rw [(m1 _).2, e1],
        by rw [(m1 _).2]; simp [TA_AMOUNT], fun k h1 => ?_, fun h0 => ?_⟩
      · have := m2 k h1; simpa using this
      · change readU32 (L src).data 109 = 1 at hc
        rw [h0] at hc; exact absurd hc (by decide)
    · simp only [Except.ok.injEq] at h
      subst h
      exact ⟨fun k => by simp, fun k h1 h2 => by rw [e2 k h1 h2], e1, by simp [TA_AMOUNT], fun k _ => by simp,
        fun _ => by simp⟩
  have hp : ¬ PoolToken cr (L src) := poolToken_noDebit c3
  have hmn := mint_ne_of_len hs (k := src) (by omega)
  have hmn' := mint_ne_of_len hs (k := dst) (by omega)
  refine ⟨fun k => ?_, fun ha => ?_⟩
  · by_cases k1 : k = src
    · subst k1; right
      refine ⟨ho, edit_token hl ((f1 k).trans ho) (fun p => absurd p hp)
        (sound_keep (S := fun j => (64 ≤ j ∧ j < 76) ∨ (121 ≤ j ∧ j < 129)) (by rw [f3]; exact c1) ?_ ?_ (fun _ => h108) ?_)⟩
      · intro j hj; omega
      · intro j h1 h2; omega
      · intro h0; rw [f6 h0]
    by_cases k2 : k = dst
    · subst k2; right
      refine ⟨ho', edit_token hl' ((f1 k).trans ho') (fun p => ?_)
        (sound_keep (S := fun j => 64 ≤ j ∧ j < 72) (by rw [f4]; exact td) ?_ ?_ (fun _ => h108') ?_)⟩
      · rw [f4]
        refine ⟨⟨td.1, fun j hj => td.2 j fun h => hj (Or.inl h)⟩, ?_, ?_⟩
        · rw [td.u8 (by omega)]; exact p.state
        · rw [vd]; omega
      · intro j hj; omega
      · intro j h1 h2; omega
      · intro _; exact f5 k k1
    · left
      exact ⟨f1 k, f2 k k1 k2, f5 k k1⟩
  · have hsup : supply L' XORCA_MINT_ID = supply L XORCA_MINT_ID := supply_of_data (f2 _ hmn hmn')
    have tok : ∀ k, tokensOf L' XORCA_MINT_ID k +
          (if src = k then if XORCA_MINT_ID = mintOf L src then n.toNat else 0 else 0) =
        tokensOf L XORCA_MINT_ID k + (if dst = k then if XORCA_MINT_ID = mintOf L src then n.toNat else 0 else 0) := by
      intro k
      by_cases k1 : src = k
      · subst k1
        rw [tokens_of (v := sa) ((f1 _).trans ho) hl (by rw [f3]; exact c1) (by intro j hj; omega) (by rw [f3]; exact c2),
          tokensOf_mint rfl ho hl, if_pos rfl, if_neg (Ne.symm hne)]
        unfold balance
        split <;> omega
      rw [if_neg k1]
      by_cases k2 : dst = k
      · subst k2
        have e : mintOf L dst = mintOf L src := hmint.symm
        rw [tokens_of (v := ta) ((f1 _).trans ho') hl' (by rw [f4]; exact td) (by intro j hj; omega) (by rw [f4]; exact vd),
          tokensOf_mint rfl ho' hl', if_pos rfl, e]
        unfold balance
        split <;> omega
      rw [if_neg k2, tokensOf_congr (f1 k) (f2 k (Ne.symm k1) (Ne.symm k2))]
    refine ha.of (A := {src, dst}) fun S hS => ?_
    have h1 := Finset.sum_congr (s₁ := S) rfl fun k _ => tok k
    simp only [Finset.sum_add_distrib, Finset.sum_ite_eq, hS (Finset.mem_insert_self src {dst}),
      hS (Finset.mem_insert_of_mem (Finset.mem_singleton_self dst)), if_true] at h1
    unfold totalTokens
    omega

/-- One token account and one mint change together. -/
theorem fine_two {mint k0 : Pubkey} {d dm : Bytes} {S : Nat → Prop} {v w : UInt64} (hs : Steady cr L)
    (ho : (L k0).owner = SPL_TOKEN_PROGRAM_ID) (hl : (L k0).data.length = 165) (h108 : readU8 (L k0).data 108 ≠ 0)
    (hom : (L mint).owner = SPL_TOKEN_PROGRAM_ID) (hlm : (L mint).data.length = 82)
    (ht : Touch S (L k0).data d) (h0 : ∀ j, j < 32 → ¬ S j) (h1 : ∀ j, 109 ≤ j → j < 113 → ¬ S j)
    (hv : readU64 d 64 = v) (hdm : dm = writeAt (L mint).data 36 (u64le w)) (hmint : readKey (L k0).data 0 = mint)
    (hp : PoolToken cr (L k0) → d = writeAt (L k0).data 64 (u64le v) ∧ (readU64 (L k0).data 64).toNat ≤ v.toNat)
    (hq : PoolMint cr (L mint) → w.toNat ≤ (readU64 (L mint).data 36).toNat)
    (hb : v.toNat + (readU64 (L mint).data 36).toNat ≤ (readU64 (L k0).data 64).toNat + w.toNat) :
    Fine cr L ((L.setData k0 d).setData mint dm) := by
  have hne : k0 ≠ mint := by rintro rfl; omega
  have hmn := mint_ne_of_len hs (k := k0) (by omega)
  have hlw : 36 + (u64le w).length ≤ (L mint).data.length := by simp; omega
  have tm : Touch (fun j => 36 ≤ j ∧ j < 44) (L mint).data dm := by
    rw [hdm]; exact Touch.refl.write hlw (by intro j a b; simp at b; omega)
  have vm : readU64 dm 36 = w := by rw [hdm]; exact readU64_writeAt_same (by omega)
  have e1 : ((L.setData k0 d).setData mint dm k0) = { L k0 with data := d } := by
    rw [Ledger.setData_other _ _ hne]; simp [Ledger.setData, Ledger.set]
  have e2 : ((L.setData k0 d).setData mint dm mint) = { L mint with data := dm } := by
    apply account_ext <;> simp
  have e3 : ∀ k, k ≠ k0 → k ≠ mint → (L.setData k0 d).setData mint dm k = L k := by
    intro k a b; rw [Ledger.setData_other _ _ b, Ledger.setData_other _ _ a]
  refine ⟨fun k => ?_, fun ha => ?_⟩
  · by_cases k1 : k = k0
    · subst k1; right
      rw [e1]
      refine ⟨ho, edit_token hl ho (fun p => ?_) (sound_keep ht h0 h1 (fun _ => h108) fun _ => Nat.le_refl _)⟩
      obtain ⟨p1, p2⟩ := hp p
      have td : Touch (fun j => (64 ≤ j ∧ j < 72) ∨ j = 108) (L k).data d := by
        rw [p1]; exact Touch.refl.write (by simp; omega) (by intro j a b; simp at b; left; omega)
      refine ⟨td, ?_, ?_⟩
      · show readU8 d 108 = 1 ∨ _
        rw [p1, readU8_writeAt_apart (by simp; omega) (by simp [Apart])]; exact p.state
      · show _ ≤ (readU64 d 64).toNat
        rw [hv]; exact p2
    by_cases k2 : k = mint
    · subst k2; right
      rw [e2]
      refine ⟨hom, edit_mint hlm hom tm (by omega) id (fun _ p => ⟨?_, ?_⟩)⟩
      · show SameExcept 36 8 (L k).data dm
        rw [hdm]
        exact sameExcept_writeAt (b := u64le w) hlw
      · show (readU64 dm 36).toNat ≤ _
        rw [vm]; exact hq p
    · left; rw [e3 k k1 k2]; exact .refl _
  · have tok : ∀ k, tokensOf ((L.setData k0 d).setData mint dm) XORCA_MINT_ID k +
          (if k0 = k then if XORCA_MINT_ID = mint then (readU64 (L k0).data 64).toNat else 0 else 0) =
        tokensOf L XORCA_MINT_ID k + (if k0 = k then if XORCA_MINT_ID = mint then v.toNat else 0 else 0) := by
      intro k
      by_cases k1 : k0 = k
      · subst k1
        have e : mintOf L k0 = mint := hmint
        rw [tokens_of (L := L) (v := v) (S := S) (by rw [e1]; exact ho) hl (by rw [e1]; exact ht) h0 (by rw [e1]; exact hv),
          tokensOf_mint rfl ho hl, if_pos rfl, if_pos rfl, e]
        unfold balance
        split <;> omega
      rw [if_neg k1, if_neg k1, Nat.add_zero, Nat.add_zero]
      by_cases k2 : k = mint
      · subst k2
        rw [tokensOf_short (by rw [e2]; show dm.length ≠ 165; rw [tm.1]; omega), tokensOf_short (by omega)]
      · exact tokensOf_congr (by rw [e3 k (Ne.symm k1) k2]) (by rw [e3 k (Ne.symm k1) k2])
    refine ha.of (A := {k0}) fun S hS => ?_
    have h1 := Finset.sum_congr (s₁ := S) rfl fun k _ => tok k
    simp only [Finset.sum_add_distrib, Finset.sum_ite_eq, hS (Finset.mem_singleton_self k0), if_true] at h1
    unfold totalTokens
    by_cases hm : XORCA_MINT_ID = mint
    · subst hm
      rw [if_pos rfl, if_pos rfl] at h1
      have : supply ((L.setData k0 d).setData XORCA_MINT_ID dm) XORCA_MINT_ID = w.toNat := by
        unfold supply; rw [e2]; show (readU64 dm 36).toNat = _; rw [vm]
      rw [this]
      unfold supply
      omega
    · rw [if_neg hm, if_neg hm] at h1
      have : supply ((L.setData k0 d).setData mint dm) XORCA_MINT_ID = supply L XORCA_MINT_ID :=
        supply_of_data (by rw [e3 _ hmn hm])
      omega

theorem fine_mintTo {mint dst auth : Pubkey} {ms : List Pubkey} {n : UInt64} {chk : Option (Pubkey × UInt8)}
    (hs : Steady cr L) (hn : NotPool cr sg) (h : tokMintTo sg L mint dst auth ms n chk = .ok L') : Fine cr L L' := by
  unfold tokMintTo at h
  simp only [bind_eq_ok, exists_unit, ensure_eq_ok, okOr_eq_ok, Except.ok.injEq] at h
  obtain ⟨t, hk, _, hnat, hmint, m, hm, _, hfl, hau, ta, hta, v, hv, rfl⟩ := h
  obtain ⟨ho, hl, h108, ⟨st, _, rfl⟩, -⟩ := needToken_ok hk
  obtain ⟨hom, hlm, h45, rfl⟩ := needMint_ok hm
  rw [checkedAddU64_eq_some] at hta hv
  change ta.toNat = (readU64 (L dst).data 64).toNat + _ at hta
  change v.toNat = (readU64 (L mint).data 36).toNat + _ at hv
  refine fine_two (S := fun j => 64 ≤ j ∧ j < 72) (v := ta) (w := v) hs ho hl h108 hom hlm
    (Touch.refl.write (by simp [TA_AMOUNT]; omega) ?_) ?_ ?_ ?_ rfl hmint ?_ ?_ ?_
  · intro j h1 h2; simp [TA_AMOUNT] at h1 h2; omega
  · intro j hj; omega
  · intro j h1 h2; omega
  · exact readU64_writeAt_same (by simp [TA_AMOUNT]; omega)
  · intro _; exact ⟨rfl, by omega⟩
  · intro p; exact absurd p.auth (checkOwner_notPool hs hn hau)
  · omega

theorem fine_burn {src mint auth : Pubkey} {ms : List Pubkey} {n : UInt64} {chk : Option (Pubkey × UInt8)}
    (hs : Steady cr L) (hn : NotPool cr sg) (h : tokBurn sg L src mint auth ms n chk = .ok L') : Fine cr L L' := by
  unfold tokBurn at h
  simp only [bind_eq_ok, exists_unit, ensure_eq_ok, okOr_eq_ok, Except.ok.injEq] at h
  obtain ⟨s, hk, m, hm, _, hnat, hamt, hmint, _, sd, hsd, sa, hsa, v, hv, rfl⟩ := h
  obtain ⟨ho, hl, h108, ⟨st, _, rfl⟩, -⟩ := needToken_ok hk
  obtain ⟨hom, hlm, h45, rfl⟩ := needMint_ok hm
  rw [checkedSubU64_eq_some] at hsa hv
  change (readU64 (L src).data 64).toNat = _ at hsa
  change (readU64 (L mint).data 36).toNat = _ at hv
  obtain ⟨c1, c2, c3⟩ : Touch (fun j => (64 ≤ j ∧ j < 76) ∨ (121 ≤ j ∧ j < 129)) (L src).data (writeAt sd 64 (u64le sa)) ∧
      readU64 (writeAt sd 64 (u64le sa)) 64 = sa ∧ ¬ PoolToken cr (L src) := by
    unfold checkBurn at hsd
    split at hsd
    · next hc =>
      simp only [Except.ok.injEq] at hsd
      subst hsd
      refine ⟨Touch.refl.write (by simp; omega) (by intro j h1 h2; simp at h2; omega), readU64_writeAt_same (by omega), ?_⟩
      intro p
      obtain ⟨b, hb⟩ := p.owner
      rcases hc with hc | hc
      · change readKey (L src).data 32 = _ at hc
        rw [hc] at hb; exact (hs.nobody b).1 hb
      · change readKey (L src).data 32 = _ at hc
        rw [hc] at hb; exact (hs.nobody b).2 hb
    · obtain ⟨c1, c2, c3⟩ := checkDebit_ok (v := sa) hs hn rfl hl hsd
      exact ⟨c1, c2, poolToken_noDebit c3⟩
  refine fine_two (v := sa) (w := v) hs ho hl h108 hom hlm c1 ?_ ?_ c2 rfl hmint ?_ ?_ ?_
  · intro j hj; omega
  · intro j h1 h2; omega
  · intro p; exact absurd p c3
  · intro _; omega
  · omega

/-- Every instruction of the token program that the pool does not sign. -/
theorem fine_token {ix : TokenIx} (hs : Steady cr L) (hrent : ∀ n, rent n ≠ 0) (hn : NotPool cr sg)
    (h : tokenExec rent sg L ix = .ok L') : Fine cr L L' := by
  cases ix with
  | initializeMint mint dec auth freeze => exact fine_initMint hs h
  | initializeAccount acc mint owner => exact fine_initAccount hs hrent h
  | initializeMultisig acc m keys => exact fine_initMultisig hs h
  | transfer src dst auth ms n chk => exact fine_transfer hs hn h
  | approve src delegate auth ms n chk => exact fine_approve hs hn h
  | revoke src auth ms => exact fine_revoke hs hn h
  | setAuthority acc ty new auth ms =>
    simp only [tokenExec] at h
    split at h
    · exact fine_setAccountAuthority hs hn h
    · exact fine_setMintAuthority hs hn h
  | mintTo mint dst auth ms n chk => exact fine_mintTo hs hn h
  | burn src mint auth ms n chk => exact fine_burn hs hn h
  | closeAccount src dst auth ms => exact fine_close hs hn h
  | freeze acc mint auth ms thaw => exact fine_freeze hs h
  | syncNative acc => exact fine_sync hs h
  | query => cases h; exact .refl
  | withdrawExcess src dst auth ms => exact fine_withdrawExcess hrent h
  | unwrapLamports src dst auth ms n => exact fine_unwrap hs hn h

end Xorca
