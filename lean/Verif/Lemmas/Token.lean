import Verif.Lemmas.Runtime
/-
Effects of the token program calls, by byte offset.
-/
namespace Xorca

theorem decodeTokenAccount_ok {d : Bytes} {t : TokenAccount} :
    decodeTokenAccount d = some t ↔
      165 ≤ d.length ∧ ∃ st, tokenStateOf (readU8 d 108) = some st ∧ tokenAccountAt d st = t := by
  rw [decodeTokenAccount_eq]
  split
  · next h => simp [h]
  · next h => simp [h]

theorem decodeTokenMint_ok {d : Bytes} {t : TokenMint} :
    decodeTokenMint d = some t ↔
      82 ≤ d.length ∧ ∃ b, boolOf (readU8 d 45) = some b ∧ tokenMintAt d b = t := by
  rw [decodeTokenMint_eq]
  split
  · next h => simp [h]
  · next h => simp [h]

theorem tokenStateOf_eq {b : UInt8} {st : TokenAccountState} :
    tokenStateOf b = some st ↔
      (b = 0 ∧ st = .Uninitialized) ∨ (b = 1 ∧ st = .Initialized) ∨ (b = 2 ∧ st = .Frozen) := by
  unfold tokenStateOf
  by_cases h0 : b = 0
  · subst h0; simp [eq_comm]
  · by_cases h1 : b = 1
    · subst h1; simp [eq_comm]
    · by_cases h2 : b = 2
      · subst h2; simp [eq_comm]
      · simp [h0, h1, h2]

theorem boolOf_eq {b : UInt8} {v : Bool} :
    boolOf b = some v ↔ (b = 0 ∧ v = false) ∨ (b = 1 ∧ v = true) := by
  unfold boolOf
  by_cases h0 : b = 0
  · subst h0; simp [eq_comm]
  · by_cases h1 : b = 1
    · subst h1; simp [eq_comm]
    · simp [h0, h1]

/-- A token account the token program accepts as source or destination. -/
structure TokUsable (a : Account) : Prop where
  owner : a.owner = SPL_TOKEN_PROGRAM_ID
  len : a.data.length = 165
  state : readU8 a.data 108 = 1
  native : readU32 a.data 109 = 0
  dflag : readU32 a.data 72 = 0 ∨ readU32 a.data 72 = 1
  cflag : readU32 a.data 129 = 0 ∨ readU32 a.data 129 = 1

/-- A mint the token program accepts. -/
structure MintUsable (a : Account) : Prop where
  owner : a.owner = SPL_TOKEN_PROGRAM_ID
  len : a.data.length = 82
  init : readU8 a.data 45 = 1
  aflag : readU32 a.data 0 = 0 ∨ readU32 a.data 0 = 1
  fflag : readU32 a.data 46 = 0 ∨ readU32 a.data 46 = 1

theorem unpackTokenAccount_ok {d : Bytes} {t : TokenAccount} :
    unpackTokenAccount d = .ok t ↔
      d.length = 165 ∧ (∃ st, tokenStateOf (readU8 d 108) = some st ∧ tokenAccountAt d st = t) ∧
      (coptionOk (readU32 d 72) ∧ coptionOk (readU32 d 109) ∧ coptionOk (readU32 d 129)) ∧
      readU8 d 108 ≠ 0 := by
  unfold unpackTokenAccount
  simp only [bind_eq_ok, exists_unit, ensure_eq_ok, okOr_eq_ok, Except.ok.injEq, decodeTokenAccount_ok]
  simp only [TOKEN_ACCOUNT_LEN]
  constructor
  · rintro ⟨h1, t', ⟨_, st, h3, h4⟩, h5, h6, h7⟩
    subst h7; subst h4
    refine ⟨h1, ⟨st, h3, rfl⟩, h5, ?_⟩
    intro h0
    rw [tokenStateOf_eq] at h3
    rcases h3 with h | h | h
    · exact h6 h.2
    · rw [h0] at h; exact absurd h.1 (by decide)
    · rw [h0] at h; exact absurd h.1 (by decide)
  · rintro ⟨h1, ⟨st, h3, h4⟩, h5, h6⟩
    subst h4
    refine ⟨h1, _, ⟨by omega, st, h3, rfl⟩, h5, ?_, rfl⟩
    rintro rfl
    rw [tokenStateOf_eq] at h3
    simp at h3; exact h6 h3

theorem unpackMint_ok {d : Bytes} {m : TokenMint} :
    unpackMint d = .ok m ↔
      d.length = 82 ∧ readU8 d 45 = 1 ∧ tokenMintAt d true = m ∧
      coptionOk (readU32 d 0) ∧ coptionOk (readU32 d 46) := by
  unfold unpackMint
  simp only [bind_eq_ok, exists_unit, ensure_eq_ok, okOr_eq_ok, Except.ok.injEq, decodeTokenMint_ok]
  simp only [TOKEN_MINT_LEN]
  constructor
  · rintro ⟨h1, t', ⟨_, st, h3, h4⟩, h5, h6, h7⟩
    subst h7; subst h4
    obtain rfl : st = true := h6
    rw [boolOf_eq] at h3
    simp at h3
    exact ⟨h1, h3, rfl, h5⟩
  · rintro ⟨h1, h2, h4, h5⟩
    subst h4
    exact ⟨h1, _, ⟨by omega, true, by simp [boolOf_eq, h2], rfl⟩, h5, rfl, rfl⟩

/-- Only data of listed accounts changes. -/
structure DataFrame (L L' : Ledger) (ks : List Pubkey) : Prop where
  owner : ∀ k, (L' k).owner = (L k).owner
  lamports : ∀ k, (L' k).lamports = (L k).lamports
  other : ∀ k, k ∉ ks → L' k = L k

theorem account_ext {a b : Account} (h1 : a.lamports = b.lamports) (h2 : a.owner = b.owner)
    (h3 : a.data = b.data) : a = b := by
  cases a; cases b; simp_all

theorem DataFrame.data_other {L L' : Ledger} {ks : List Pubkey} (h : DataFrame L L' ks) {k : Pubkey}
    (hk : k ∉ ks) : (L' k).data = (L k).data := by rw [h.other k hk]

theorem DataFrame.trans {L L1 L2 : Ledger} {ks ks' : List Pubkey} (h : DataFrame L L1 ks)
    (h' : DataFrame L1 L2 ks') : DataFrame L L2 (ks ++ ks') where
  owner k := by rw [h'.owner, h.owner]
  lamports k := by rw [h'.lamports, h.lamports]
  other k hk := by
    rw [List.mem_append, not_or] at hk
    rw [h'.other k hk.2, h.other k hk.1]

theorem dataFrame_setData (L : Ledger) (k : Pubkey) (d : Bytes) : DataFrame L (L.setData k d) [k] where
  owner _ := by simp
  lamports _ := by simp
  other k' hk := Ledger.setData_other _ _ (by simpa using hk)

theorem DataFrame.mono {L L' : Ledger} {ks ks' : List Pubkey} (h : DataFrame L L' ks) (hs : ks ⊆ ks') :
    DataFrame L L' ks' :=
  ⟨h.owner, h.lamports, fun k hk => h.other k fun h' => hk (hs h')⟩

/-- A signer passing the token program's authority check against account data `d`. -/
def DebitAuth (d : Bytes) (auth : Pubkey) : Prop :=
  readKey d 32 = auth ∨ (readU32 d 72 = 1 ∧ readKey d 76 = auth)

theorem tokUsable_of_unpack {a : Account} {t : TokenAccount} (ho : a.owner = SPL_TOKEN_PROGRAM_ID)
    (h : unpackTokenAccount a.data = .ok t) (hf : t.state ≠ .Frozen) (hn : t.isNativeFlag = 0) :
    TokUsable a ∧ ∃ st, t = tokenAccountAt a.data st := by
  obtain ⟨h1, ⟨st, h2, h3⟩, h4, h5⟩ := unpackTokenAccount_ok.1 h
  subst h3
  refine ⟨⟨ho, h1, ?_, hn, h4.1, h4.2.2⟩, st, rfl⟩
  rw [tokenStateOf_eq] at h2
  rcases h2 with h | h | h
  · exact absurd h.1 h5
  · exact h.1
  · exact absurd h.2 hf

theorem TokUsable.unpack {a : Account} (h : TokUsable a) :
    unpackTokenAccount a.data = .ok (tokenAccountAt a.data .Initialized) := by
  rw [unpackTokenAccount_ok]
  refine ⟨h.len, ⟨_, ?_, rfl⟩, ⟨h.dflag, Or.inl h.native, h.cflag⟩, ?_⟩
  · rw [tokenStateOf_eq, h.state]; simp
  · rw [h.state]; decide

theorem mintUsable_of_unpack {a : Account} {t : TokenMint} (ho : a.owner = SPL_TOKEN_PROGRAM_ID)
    (h : unpackMint a.data = .ok t) : MintUsable a ∧ t = tokenMintAt a.data true := by
  obtain ⟨h1, h2, h3, h4, h5⟩ := unpackMint_ok.1 h
  exact ⟨⟨ho, h1, h2, h4, h5⟩, h3.symm⟩

theorem MintUsable.unpack {a : Account} (h : MintUsable a) :
    unpackMint a.data = .ok (tokenMintAt a.data true) := by
  rw [unpackMint_ok]
  exact ⟨h.len, h.init, rfl, h.aflag, h.fflag⟩

/-- What a successful transfer between different accounts did. -/
structure TransferEff (L L' : Ledger) (src dst auth : Pubkey) (amt : UInt64) : Prop where
  frame : DataFrame L L' [src, dst]
  src_ok : TokUsable (L src)
  dst_ok : TokUsable (L dst)
  mint : readKey (L src).data 0 = readKey (L dst).data 0
  debitAuth : DebitAuth (L src).data auth
  multisig : ¬ ((L auth).owner = SPL_TOKEN_PROGRAM_ID ∧ (L auth).data.length = 355)
  debit : ∃ v, AmountSet (L src).data (L' src).data v ∧
    v.toNat + amt.toNat = (readU64 (L src).data 64).toNat
  credit : ∃ v, (L' dst).data = writeAt (L dst).data 64 (u64le v) ∧
    v.toNat = (readU64 (L dst).data 64).toNat + amt.toNat
  exact_src : readU32 (L src).data 72 ≠ 1 →
    ∃ v, (L' src).data = writeAt (L src).data 64 (u64le v)

theorem authorizeDebit_multisig {L : Ledger} {t : TokenAccount} {d sd : Bytes} {auth : Pubkey} {amt : UInt64}
    {keep : Bool} (h : authorizeDebit L t d auth amt keep = .ok sd) :
    ¬ ((L auth).owner = SPL_TOKEN_PROGRAM_ID ∧ (L auth).data.length = 355) := by
  unfold authorizeDebit at h
  split at h
  · simp only [bind_eq_ok, exists_unit, validateOwner_ok] at h; exact h.1.2
  · simp only [bind_eq_ok, exists_unit, validateOwner_ok] at h; exact h.1.2

theorem splTransfer_eff {L L' : Ledger} {src dst auth : Pubkey} {amt : UInt64} (hne : src ≠ dst)
    (h : splTransfer L src dst auth amt = .ok L') : TransferEff L L' src dst auth amt := by
  unfold splTransfer at h
  simp only [bind_eq_ok, exists_unit, ensure_eq_ok, okOr_eq_ok, if_neg hne, Except.ok.injEq] at h
  obtain ⟨⟨ho1, ho2⟩, s, hs, t, ht, ⟨hf1, hf2⟩, hamt, hmint, ⟨hn1, hn2⟩, sd, hsd, sa, hsa, ta, hta, rfl⟩ := h
  obtain ⟨us, st1, rfl⟩ := tokUsable_of_unpack ho1 hs hf1 hn1
  obtain ⟨ut, st2, rfl⟩ := tokUsable_of_unpack ho2 ht hf2 hn2
  obtain ⟨a1, a2, a3⟩ := authorizeDebit_ok (v := sa) (Nat.le_of_eq us.len.symm) hsd
  rw [checkedSubU64_eq_some] at hsa
  rw [checkedAddU64_eq_some] at hta
  have e1 : ((L.setData src (writeAt sd TA_AMOUNT (u64le sa))).setData dst
      (writeAt (L dst).data TA_AMOUNT (u64le ta)) src).data = writeAt sd TA_AMOUNT (u64le sa) := by
    rw [Ledger.setData_other _ _ hne]; simp
  refine ⟨?_, us, ut, hmint, a2, authorizeDebit_multisig hsd, ⟨sa, ?_, ?_⟩, ⟨ta, by simp [TA_AMOUNT], hta⟩, ?_⟩
  · exact (dataFrame_setData L src _).trans (dataFrame_setData _ dst _)
  · rw [e1]; exact a1
  · change (readU64 (L src).data 64).toNat = _ at hsa; omega
  · intro hd
    refine ⟨sa, ?_⟩
    rw [e1, a3 hd]; rfl

/-- Sufficient conditions for a transfer by the token owner. -/
theorem splTransfer_succeeds {L : Ledger} {src dst auth : Pubkey} {amt : UInt64} (hne : src ≠ dst)
    (us : TokUsable (L src)) (ut : TokUsable (L dst)) (hm : readKey (L src).data 0 = readKey (L dst).data 0)
    (ho : readKey (L src).data 32 = auth)
    (hd : ¬ (readU32 (L src).data 72 = 1 ∧ readKey (L src).data 76 = auth) ∨
      amt.toNat ≤ (readU64 (L src).data 121).toNat)
    (hms : ¬ ((L auth).owner = SPL_TOKEN_PROGRAM_ID ∧ (L auth).data.length = 355))
    (ha : amt.toNat ≤ (readU64 (L src).data 64).toNat)
    (hov : (readU64 (L dst).data 64).toNat + amt.toNat < 2 ^ 64) :
    ∃ L', splTransfer L src dst auth amt = .ok L' := by
  have hauth : ∃ sd, authorizeDebit L (tokenAccountAt (L src).data .Initialized) (L src).data auth amt
      (decide (src = dst)) = .ok sd := by
    have e : decide (src = dst) = false := by simp [hne]
    rw [e]
    unfold authorizeDebit
    by_cases hc : (tokenAccountAt (L src).data .Initialized).delegateFlag = 1 ∧
        (tokenAccountAt (L src).data .Initialized).delegate = auth
    · rw [if_pos hc]
      simp only [bind_eq_ok, exists_unit, validateOwner_ok, ensure_eq_ok]
      refine ⟨_, ⟨hc.2, hms⟩, ?_, rfl⟩
      rcases hd with hd | hd
      · exact absurd hc hd
      · exact hd
    · rw [if_neg hc]
      refine ⟨(L src).data, ?_⟩
      simp only [bind_eq_ok, exists_unit, validateOwner_ok]
      exact ⟨⟨ho, hms⟩, trivial⟩
  obtain ⟨sd, hsd⟩ := hauth
  obtain ⟨ta, hta⟩ : ∃ ta, checkedAddU64 (readU64 (L dst).data 64) amt = some ta := by
    unfold checkedAddU64; rw [if_pos hov]; exact ⟨_, rfl⟩
  obtain ⟨sa, hsa⟩ : ∃ sa, checkedSubU64 (readU64 (L src).data 64) amt = some sa := by
    unfold checkedSubU64; rw [if_pos ha]; exact ⟨_, rfl⟩
  unfold splTransfer
  simp only [bind_eq_ok, exists_unit, ensure_eq_ok, okOr_eq_ok, if_neg hne, Except.ok.injEq]
  exact ⟨_, ⟨us.owner, ut.owner⟩, _, us.unpack, _, ut.unpack, by simp [tokenAccountAt], ha, hm,
    ⟨us.native, ut.native⟩, sd, hsd, sa, hsa, ta, hta, rfl⟩

/-- What a successful mint did. -/
structure MintEff (L L' : Ledger) (mint dst auth : Pubkey) (amt : UInt64) : Prop where
  frame : DataFrame L L' [mint, dst]
  ne : mint ≠ dst
  mint_ok : MintUsable (L mint)
  dst_ok : TokUsable (L dst)
  dst_mint : readKey (L dst).data 0 = mint
  aflag : readU32 (L mint).data 0 = 1
  authKey : readKey (L mint).data 4 = auth
  multisig : ¬ ((L auth).owner = SPL_TOKEN_PROGRAM_ID ∧ (L auth).data.length = 355)
  supply : ∃ v, (L' mint).data = writeAt (L mint).data 36 (u64le v) ∧
    v.toNat = (readU64 (L mint).data 36).toNat + amt.toNat
  credit : ∃ v, (L' dst).data = writeAt (L dst).data 64 (u64le v) ∧
    v.toNat = (readU64 (L dst).data 64).toNat + amt.toNat

theorem splMintTo_eff {L L' : Ledger} {mint dst auth : Pubkey} {amt : UInt64}
    (h : splMintTo L mint dst auth amt = .ok L') : MintEff L L' mint dst auth amt := by
  unfold splMintTo at h
  simp only [bind_eq_ok, exists_unit, ensure_eq_ok, okOr_eq_ok, validateOwner_ok, Except.ok.injEq] at h
  obtain ⟨⟨ho1, ho2⟩, t, ht, hf, hn, hmint, m, hm, haf, ⟨ha, hms⟩, ta, hta, ms, hms2, rfl⟩ := h
  obtain ⟨ut, st2, rfl⟩ := tokUsable_of_unpack ho2 ht hf hn
  obtain ⟨um, rfl⟩ := mintUsable_of_unpack ho1 hm
  rw [checkedAddU64_eq_some] at hta hms2
  have hne : dst ≠ mint := by
    rintro rfl; have := ut.len; rw [um.len] at this; omega
  refine ⟨?_, hne.symm, um, ut, hmint, haf, ha, hms, ⟨ms, by simp [MINT_SUPPLY], hms2⟩, ⟨ta, ?_, hta⟩⟩
  · exact ((dataFrame_setData L dst _).trans (dataFrame_setData _ mint _)).mono (by simp)
  · rw [Ledger.setData_other _ _ hne]; simp [TA_AMOUNT]

theorem splMintTo_succeeds {L : Ledger} {mint dst auth : Pubkey} {amt : UInt64}
    (um : MintUsable (L mint)) (ut : TokUsable (L dst)) (hm : readKey (L dst).data 0 = mint)
    (hf : readU32 (L mint).data 0 = 1) (ha : readKey (L mint).data 4 = auth)
    (hms : ¬ ((L auth).owner = SPL_TOKEN_PROGRAM_ID ∧ (L auth).data.length = 355))
    (hov : (readU64 (L dst).data 64).toNat + amt.toNat < 2 ^ 64)
    (hos : (readU64 (L mint).data 36).toNat + amt.toNat < 2 ^ 64) :
    ∃ L', splMintTo L mint dst auth amt = .ok L' := by
  obtain ⟨ta, hta⟩ : ∃ ta, checkedAddU64 (readU64 (L dst).data 64) amt = some ta := by
    unfold checkedAddU64; rw [if_pos hov]; exact ⟨_, rfl⟩
  obtain ⟨sa, hsa⟩ : ∃ sa, checkedAddU64 (readU64 (L mint).data 36) amt = some sa := by
    unfold checkedAddU64; rw [if_pos hos]; exact ⟨_, rfl⟩
  unfold splMintTo
  simp only [bind_eq_ok, exists_unit, ensure_eq_ok, okOr_eq_ok, validateOwner_ok, Except.ok.injEq]
  exact ⟨_, ⟨um.owner, ut.owner⟩, _, ut.unpack, by simp [tokenAccountAt], ut.native, hm, _, um.unpack, hf,
    ⟨ha, hms⟩, ta, hta, sa, hsa, rfl⟩

/-- What a successful burn did. -/
structure BurnEff (L L' : Ledger) (src mint auth : Pubkey) (amt : UInt64) : Prop where
  frame : DataFrame L L' [src, mint]
  ne : mint ≠ src
  mint_ok : MintUsable (L mint)
  src_ok : TokUsable (L src)
  src_mint : readKey (L src).data 0 = mint
  authKey : readKey (L src).data 32 = SYSTEM_PROGRAM_ID ∨ readKey (L src).data 32 = INCINERATOR_ID ∨
    DebitAuth (L src).data auth
  supply : ∃ v, (L' mint).data = writeAt (L mint).data 36 (u64le v) ∧
    v.toNat + amt.toNat = (readU64 (L mint).data 36).toNat
  debit : ∃ v, AmountSet (L src).data (L' src).data v ∧
    v.toNat + amt.toNat = (readU64 (L src).data 64).toNat

theorem splBurn_eff {L L' : Ledger} {src mint auth : Pubkey} {amt : UInt64}
    (h : splBurn L src mint auth amt = .ok L') : BurnEff L L' src mint auth amt := by
  unfold splBurn at h
  simp only [bind_eq_ok, exists_unit, ensure_eq_ok] at h
  obtain ⟨⟨ho1, ho2⟩, s, hs, m, hm, hf, hn, hamt, hmint, h⟩ := h
  obtain ⟨us, st2, rfl⟩ := tokUsable_of_unpack ho2 hs hf hn
  obtain ⟨um, rfl⟩ := mintUsable_of_unpack ho1 hm
  have hne : src ≠ mint := by
    rintro rfl; have := us.len; rw [um.len] at this; omega
  have key : ∀ sd sa ms, (AmountSet (L src).data (writeAt sd 64 (u64le sa)) sa) →
      checkedSubU64 (readU64 (L src).data 64) amt = some sa →
      checkedSubU64 (readU64 (L mint).data 36) amt = some ms →
      ((L.setData src (writeAt sd TA_AMOUNT (u64le sa))).setData mint
        (writeAt (L mint).data MINT_SUPPLY (u64le ms))) = L' →
      (readKey (L src).data 32 = SYSTEM_PROGRAM_ID ∨ readKey (L src).data 32 = INCINERATOR_ID ∨
        DebitAuth (L src).data auth) → BurnEff L L' src mint auth amt := by
    rintro sd sa ms h1 h2 h3 rfl h5
    rw [checkedSubU64_eq_some] at h2 h3
    refine ⟨?_, hne.symm, um, us, hmint, h5, ⟨ms, by simp [MINT_SUPPLY], by omega⟩, ⟨sa, ?_, by omega⟩⟩
    · exact ((dataFrame_setData L src _).trans (dataFrame_setData _ mint _)).mono (by simp)
    · rw [Ledger.setData_other _ _ hne]; simpa [TA_AMOUNT] using h1
  split at h
  · next hc =>
    simp only [bind_eq_ok, okOr_eq_ok, Except.ok.injEq] at h
    obtain ⟨_, rfl, sa, h2, ms, h3, h4⟩ := h
    exact key _ sa ms (amountSet_writeAt (by rw [us.len]; omega)) h2 h3 h4
      (by rcases hc with hc | hc; exact Or.inl hc; exact Or.inr (Or.inl hc))
  · simp only [bind_eq_ok, okOr_eq_ok, Except.ok.injEq] at h
    obtain ⟨sd, hsd, sa, h2, ms, h3, h4⟩ := h
    obtain ⟨a1, a2, _⟩ := authorizeDebit_ok (v := sa) (Nat.le_of_eq us.len.symm) hsd
    exact key sd sa ms a1 h2 h3 h4 (Or.inr (Or.inr a2))

theorem splBurn_succeeds {L : Ledger} {src mint auth : Pubkey} {amt : UInt64}
    (um : MintUsable (L mint)) (us : TokUsable (L src)) (hm : readKey (L src).data 0 = mint)
    (ho : readKey (L src).data 32 = auth)
    (hd : ¬ (readU32 (L src).data 72 = 1 ∧ readKey (L src).data 76 = auth) ∨
      amt.toNat ≤ (readU64 (L src).data 121).toNat)
    (hms : ¬ ((L auth).owner = SPL_TOKEN_PROGRAM_ID ∧ (L auth).data.length = 355))
    (ha : amt.toNat ≤ (readU64 (L src).data 64).toNat)
    (hs : amt.toNat ≤ (readU64 (L mint).data 36).toNat) :
    ∃ L', splBurn L src mint auth amt = .ok L' := by
  have hauth : ∃ sd, authorizeDebit L (tokenAccountAt (L src).data .Initialized) (L src).data auth amt
      false = .ok sd := by
    unfold authorizeDebit
    by_cases hc : (tokenAccountAt (L src).data .Initialized).delegateFlag = 1 ∧
        (tokenAccountAt (L src).data .Initialized).delegate = auth
    · rw [if_pos hc]
      simp only [bind_eq_ok, exists_unit, validateOwner_ok, ensure_eq_ok]
      refine ⟨_, ⟨hc.2, hms⟩, ?_, rfl⟩
      rcases hd with hd | hd
      · exact absurd hc hd
      · exact hd
    · rw [if_neg hc]
      refine ⟨(L src).data, ?_⟩
      simp only [bind_eq_ok, exists_unit, validateOwner_ok]
      exact ⟨⟨ho, hms⟩, trivial⟩
  obtain ⟨sd, hsd⟩ := hauth
  obtain ⟨ta, hta⟩ : ∃ ta, checkedSubU64 (readU64 (L mint).data 36) amt = some ta := by
    unfold checkedSubU64; rw [if_pos hs]; exact ⟨_, rfl⟩
  obtain ⟨sa, hsa⟩ : ∃ sa, checkedSubU64 (readU64 (L src).data 64) amt = some sa := by
    unfold checkedSubU64; rw [if_pos ha]; exact ⟨_, rfl⟩
  unfold splBurn
  simp only [bind_eq_ok, exists_unit, ensure_eq_ok]
  by_cases hc : (tokenAccountAt (L src).data .Initialized).owner = SYSTEM_PROGRAM_ID ∨
      (tokenAccountAt (L src).data .Initialized).owner = INCINERATOR_ID
  · refine ⟨(L.setData src (writeAt (L src).data TA_AMOUNT (u64le sa))).setData mint
      (writeAt (L mint).data MINT_SUPPLY (u64le ta)), ⟨um.owner, us.owner⟩, _, us.unpack, _, um.unpack, by simp [tokenAccountAt], us.native, ha, hm, ?_⟩
    rw [if_pos hc]
    simp only [bind_eq_ok, okOr_eq_ok, Except.ok.injEq]
    exact ⟨_, rfl, sa, hsa, ta, hta, rfl⟩
  · refine ⟨(L.setData src (writeAt sd TA_AMOUNT (u64le sa))).setData mint
      (writeAt (L mint).data MINT_SUPPLY (u64le ta)), ⟨um.owner, us.owner⟩, _, us.unpack, _, um.unpack, by simp [tokenAccountAt], us.native, ha, hm, ?_⟩
    rw [if_neg hc]
    simp only [bind_eq_ok, okOr_eq_ok, Except.ok.injEq]
    exact ⟨sd, hsd, sa, hsa, ta, hta, rfl⟩

/-! ### Calls -/

theorem cpiTokenTransfer_ok {c : Caller} {L L' : Ledger} {src dst auth : Pubkey} {amt : UInt64} :
    cpiTokenTransfer c L src dst auth amt = .ok L' ↔
      c.has SPL_TOKEN_PROGRAM_ID = true ∧
      (c.writes src = true ∧ c.writes dst = true ∧ c.signs auth = true) ∧
      splTransfer L src dst auth amt = .ok L' := by
  unfold cpiTokenTransfer
  simp only [bind_eq_ok, exists_unit, ensure_eq_ok]

theorem cpiMintTo_ok {c : Caller} {L L' : Ledger} {mint dst auth : Pubkey} {amt : UInt64} :
    cpiMintTo c L mint dst auth amt = .ok L' ↔
      c.has SPL_TOKEN_PROGRAM_ID = true ∧
      (c.writes mint = true ∧ c.writes dst = true ∧ c.signs auth = true) ∧
      splMintTo L mint dst auth amt = .ok L' := by
  unfold cpiMintTo
  simp only [bind_eq_ok, exists_unit, ensure_eq_ok]

theorem cpiBurn_ok {c : Caller} {L L' : Ledger} {src mint auth : Pubkey} {amt : UInt64} :
    cpiBurn c L src mint auth amt = .ok L' ↔
      c.has SPL_TOKEN_PROGRAM_ID = true ∧
      (c.writes src = true ∧ c.writes mint = true ∧ c.signs auth = true) ∧
      splBurn L src mint auth amt = .ok L' := by
  unfold cpiBurn
  simp only [bind_eq_ok, exists_unit, ensure_eq_ok]

theorem Caller.signs_of_mem {ms : List Meta} {ps : List Pubkey} {m : Meta} (h : m ∈ ms)
    (hs : m.isSigner = true) : (Caller.mk ms ps).signs m.key = true := by
  simp only [Caller.signs, Bool.or_eq_true, List.any_eq_true]
  exact Or.inl ⟨m, h, by simp [hs]⟩
theorem Caller.signs_of_pda {ms : List Meta} {ps : List Pubkey} {k : Pubkey} (h : k ∈ ps) :
    (Caller.mk ms ps).signs k = true := by
  simp only [Caller.signs, Bool.or_eq_true]
  right; simpa using h
theorem Caller.writes_of_mem {ms : List Meta} {ps : List Pubkey} {m : Meta} (h : m ∈ ms)
    (hs : m.isWritable = true) : (Caller.mk ms ps).writes m.key = true := by
  simp only [Caller.writes, List.any_eq_true]
  exact ⟨m, h, by simp [hs]⟩
theorem Caller.has_of_mem {ms : List Meta} {ps : List Pubkey} {m : Meta} (h : m ∈ ms) :
    (Caller.mk ms ps).has m.key = true := by
  simp only [Caller.has, List.any_eq_true]
  exact ⟨m, h, by simp⟩

end Xorca
