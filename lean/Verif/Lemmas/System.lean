import Verif.Lemmas.Token
/-
Effects of system and associated-token calls, account creation and closing.
-/
namespace Xorca

/-- What a system transfer between different accounts did. -/
structure SysTransferEff (L L' : Ledger) (src dst : Pubkey) (n : Nat) : Prop where
  srcEmpty : (L src).data = []
  srcOwner : (L src).owner = SYSTEM_PROGRAM_ID
  debit : ∃ v, L' src = { L src with lamports := v } ∧ v.toNat + n = (L src).lamports.toNat
  credit : ∃ v, L' dst = { L dst with lamports := v } ∧ v.toNat = (L dst).lamports.toNat + n
  other : ∀ k, k ≠ src → k ≠ dst → L' k = L k

theorem u64_sub_toNat {a b : UInt64} (h : b.toNat ≤ a.toNat) : (a - b).toNat = a.toNat - b.toNat :=
  UInt64.toNat_sub_of_le _ _ (UInt64.le_iff_toNat_le.2 h)

theorem systemTransfer_eff {L L' : Ledger} {src dst : Pubkey} {n : UInt64} (hne : src ≠ dst)
    (h : systemTransfer L src dst n = .ok L') : SysTransferEff L L' src dst n.toNat := by
  unfold systemTransfer at h
  simp only [bind_eq_ok, exists_unit, ensure_eq_ok, okOr_eq_ok, Except.ok.injEq, checkedAddU64_eq_some] at h
  obtain ⟨h1, h2, h3, v, h4, rfl⟩ := h
  rw [Ledger.setLamports_other _ _ hne.symm] at h4
  refine ⟨h1, h2, ⟨(L src).lamports - n, ?_, ?_⟩, ⟨v, ?_, h4⟩, ?_⟩
  · rw [Ledger.setLamports_other _ _ hne]; simp
  · rw [u64_sub_toNat h3]; omega
  · simp [Ledger.setLamports_other _ _ hne.symm]
  · intro k hs hd
    rw [Ledger.setLamports_other _ _ hd, Ledger.setLamports_other _ _ hs]

theorem systemTransfer_succeeds {L : Ledger} {src dst : Pubkey} {n : UInt64} (hne : src ≠ dst)
    (h1 : (L src).data = []) (h2 : (L src).owner = SYSTEM_PROGRAM_ID)
    (h3 : n.toNat ≤ (L src).lamports.toNat) (h4 : (L dst).lamports.toNat + n.toNat < 2 ^ 64) :
    ∃ L', systemTransfer L src dst n = .ok L' := by
  unfold systemTransfer
  simp only [bind_eq_ok, exists_unit, ensure_eq_ok, okOr_eq_ok, Except.ok.injEq, checkedAddU64_eq_some]
  refine ⟨_, h1, h2, h3, UInt64.ofNat ((L dst).lamports.toNat + n.toNat), ?_, rfl⟩
  rw [Ledger.setLamports_other _ _ hne.symm]
  exact UInt64.toNat_ofNat_of_lt' h4

theorem systemAllocate_ok {L L' : Ledger} {k : Pubkey} {space : Nat} :
    systemAllocate L k space = .ok L' ↔
      ((L k).data = [] ∧ (L k).owner = SYSTEM_PROGRAM_ID) ∧ space ≤ MAX_DATA_LEN ∧
      L.setData k (List.replicate space 0) = L' := by
  unfold systemAllocate
  simp only [bind_eq_ok, exists_unit, ensure_eq_ok, Except.ok.injEq]

theorem systemAssign_ok {L L' : Ledger} {k owner : Pubkey} (ho : (L k).owner = SYSTEM_PROGRAM_ID)
    (hn : owner ≠ SYSTEM_PROGRAM_ID) :
    systemAssign L k owner = .ok L' ↔ L.set k { L k with owner := owner } = L' := by
  unfold systemAssign
  rw [if_neg (by rw [ho]; exact hn.symm)]
  simp only [bind_eq_ok, exists_unit, ensure_eq_ok, Except.ok.injEq, ho, true_and]

/-- What creating an account did. -/
structure CreateEff (L L' : Ledger) (funder new : Pubkey) (rent : Nat) (owner : Pubkey) (data : Bytes) :
    Prop where
  fresh : (L new).data = []
  system : (L new).owner = SYSTEM_PROGRAM_ID
  created : ∃ v, L' new = ⟨v, owner, data⟩ ∧ v.toNat = max rent (L new).lamports.toNat
  paid : ∃ v, L' funder = { L funder with lamports := v } ∧
    v.toNat + (rent - (L new).lamports.toNat) = (L funder).lamports.toNat
  payer : (L funder).owner = SYSTEM_PROGRAM_ID ∨ rent ≤ (L new).lamports.toNat
  other : ∀ k, k ≠ funder → k ≠ new → L' k = L k

theorem systemCreateAccount_eff {L L' : Ledger} {src dst owner : Pubkey} {rent : UInt64} {space : Nat}
    (hne : src ≠ dst) (hn : owner ≠ SYSTEM_PROGRAM_ID)
    (h : systemCreateAccount L src dst rent space owner = .ok L') :
    CreateEff L L' src dst rent.toNat owner (List.replicate space 0) := by
  unfold systemCreateAccount at h
  simp only [bind_eq_ok, exists_unit, ensure_eq_ok, systemAllocate_ok] at h
  obtain ⟨h0, L1, ⟨⟨h1, h2⟩, _, rfl⟩, L2, h4, h5⟩ := h
  rw [systemAssign_ok (by simp [h2]) hn] at h4
  subst h4
  have e := systemTransfer_eff hne h5
  have hl : (L dst).lamports.toNat = 0 := by rw [h0]; rfl
  have hso := e.srcOwner
  rw [Ledger.set_other _ _ hne, Ledger.setData_other _ _ hne] at hso
  refine ⟨h1, h2, ?_, ?_, Or.inl hso, ?_⟩
  · obtain ⟨v, hv, hv2⟩ := e.credit
    refine ⟨v, ?_, ?_⟩
    · rw [hv]; simp
    · simp at hv2; rw [hl] at hv2; rw [hv2, hl]; omega
  · obtain ⟨v, hv, hv2⟩ := e.debit
    rw [Ledger.set_other _ _ hne, Ledger.setData_other _ _ hne] at hv hv2
    exact ⟨v, hv, by omega⟩
  · intro k hs hd
    rw [e.other k hs hd, Ledger.set_other _ _ hd, Ledger.setData_other _ _ hd]

theorem systemCreateAccount_succeeds {L : Ledger} {src dst owner : Pubkey} {rent : UInt64} {space : Nat}
    (hne : src ≠ dst) (hn : owner ≠ SYSTEM_PROGRAM_ID) (hsp : space ≤ MAX_DATA_LEN)
    (h0 : (L dst).lamports = 0) (h1 : (L dst).data = []) (h2 : (L dst).owner = SYSTEM_PROGRAM_ID)
    (h3 : (L src).data = []) (h4 : (L src).owner = SYSTEM_PROGRAM_ID)
    (h5 : rent.toNat ≤ (L src).lamports.toNat) :
    ∃ L', systemCreateAccount L src dst rent space owner = .ok L' := by
  unfold systemCreateAccount
  simp only [bind_eq_ok, exists_unit, ensure_eq_ok, systemAllocate_ok]
  obtain ⟨L', hL'⟩ := systemTransfer_succeeds (n := rent)
    (L := (L.setData dst (List.replicate space 0)).set dst
      { (L.setData dst (List.replicate space 0)) dst with owner := owner }) hne
    (by rw [Ledger.set_other _ _ hne, Ledger.setData_other _ _ hne]; exact h3)
    (by rw [Ledger.set_other _ _ hne, Ledger.setData_other _ _ hne]; exact h4)
    (by rw [Ledger.set_other _ _ hne, Ledger.setData_other _ _ hne]; exact h5)
    (by have := rent.toNat_lt; simp [h0]; exact this)
  exact ⟨L', h0, _, ⟨⟨h1, h2⟩, hsp, rfl⟩, _, (systemAssign_ok (by simp [h2]) hn).2 rfl, hL'⟩

/-- The two-step creation used for prefunded accounts. -/
theorem allocateAssign_eff {L L1 L2 L' : Ledger} {src dst owner : Pubkey} {rent : UInt64} {space : Nat}
    (hne : src ≠ dst) (hn : owner ≠ SYSTEM_PROGRAM_ID)
    (hpay : (rent.toNat ≤ (L dst).lamports.toNat ∧ L1 = L) ∨
      (¬ rent.toNat ≤ (L dst).lamports.toNat ∧
        systemTransfer L src dst (rent - (L dst).lamports) = .ok L1))
    (hal : systemAllocate L1 dst space = .ok L2) (has : systemAssign L2 dst owner = .ok L') :
    CreateEff L L' src dst rent.toNat owner (List.replicate space 0) := by
  rw [systemAllocate_ok] at hal
  obtain ⟨⟨a1, a2⟩, _, rfl⟩ := hal
  rw [systemAssign_ok (by simp [a2]) hn] at has
  subst has
  rcases hpay with ⟨hr, rfl⟩ | ⟨hr, ht⟩
  · refine ⟨a1, a2, ⟨(L1 dst).lamports, ?_, by omega⟩, ⟨(L1 src).lamports, ?_, by omega⟩, Or.inr hr, ?_⟩
    · simp
    · rw [Ledger.set_other _ _ hne, Ledger.setData_other _ _ hne]
    · intro k hs hd
      rw [Ledger.set_other _ _ hd, Ledger.setData_other _ _ hd]
  · have e := systemTransfer_eff hne ht
    rw [u64_sub_toNat (by omega)] at e
    obtain ⟨v, hv, hv2⟩ := e.credit
    obtain ⟨w, hw, hw2⟩ := e.debit
    rw [hv] at a1 a2
    refine ⟨a1, a2, ⟨v, ?_, by omega⟩, ⟨w, ?_, by omega⟩, Or.inl e.srcOwner, ?_⟩
    · simp [hv]
    · rw [Ledger.set_other _ _ hne, Ledger.setData_other _ _ hne, hw]
    · intro k hs hd
      rw [Ledger.set_other _ _ hd, Ledger.setData_other _ _ hd, e.other k hs hd]

theorem cpiCreateAccount_ok {c : Caller} {L L' : Ledger} {src dst owner : Pubkey} {rent : UInt64} {space : Nat} :
    cpiCreateAccount c L src dst rent space owner = .ok L' ↔
      c.has SYSTEM_PROGRAM_ID = true ∧
      (c.writes src = true ∧ c.writes dst = true ∧ c.signs src = true ∧ c.signs dst = true) ∧
      systemCreateAccount L src dst rent space owner = .ok L' := by
  unfold cpiCreateAccount
  simp only [bind_eq_ok, exists_unit, ensure_eq_ok]

theorem cpiSystemTransfer_ok {c : Caller} {L L' : Ledger} {src dst : Pubkey} {n : UInt64} :
    cpiSystemTransfer c L src dst n = .ok L' ↔
      c.has SYSTEM_PROGRAM_ID = true ∧ (c.writes src = true ∧ c.writes dst = true ∧ c.signs src = true) ∧
      systemTransfer L src dst n = .ok L' := by
  unfold cpiSystemTransfer
  simp only [bind_eq_ok, exists_unit, ensure_eq_ok]

theorem cpiAllocate_ok {c : Caller} {L L' : Ledger} {k : Pubkey} {space : Nat} :
    cpiAllocate c L k space = .ok L' ↔
      c.has SYSTEM_PROGRAM_ID = true ∧ (c.writes k = true ∧ c.signs k = true) ∧
      systemAllocate L k space = .ok L' := by
  unfold cpiAllocate
  simp only [bind_eq_ok, exists_unit, ensure_eq_ok]

theorem cpiAssign_ok {c : Caller} {L L' : Ledger} {k owner : Pubkey} :
    cpiAssign c L k owner = .ok L' ↔
      c.has SYSTEM_PROGRAM_ID = true ∧ (c.writes k = true ∧ c.signs k = true) ∧
      systemAssign L k owner = .ok L' := by
  unfold cpiAssign
  simp only [bind_eq_ok, exists_unit, ensure_eq_ok]

theorem createAccountSecure_eff {x : Ctx} {c : Caller} {L L' : Ledger} {funder new owner : Pubkey}
    {space : Nat} (hne : funder ≠ new) (hn : owner ≠ SYSTEM_PROGRAM_ID)
    (ho : (L new).owner = SYSTEM_PROGRAM_ID)
    (h : createAccountSecure x c L funder new space owner = .ok L') :
    CreateEff L L' funder new (x.rentMin space).toNat owner (List.replicate space 0) := by
  unfold createAccountSecure at h
  rw [if_neg (by simp [ho])] at h
  simp only at h
  split at h
  · rw [cpiCreateAccount_ok] at h
    exact systemCreateAccount_eff hne hn h.2.2
  · by_cases hr : (x.rentMin space).toNat ≤ (L new).lamports.toNat
    · simp only [if_pos hr] at h
      rw [if_neg (by simp)] at h
      simp only [bind_eq_ok, Except.ok.injEq, cpiAllocate_ok, cpiAssign_ok] at h
      obtain ⟨L1, hL1, L2, h2, h3⟩ := h
      exact allocateAssign_eff hne hn (Or.inl ⟨hr, hL1.symm⟩) h2.2.2 h3.2.2
    · simp only [if_neg hr] at h
      rw [if_pos (by rw [u64_sub_toNat (by omega)]; omega)] at h
      simp only [bind_eq_ok, cpiSystemTransfer_ok, cpiAllocate_ok, cpiAssign_ok] at h
      obtain ⟨L1, hL1, L2, h2, h3⟩ := h
      exact allocateAssign_eff hne hn (Or.inr ⟨hr, hL1.2.2⟩) h2.2.2 h3.2.2

/-- Creation succeeds for any previous lamport balance of the address. -/
theorem createAccountSecure_succeeds {x : Ctx} {c : Caller} {L : Ledger} {funder new owner : Pubkey}
    {space : Nat} (hne : funder ≠ new) (hn : owner ≠ SYSTEM_PROGRAM_ID) (hsp : space ≤ MAX_DATA_LEN)
    (ho : (L new).owner = SYSTEM_PROGRAM_ID) (hd : (L new).data = [])
    (hsys : c.has SYSTEM_PROGRAM_ID = true)
    (hw : c.writes funder = true ∧ c.writes new = true ∧ c.signs funder = true ∧ c.signs new = true)
    (hf : (L funder).owner = SYSTEM_PROGRAM_ID) (hfd : (L funder).data = [])
    (hpay : (x.rentMin space).toNat ≤ (L funder).lamports.toNat + (L new).lamports.toNat) :
    ∃ L', createAccountSecure x c L funder new space owner = .ok L' := by
  unfold createAccountSecure
  rw [if_neg (by simp [ho])]
  simp only
  split
  · next h0 =>
    have hz : (L new).lamports.toNat = 0 := by rw [h0]; rfl
    obtain ⟨L', hL'⟩ := systemCreateAccount_succeeds (rent := x.rentMin space) hne hn hsp h0 hd ho hfd hf
      (by omega)
    exact ⟨L', cpiCreateAccount_ok.2 ⟨hsys, hw, hL'⟩⟩
  · by_cases hr : (x.rentMin space).toNat ≤ (L new).lamports.toNat
    · simp only [if_pos hr]
      rw [if_neg (by simp)]
      simp only [bind_eq_ok, Except.ok.injEq, cpiAllocate_ok, cpiAssign_ok]
      exact ⟨_, L, rfl, _, ⟨hsys, ⟨hw.2.1, hw.2.2.2⟩, systemAllocate_ok.2 ⟨⟨hd, ho⟩, hsp, rfl⟩⟩, hsys,
        ⟨hw.2.1, hw.2.2.2⟩, (systemAssign_ok (by simp [ho]) hn).2 rfl⟩
    · simp only [if_neg hr]
      have hs : (x.rentMin space - (L new).lamports).toNat =
        (x.rentMin space).toNat - (L new).lamports.toNat := u64_sub_toNat (by omega)
      rw [if_pos (by rw [hs]; omega)]
      have hlt := (x.rentMin space).toNat_lt
      obtain ⟨L1, hL1⟩ := systemTransfer_succeeds (L := L) (n := x.rentMin space - (L new).lamports) hne hfd hf
        (by omega) (by rw [hs]; omega)
      have e := systemTransfer_eff hne hL1
      obtain ⟨v, hv, _⟩ := e.credit
      simp only [bind_eq_ok, cpiSystemTransfer_ok, cpiAllocate_ok, cpiAssign_ok]
      exact ⟨_, L1, ⟨hsys, ⟨hw.1, hw.2.1, hw.2.2.1⟩, hL1⟩, _, ⟨hsys, ⟨hw.2.1, hw.2.2.2⟩,
        systemAllocate_ok.2 ⟨by rw [hv]; exact ⟨hd, ho⟩, hsp, rfl⟩⟩, hsys,
        ⟨hw.2.1, hw.2.2.2⟩, (systemAssign_ok (by simp [hv, ho]) hn).2 rfl⟩

/-- Change the data of the created account afterwards. -/
theorem CreateEff.setData {L L1 : Ledger} {funder new owner : Pubkey} {rent : Nat} {d d' : Bytes}
    (hne : funder ≠ new) (h : CreateEff L L1 funder new rent owner d) :
    CreateEff L (L1.setData new d') funder new rent owner d' := by
  obtain ⟨h1, h2, ⟨v, h3, h4⟩, ⟨w, h5, h6⟩, hp, h7⟩ := h
  refine ⟨h1, h2, ⟨v, ?_, h4⟩, ⟨w, ?_, h6⟩, hp, ?_⟩
  · simp [h3]
  · rw [Ledger.setData_other _ _ hne, h5]
  · intro k hf hn; rw [Ledger.setData_other _ _ hn, h7 k hf hn]

theorem program_ne_system : PROGRAM_ID ≠ SYSTEM_PROGRAM_ID := by decide
theorem token_ne_system : SPL_TOKEN_PROGRAM_ID ≠ SYSTEM_PROGRAM_ID := by decide
theorem token_ne_program : SPL_TOKEN_PROGRAM_ID ≠ PROGRAM_ID := by decide

theorem createPendingWithdrawSecure_eff {x : Ctx} {c : Caller} {L L' : Ledger} {funder new : Pubkey}
    (hne : funder ≠ new) (ho : (L new).owner = SYSTEM_PROGRAM_ID)
    (h : createPendingWithdrawSecure x c L funder new = .ok L') :
    CreateEff L L' funder new (x.rentMin 1024).toNat PROGRAM_ID (2 :: List.replicate 1023 0) := by
  unfold createPendingWithdrawSecure at h
  simp only [bind_eq_ok, Except.ok.injEq] at h
  obtain ⟨L1, h1, d, h2, rfl⟩ := h
  have e := createAccountSecure_eff hne program_ne_system ho h1
  have hd : (L1 new).data = List.replicate 1024 0 := by
    obtain ⟨v, hv, _⟩ := e.created; rw [hv]; rfl
  rw [hd] at h2
  have h3 : d = 2 :: List.replicate 1023 0 := by
    rw [List.replicate_succ] at h2
    simp only [setByte0, Except.ok.injEq] at h2
    exact h2.symm
  rw [h3]
  exact e.setData hne

theorem createPendingWithdrawSecure_succeeds {x : Ctx} {c : Caller} {L : Ledger} {funder new : Pubkey}
    (hne : funder ≠ new) (ho : (L new).owner = SYSTEM_PROGRAM_ID) (hd : (L new).data = [])
    (hsys : c.has SYSTEM_PROGRAM_ID = true)
    (hw : c.writes funder = true ∧ c.writes new = true ∧ c.signs funder = true ∧ c.signs new = true)
    (hf : (L funder).owner = SYSTEM_PROGRAM_ID) (hfd : (L funder).data = [])
    (hpay : (x.rentMin 1024).toNat ≤ (L funder).lamports.toNat + (L new).lamports.toNat) :
    ∃ L', createPendingWithdrawSecure x c L funder new = .ok L' := by
  obtain ⟨L1, h1⟩ := createAccountSecure_succeeds (owner := PROGRAM_ID) (space := PENDING_WITHDRAW_LEN) hne
    program_ne_system (by decide) ho hd hsys hw hf hfd hpay
  have e := createAccountSecure_eff hne program_ne_system ho h1
  have hd : (L1 new).data = List.replicate 1024 0 := by
    obtain ⟨v, hv, _⟩ := e.created; rw [hv]; rfl
  unfold createPendingWithdrawSecure
  simp only [bind_eq_ok, Except.ok.injEq]
  refine ⟨_, L1, h1, 2 :: List.replicate 1023 0, ?_, rfl⟩
  rw [hd, List.replicate_succ]; rfl

theorem State.serialize_length {s : State} (h1 : s.padding1.length = 5) (h2 : s.padding2.length = 1992) :
    s.serialize.length = 2048 := by
  simp [State.serialize, h1, h2, s.updateAuthority.len]

theorem writeAt_all {d b : Bytes} (h : b.length = d.length) : writeAt d 0 b = b := by
  simp [writeAt, h]

theorem createStateBorsh_eff {x : Ctx} {c : Caller} {L L' : Ledger} {funder new : Pubkey} {s : State}
    (hne : funder ≠ new) (ho : (L new).owner = SYSTEM_PROGRAM_ID) (hs : s.serialize.length = 2048)
    (h : createStateBorsh x c L funder new s = .ok L') :
    CreateEff L L' funder new (x.rentMin 2048).toNat PROGRAM_ID s.serialize := by
  unfold createStateBorsh at h
  simp only [bind_eq_ok, exists_unit, ensure_eq_ok, Except.ok.injEq] at h
  obtain ⟨L1, h1, h2, rfl⟩ := h
  have e := createAccountSecure_eff hne program_ne_system ho h1
  have hd : (L1 new).data = List.replicate 2048 0 := by
    obtain ⟨v, hv, _⟩ := e.created; rw [hv]; rfl
  rw [hd, writeAt_all (by rw [hs, List.length_replicate])]
  exact e.setData hne

/-- What closing did, for different accounts. -/
structure CloseEff (L L' : Ledger) (toClose receiver : Pubkey) : Prop where
  closed : L' toClose = ⟨0, SYSTEM_PROGRAM_ID, []⟩
  received : L' receiver = { L receiver with lamports := (L receiver).lamports + (L toClose).lamports }
  other : ∀ k, k ≠ toClose → k ≠ receiver → L' k = L k

theorem closeProgramAccount_eff {L L' : Ledger} {toClose receiver : Pubkey} (hne : receiver ≠ toClose)
    (h : closeProgramAccount L toClose receiver = .ok L') : CloseEff L L' toClose receiver := by
  unfold closeProgramAccount at h
  simp only [bind_eq_ok, Except.ok.injEq] at h
  obtain ⟨d, _, rfl⟩ := h
  refine ⟨?_, ?_, ?_⟩
  · simp
  · rw [Ledger.set_other _ _ hne, Ledger.setData_other _ _ hne, Ledger.setLamports_other _ _ hne]
    simp [Ledger.setData_other _ _ hne]
  · intro k h1 h2
    rw [Ledger.set_other _ _ h1, Ledger.setData_other _ _ h1, Ledger.setLamports_other _ _ h1,
      Ledger.setLamports_other _ _ h2, Ledger.setData_other _ _ h1]

theorem closeProgramAccount_succeeds {L : Ledger} {toClose receiver : Pubkey} (h : (L toClose).data ≠ []) :
    ∃ L', closeProgramAccount L toClose receiver = .ok L' := by
  unfold closeProgramAccount
  simp only [bind_eq_ok, Except.ok.injEq]
  cases hd : (L toClose).data with
  | nil => exact absurd hd h
  | cons b r => exact ⟨_, _, rfl, rfl⟩

/-- Creating the associated account of `wallet` at a system-owned address. -/
theorem cpiCreateAtaIdempotent_eff {x : Ctx} {c : Caller} {L L' : Ledger} {funder ata wallet mint : Pubkey}
    (hne : funder ≠ ata) (ho : (L ata).owner = SYSTEM_PROGRAM_ID)
    (h : cpiCreateAtaIdempotent x c L funder ata wallet mint = .ok L') :
    CreateEff L L' funder ata (max 1 (x.rentMin 165).toNat) SPL_TOKEN_PROGRAM_ID
      (freshTokenAccountData mint wallet) ∧
    MintUsable (L mint) ∧
    ∃ b, findProgramAddress x.cr (vaultSeedsRaw wallet SPL_TOKEN_PROGRAM_ID mint)
      ASSOCIATED_TOKEN_PROGRAM_ID = some (ata, b) := by
  unfold cpiCreateAtaIdempotent at h
  simp only [bind_eq_ok, exists_unit, ensure_eq_ok, okOr_eq_ok, Prod.exists] at h
  obtain ⟨_, _, addr, b, hf, rfl, h⟩ := h
  rw [if_neg (by rw [ho]; exact token_ne_system.symm)] at h
  simp only [bind_eq_ok, exists_unit, ensure_eq_ok, Except.ok.injEq] at h
  obtain ⟨_, hmo, m, hm, L1, h1, rfl⟩ := h
  refine ⟨?_, (mintUsable_of_unpack hmo hm).1, b, hf⟩
  unfold ataCreatePda at h1
  have hneed : (if x.rentMin TOKEN_ACCOUNT_LEN = 0 then 1 else x.rentMin TOKEN_ACCOUNT_LEN).toNat =
      max 1 (x.rentMin TOKEN_ACCOUNT_LEN).toNat := by
    split
    · next hz => rw [hz]; rfl
    · next hz =>
      have : (x.rentMin TOKEN_ACCOUNT_LEN).toNat ≠ 0 := by
        intro h0; apply hz; rw [← UInt64.toNat_inj]; exact h0
      omega
  change CreateEff _ _ _ _ (max 1 (x.rentMin TOKEN_ACCOUNT_LEN).toNat) _ _
  rw [← hneed]
  simp only at h1
  generalize (if x.rentMin TOKEN_ACCOUNT_LEN = 0 then 1 else x.rentMin TOKEN_ACCOUNT_LEN) = need at h1
  split at h1
  · exact (systemCreateAccount_eff hne token_ne_system h1).setData hne
  · split at h1
    · next hr =>
      simp only [bind_eq_ok, Except.ok.injEq] at h1
      obtain ⟨L2, rfl, L3, h2, h3⟩ := h1
      exact (allocateAssign_eff hne token_ne_system (Or.inl ⟨hr, rfl⟩) h2 h3).setData hne
    · next hr =>
      simp only [bind_eq_ok] at h1
      obtain ⟨L2, h0, L3, h2, h3⟩ := h1
      exact (allocateAssign_eff hne token_ne_system (Or.inr ⟨hr, h0⟩) h2 h3).setData hne

end Xorca
