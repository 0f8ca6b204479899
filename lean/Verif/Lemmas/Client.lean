import Verif.Lemmas.ClientCodec
import Verif.Lemmas.Roles
import Verif.Lemmas.Fail
import Verif.Lemmas.Inv
import Verif.Client.Conversion
import Verif.Client.Fetch
/-
Facts about the client model.
-/
namespace Xorca
open Spec

/-! ### Conversions -/

theorem client_orArithmetic_ok {α : Type} {o : Option α} {v : α} : Client.orArithmetic o = .ok v ↔ o = some v := by
  cases o <;> simp [Client.orArithmetic]

theorem client_bind_ok {α β : Type} {m : Except Client.ConversionError α} {f : α → Except Client.ConversionError β}
    {v : β} : (m >>= f) = .ok v ↔ ∃ a, m = .ok a ∧ f a = .ok v := by
  cases m with
  | ok a => simp only [bind, Except.bind, Except.ok.injEq, exists_eq_left']
  | error e => simp [bind, Except.bind]

theorem client_orca_ok (a n s v : UInt64) :
    Client.convertOrcaToXorca a n s = .ok v ↔ convertOrcaToXorca a n s = .ok v := by
  unfold Client.convertOrcaToXorca Client.applyVirtualOffsets convertOrcaToXorca
  split
  · simp
  · simp only [client_bind_ok, bind_eq_ok, okOr_eq_ok, client_orArithmetic_ok, Except.ok.injEq]
    constructor
    · rintro ⟨⟨n', s'⟩, ⟨x, h1, y, h2, h3⟩, z, h4, w, h5, h6⟩
      cases h3
      exact ⟨_, h1, _, h2, _, h4, _, h5, h6⟩
    · rintro ⟨x, h1, y, h2, z, h4, w, h5, h6⟩
      exact ⟨_, ⟨_, h1, _, h2, rfl⟩, _, h4, _, h5, h6⟩

theorem client_xorca_ok (a n s v : UInt64) :
    Client.convertXorcaToOrca a n s = .ok v ↔ convertXorcaToOrca a n s = .ok v := by
  unfold Client.convertXorcaToOrca Client.applyVirtualOffsets convertXorcaToOrca
  split
  · simp
  · simp only [client_bind_ok, bind_eq_ok, okOr_eq_ok, client_orArithmetic_ok, Except.ok.injEq]
    constructor
    · rintro ⟨⟨n', s'⟩, ⟨x, h1, y, h2, h3⟩, z, h4, w, h5, h6⟩
      cases h3
      exact ⟨_, h1, _, h2, _, h4, _, h5, h6⟩
    · rintro ⟨x, h1, y, h2, z, h4, w, h5, h6⟩
      exact ⟨_, ⟨_, h1, _, h2, rfl⟩, _, h4, _, h5, h6⟩

theorem js_orca (a n s : Nat) : Client.jsConvertOrcaToXorca a n s = some (mintFor a n s : Int) := by
  unfold Client.jsConvertOrcaToXorca mintFor
  by_cases h : s = 0 ∨ n = 0
  · rw [if_pos (by omega), if_pos h]
  · rw [if_neg (by omega), if_neg h]
    unfold Client.bigintDiv Client.JS_VIRTUAL_XORCA_SUPPLY Client.JS_VIRTUAL_NON_ESCROWED_ORCA_AMOUNT
    rw [if_neg (by omega)]
    congr 1

theorem js_xorca (a n s : Nat) : Client.jsConvertXorcaToOrca a n s =
    if s = 0 ∨ n = 0 then none else some (redeemFor a n s : Int) := by
  unfold Client.jsConvertXorcaToOrca redeemFor
  by_cases h : s = 0 ∨ n = 0
  · rw [if_pos (by omega), if_pos h]
  · rw [if_neg (by omega), if_neg h]
    unfold Client.bigintDiv Client.JS_VIRTUAL_XORCA_SUPPLY Client.JS_VIRTUAL_NON_ESCROWED_ORCA_AMOUNT
    rw [if_neg (by omega)]
    congr 1

/-! ### Constants -/

theorem key58_program : Client.key58 Client.PROGRAM_ADDRESS = some PROGRAM_ID := by decide +kernel
theorem key58_orca : Client.key58 Client.ORCA_MINT_ADDRESS = some ORCA_MINT_ID := by decide +kernel
theorem key58_xorca : Client.key58 Client.XORCA_MINT_ADDRESS = some XORCA_MINT_ID := by decide +kernel
theorem key58_token : Client.key58 Client.TOKEN_PROGRAM_ADDRESS = some SPL_TOKEN_PROGRAM_ID := by decide +kernel
theorem key58_ata : Client.key58 Client.ATA_PROGRAM_ADDRESS = some ASSOCIATED_TOKEN_PROGRAM_ID := by decide +kernel

theorem findState_iff {cr : Crypto} {k : Pubkey} {b : UInt8} :
    Client.findStateAddress cr = some (k, b) ↔ StateAddr cr k b := by
  unfold Client.findStateAddress StateAddr
  rw [key58_program, show ascii "state" = [115, 116, 97, 116, 101] by decide +kernel]
  rfl

theorem findVault_iff {cr : Crypto} {st k : Pubkey} {b : UInt8} :
    Client.findOrcaVaultAddress cr st SPL_TOKEN_PROGRAM_ID ORCA_MINT_ID = some (k, b) ↔ VaultAddr cr st k b := by
  unfold Client.findOrcaVaultAddress VaultAddr
  rw [key58_ata]
  rfl

theorem findRecord_iff {cr : Crypto} {u k : Pubkey} {i b : UInt8} :
    Client.findPendingWithdrawPda cr u i = some (k, b) ↔ RecordAddr cr u i k b := by
  unfold Client.findPendingWithdrawPda RecordAddr
  rw [key58_program, show ascii "pending_withdraw" =
    [112, 101, 110, 100, 105, 110, 103, 95, 119, 105, 116, 104, 100, 114, 97, 119] by decide +kernel]
  rfl

/-! ### Reading single accounts -/

theorem getAccount_some {L : Ledger} {k : Pubkey} {a : Account} :
    Client.getAccount L k = some a ↔ (L k).lamports ≠ 0 ∧ L k = a := by
  unfold Client.getAccount
  split
  · next h => simp [h]
  · next h => simp [h]

theorem orNone_some {α : Type} {r : Res α} {a : α} : Client.orNone r = some a ↔ r = .ok a := by
  cases r <;> simp [Client.orNone]

theorem optBind_some {α β : Type} {m : Option α} {f : α → Option β} {v : β} :
    (m >>= f) = some v ↔ ∃ a, m = some a ∧ f a = some v := by
  cases m <;> simp [bind]

theorem fetchState_some {cr : Crypto} {L : Ledger} {s : State} :
    Client.fetchState cr L = some s ↔
      ∃ k b, StateAddr cr k b ∧ (L k).lamports ≠ 0 ∧ State.deserialize (L k).data = some s := by
  unfold Client.fetchState
  simp only [optBind_some, getAccount_some, Prod.exists, findState_iff]
  constructor
  · rintro ⟨k, b, h1, _, ⟨h2, rfl⟩, h3⟩; exact ⟨k, b, h1, h2, h3⟩
  · rintro ⟨k, b, h1, h2, h3⟩; exact ⟨k, b, h1, _, ⟨h2, rfl⟩, h3⟩

theorem fetchVaultState_some {cr : Crypto} {L : Ledger} {v : Client.VaultState} :
    Client.fetchVaultState cr L = some v ↔
      ∃ st b k b' t, StateAddr cr st b ∧ VaultAddr cr st k b' ∧ (L k).lamports ≠ 0 ∧
        unpackTokenAccount (L k).data = .ok t ∧ v = ⟨k, t.owner, t.mint, t.amount⟩ := by
  unfold Client.fetchVaultState
  simp only [optBind_some, getAccount_some, Prod.exists, findState_iff, key58_token, key58_orca, Option.some.injEq,
    exists_eq_left', findVault_iff, orNone_some]
  constructor
  · rintro ⟨st, b, h1, k, b', h2, _, ⟨h3, rfl⟩, t, h4, rfl⟩; exact ⟨st, b, k, b', t, h1, h2, h3, h4, rfl⟩
  · rintro ⟨st, b, k, b', t, h1, h2, h3, h4, rfl⟩; exact ⟨st, b, h1, k, b', h2, _, ⟨h3, rfl⟩, t, h4, rfl⟩

theorem jsFetchVaultState_some {cr : Crypto} {L : Ledger} {v : Client.VaultState} :
    Client.jsFetchVaultState cr L = some v ↔
      ∃ st b k b' t, StateAddr cr st b ∧ VaultAddr cr st k b' ∧ (L k).lamports ≠ 0 ∧
        decodeTokenAccount (L k).data = some t ∧ v = ⟨k, t.owner, t.mint, t.amount⟩ := by
  unfold Client.jsFetchVaultState Client.jsDecodeToken
  simp only [optBind_some, getAccount_some, Prod.exists, findState_iff, key58_token, key58_orca, Option.some.injEq,
    exists_eq_left', findVault_iff]
  constructor
  · rintro ⟨st, b, h1, k, b', h2, _, ⟨h3, rfl⟩, t, h4, rfl⟩; exact ⟨st, b, k, b', t, h1, h2, h3, h4, rfl⟩
  · rintro ⟨st, b, k, b', t, h1, h2, h3, h4, rfl⟩; exact ⟨st, b, h1, k, b', h2, _, ⟨h3, rfl⟩, t, h4, rfl⟩

theorem fetchSupply_some {L : Ledger} {s : UInt64} :
    Client.fetchXorcaMintSupply L = some s ↔
      (L XORCA_MINT_ID).lamports ≠ 0 ∧ ∃ m, unpackMint (L XORCA_MINT_ID).data = .ok m ∧ m.supply = s := by
  unfold Client.fetchXorcaMintSupply
  simp only [optBind_some, getAccount_some, key58_xorca, Option.some.injEq, exists_eq_left', orNone_some,
    Option.map_eq_some_iff]
  constructor
  · rintro ⟨_, ⟨h1, rfl⟩, h2⟩; exact ⟨h1, h2⟩
  · rintro ⟨h1, h2⟩; exact ⟨_, ⟨h1, rfl⟩, h2⟩

theorem jsFetchSupply_some {L : Ledger} {s : UInt64} :
    Client.jsFetchXorcaMintSupply L = some s ↔
      (L XORCA_MINT_ID).lamports ≠ 0 ∧ 82 ≤ (L XORCA_MINT_ID).data.length ∧ readU64 (L XORCA_MINT_ID).data 36 = s := by
  unfold Client.jsFetchXorcaMintSupply Client.jsDecodeMintSupply
  simp only [optBind_some, getAccount_some, key58_xorca, Option.some.injEq, exists_eq_left', Option.ite_none_right_eq_some]
  constructor
  · rintro ⟨_, ⟨h1, rfl⟩, h2⟩; exact ⟨h1, h2⟩
  · rintro ⟨h1, h2⟩; exact ⟨_, ⟨h1, rfl⟩, h2⟩

/-! ### Listing withdrawals -/

theorem mapM_some {α β : Type} {f : α → Option β} {l : List α} {r : List β} (h : l.mapM f = some r) :
    (∀ a ∈ l, ∃ b ∈ r, f a = some b) ∧ (∀ b ∈ r, ∃ a ∈ l, f a = some b) := by
  induction l generalizing r with
  | nil =>
    simp only [List.mapM_nil] at h
    cases h
    simp
  | cons a l ih =>
    simp only [List.mapM_cons] at h
    obtain ⟨b, h1, h2⟩ := optBind_some.1 h
    obtain ⟨r', h3, h4⟩ := optBind_some.1 h2
    cases h4
    obtain ⟨i1, i2⟩ := ih h3
    constructor
    · intro c hc
      rcases List.mem_cons.1 hc with rfl | hc
      · exact ⟨b, by simp, h1⟩
      · obtain ⟨d, hd, e⟩ := i1 c hc; exact ⟨d, by simp [hd], e⟩
    · intro c hc
      rcases List.mem_cons.1 hc with rfl | hc
      · exact ⟨a, by simp, h1⟩
      · obtain ⟨d, hd, e⟩ := i2 c hc; exact ⟨d, by simp [hd], e⟩

theorem mapM_isSome {α β : Type} {f : α → Option β} {l : List α} (h : ∀ a ∈ l, ∃ b, f a = some b) :
    ∃ r, l.mapM f = some r := by
  induction l with
  | nil => exact ⟨[], rfl⟩
  | cons a l ih =>
    obtain ⟨b, hb⟩ := h a (by simp)
    obtain ⟨r, hr⟩ := ih fun c hc => h c (by simp [hc])
    exact ⟨b :: r, by simp [List.mapM_cons, hb, hr]⟩

/-- The addresses searched are the record addresses of the indices below the bound. -/
theorem withdrawAddresses_mem {cr : Crypto} {u : Pubkey} {n : Nat} {l : List Pubkey}
    (h : Client.withdrawAddresses cr u n = some l) :
    (∀ i < n, ∃ k ∈ l, ∃ b, RecordAddr cr u (UInt8.ofNat i) k b) ∧
    (∀ k ∈ l, ∃ i < n, ∃ b, RecordAddr cr u (UInt8.ofNat i) k b) := by
  obtain ⟨h1, h2⟩ := mapM_some h
  constructor
  · intro i hi
    obtain ⟨k, hk, h⟩ := h1 i (by simpa using hi)
    obtain ⟨⟨k', b⟩, h3, rfl⟩ := Option.map_eq_some_iff.1 h
    exact ⟨_, hk, b, findRecord_iff.1 h3⟩
  · intro k hk
    obtain ⟨i, hi, h⟩ := h2 k hk
    obtain ⟨⟨k', b⟩, h3, rfl⟩ := Option.map_eq_some_iff.1 h
    exact ⟨i, by simpa using hi, b, findRecord_iff.1 h3⟩

theorem recordAddr_unique {cr : Crypto} {u k k' : Pubkey} {i b b' : UInt8} (h : RecordAddr cr u i k b)
    (h' : RecordAddr cr u i k' b') : k = k' ∧ b = b' := by
  unfold RecordAddr at h h'; rw [h] at h'; cases h'; exact ⟨rfl, rfl⟩

/-- What the Rust client lists. -/
theorem fetchPending_mem {cr : Crypto} {L : Ledger} {u : Pubkey} {max : Option UInt8} {l : List PendingWithdraw}
    (h : Client.fetchPendingWithdraws cr L u max = some l) (p : PendingWithdraw) :
    p ∈ l ↔ ∃ i < (max.getD 15).toNat, ∃ k b, RecordAddr cr u (UInt8.ofNat i) k b ∧ (L k).lamports ≠ 0 ∧
      PendingWithdraw.deserialize (L k).data = some p := by
  unfold Client.fetchPendingWithdraws at h
  obtain ⟨as, h1, h⟩ := optBind_some.1 h
  obtain ⟨os, h2, h⟩ := optBind_some.1 h
  cases h
  obtain ⟨a1, a2⟩ := withdrawAddresses_mem h1
  obtain ⟨b1, b2⟩ := mapM_some h2
  simp only [List.mem_filterMap, id_eq, exists_eq_right]
  constructor
  · intro hp
    obtain ⟨k, hk, h⟩ := b2 _ hp
    obtain ⟨i, hi, b, hb⟩ := a2 k hk
    refine ⟨i, hi, k, b, hb, ?_⟩
    cases ha : Client.getAccount L k with
    | none => rw [ha] at h; simp at h
    | some a =>
      obtain ⟨h3, rfl⟩ := getAccount_some.1 ha
      rw [ha] at h
      simp only [Option.map_eq_some_iff, Option.some.injEq, exists_eq_right] at h
      exact ⟨h3, h⟩
  · rintro ⟨i, hi, k, b, hb, h3, h4⟩
    obtain ⟨k', hk', b', hb'⟩ := a1 i hi
    obtain ⟨rfl, -⟩ := recordAddr_unique hb hb'
    obtain ⟨o, ho, h⟩ := b1 k hk'
    have ha : Client.getAccount L k = some (L k) := getAccount_some.2 ⟨h3, rfl⟩
    rw [ha] at h
    simp only [h4, Option.map_some] at h
    cases h
    exact ho

/-- When the Rust client lists at all. -/
theorem fetchPending_isSome {cr : Crypto} {L : Ledger} {u : Pubkey} {max : Option UInt8} :
    (∃ l, Client.fetchPendingWithdraws cr L u max = some l) ↔
      ∀ i < (max.getD 15).toNat, ∃ k b, RecordAddr cr u (UInt8.ofNat i) k b ∧
        ((L k).lamports = 0 ∨ ∃ p, PendingWithdraw.deserialize (L k).data = some p) := by
  constructor
  · rintro ⟨l, h⟩ i hi
    unfold Client.fetchPendingWithdraws at h
    obtain ⟨as, h1, h⟩ := optBind_some.1 h
    obtain ⟨os, h2, h⟩ := optBind_some.1 h
    obtain ⟨k, hk, b, hb⟩ := (withdrawAddresses_mem h1).1 i hi
    refine ⟨k, b, hb, ?_⟩
    obtain ⟨o, _, h⟩ := (mapM_some h2).1 k hk
    cases ha : Client.getAccount L k with
    | none =>
      left
      by_contra hne
      rw [getAccount_some.2 ⟨hne, rfl⟩] at ha
      cases ha
    | some a =>
      obtain ⟨h3, rfl⟩ := getAccount_some.1 ha
      rw [ha] at h
      obtain ⟨p, hp, _⟩ := Option.map_eq_some_iff.1 h
      exact Or.inr ⟨p, hp⟩
  · intro h
    obtain ⟨as, h1⟩ : ∃ as, Client.withdrawAddresses cr u (max.getD 15).toNat = some as := by
      apply mapM_isSome
      intro i hi
      obtain ⟨k, b, hb, _⟩ := h i (by simpa using hi)
      exact ⟨k, by rw [findRecord_iff.2 hb]; rfl⟩
    obtain ⟨os, h2⟩ : ∃ os, Client.fetchAllMaybe L as = some os := by
      apply mapM_isSome
      intro k hk
      obtain ⟨i, hi, b, hb⟩ := (withdrawAddresses_mem h1).2 k hk
      obtain ⟨k', b', hb', h3⟩ := h i hi
      obtain ⟨rfl, -⟩ := recordAddr_unique hb hb'
      cases ha : Client.getAccount L k with
      | none => exact ⟨none, rfl⟩
      | some a =>
        obtain ⟨h4, rfl⟩ := getAccount_some.1 ha
        rcases h3 with h3 | ⟨p, hp⟩
        · exact absurd h3 h4
        · exact ⟨some p, by simp [hp]⟩
    refine ⟨os.filterMap id, ?_⟩
    unfold Client.fetchPendingWithdraws
    change (Client.withdrawAddresses cr u (max.getD 15).toNat >>= _) = _
    rw [h1]
    change (Client.fetchAllMaybe L as >>= _) = _
    rw [h2]
    rfl

/-- What the JS client lists. -/
theorem jsFetchPending_mem {cr : Crypto} {L : Ledger} {u : Pubkey} {max : Option Int} {l : List PendingWithdraw}
    (h : Client.jsFetchPendingWithdraws cr L u max = some l) (p : PendingWithdraw) :
    p ∈ l ↔ ∃ i < (max.getD 15).toNat, ∃ k b, RecordAddr cr u (UInt8.ofNat i) k b ∧ (L k).lamports ≠ 0 ∧
      PendingWithdraw.deserialize (L k).data = some p := by
  unfold Client.jsFetchPendingWithdraws at h
  simp only [] at h
  split at h
  · obtain ⟨as, h1, h⟩ := optBind_some.1 h
    cases h
    obtain ⟨a1, a2⟩ := withdrawAddresses_mem h1
    simp only [List.mem_filterMap, List.mem_map, id_eq, exists_eq_right]
    constructor
    · rintro ⟨a, ⟨k, hk, ha⟩, h⟩
      obtain ⟨i, hi, b, hb⟩ := a2 k hk
      obtain ⟨h3, rfl⟩ := getAccount_some.1 ha
      exact ⟨i, hi, k, b, hb, h3, h⟩
    · rintro ⟨i, hi, k, b, hb, h3, h4⟩
      obtain ⟨k', hk', b', hb'⟩ := a1 i hi
      obtain ⟨rfl, -⟩ := recordAddr_unique hb hb'
      exact ⟨L k, ⟨k, hk', getAccount_some.2 ⟨h3, rfl⟩⟩, h4⟩
  · cases h

/-- When the JS client lists at all. -/
theorem jsFetchPending_isSome {cr : Crypto} {L : Ledger} {u : Pubkey} {max : Option Int} :
    (∃ l, Client.jsFetchPendingWithdraws cr L u max = some l) ↔
      0 ≤ max.getD 15 ∧ max.getD 15 ≤ 255 ∧
      ∀ i < (max.getD 15).toNat, ∃ k b, RecordAddr cr u (UInt8.ofNat i) k b := by
  unfold Client.jsFetchPendingWithdraws
  simp only []
  constructor
  · rintro ⟨l, h⟩
    split at h
    · next hv =>
      simp only [Client.jsValidMax, Bool.not_eq_true', Bool.or_eq_false_iff, decide_eq_false_iff_not] at hv
      obtain ⟨as, h1, h⟩ := optBind_some.1 h
      refine ⟨by omega, by omega, fun i hi => ?_⟩
      obtain ⟨k, _, b, hb⟩ := (withdrawAddresses_mem h1).1 i hi
      exact ⟨k, b, hb⟩
    · cases h
  · rintro ⟨h0, h255, h⟩
    have hv : Client.jsValidMax (max.getD 15) = true := by
      simp only [Client.jsValidMax, Bool.not_eq_true', Bool.or_eq_false_iff, decide_eq_false_iff_not]
      omega
    rw [if_pos hv]
    obtain ⟨as, h1⟩ : ∃ as, Client.withdrawAddresses cr u (max.getD 15).toNat = some as := by
      apply mapM_isSome
      intro i hi
      obtain ⟨k, b, hb⟩ := h i (by simpa using hi)
      exact ⟨k, by rw [findRecord_iff.2 hb]; rfl⟩
    rw [h1]
    exact ⟨_, rfl⟩

/-- A decoded record has the fields of the account. -/
theorem deserialize_fields {L : Ledger} {k : Pubkey} {p : PendingWithdraw}
    (h : PendingWithdraw.deserialize (L k).data = some p) :
    1024 ≤ (L k).data.length ∧ p.withdrawIndex = recIndex L k ∧ p.unstaker = recOwner L k ∧
      p.withdrawableOrcaAmount.toNat = recAmount L k ∧ p.withdrawableTimestamp.toInt = recTime L k ∧
      p.discriminator.toU8 = readU8 (L k).data 0 := by
  rw [PendingWithdraw.deserialize_eq] at h
  split at h
  · next hl =>
    obtain ⟨a, ha, rfl⟩ := Option.map_eq_some_iff.1 h
    exact ⟨hl, rfl, rfl, rfl, rfl, discOf_eq_some.1 ha⟩
  · cases h

/-- A record can be decoded. -/
theorem IsRecord.deserialize {L : Ledger} {k : Pubkey} (h : IsRecord L k) :
    ∃ p, PendingWithdraw.deserialize (L k).data = some p := by
  rw [PendingWithdraw.deserialize_eq, if_pos h.2.1, h.2.2]
  exact ⟨_, rfl⟩

/-! ### The exchange rate -/

theorem state_fields {L : Ledger} {k : Pubkey} {s : State} (h : State.deserialize (L k).data = some s) :
    s.escrowedOrcaAmount.toNat = escrow L k ∧ s.coolDownPeriodS.toInt = coolDown L k ∧
      s.updateAuthority = authority L k := by
  rw [State.deserialize_eq] at h
  split at h
  · obtain ⟨a, ha, rfl⟩ := Option.map_eq_some_iff.1 h
    exact ⟨rfl, rfl, rfl⟩
  · cases h

theorem decodeToken_amount {d : Bytes} {t : TokenAccount} (h : decodeTokenAccount d = some t) :
    t.amount = readU64 d 64 ∧ t.owner = readKey d 32 ∧ t.mint = readKey d 0 := by
  rw [decodeTokenAccount_eq] at h
  split at h
  · obtain ⟨a, ha, rfl⟩ := Option.map_eq_some_iff.1 h
    exact ⟨rfl, rfl, rfl⟩
  · cases h

theorem unpackToken_amount {d : Bytes} {t : TokenAccount} (h : unpackTokenAccount d = .ok t) :
    t.amount = readU64 d 64 ∧ t.owner = readKey d 32 ∧ t.mint = readKey d 0 := by
  obtain ⟨_, ⟨st, _, rfl⟩, _⟩ := unpackTokenAccount_ok.1 h
  exact ⟨rfl, rfl, rfl⟩

theorem rustRate {cr : Crypto} {L L1 L2 : Ledger} {n d : UInt64}
    (h : Client.fetchStakingExchangeRate cr L L1 L2 = some (n, d)) :
    ∃ st b v b', StateAddr cr st b ∧ VaultAddr cr st v b' ∧ escrow L st ≤ balance L1 v ∧
      n.toNat = balance L1 v - escrow L st ∧ d.toNat = supply L2 XORCA_MINT_ID := by
  unfold Client.fetchStakingExchangeRate at h
  obtain ⟨s, h1, h⟩ := optBind_some.1 h
  obtain ⟨w, h2, h⟩ := optBind_some.1 h
  obtain ⟨m, h3, h⟩ := optBind_some.1 h
  obtain ⟨c, h4, h⟩ := optBind_some.1 h
  cases h
  obtain ⟨k, b, a1, _, a2⟩ := fetchState_some.1 h1
  obtain ⟨st, b1, v, b2, t, c1, c2, _, c3, rfl⟩ := fetchVaultState_some.1 h2
  obtain ⟨rfl, -⟩ := stateAddr_unique a1 c1
  obtain ⟨_, m', e1, rfl⟩ := fetchSupply_some.1 h4
  obtain ⟨_, _, e2, _⟩ := unpackMint_ok.1 e1
  obtain ⟨f1, -, -⟩ := state_fields a2
  have g1 := (unpackToken_amount c3).1
  rw [checkedSubU64_eq_some] at h3
  simp only [g1, f1] at h3
  have : (readU64 (L1 v).data 64).toNat = balance L1 v := rfl
  refine ⟨k, b, v, b2, a1, c2, by omega, by omega, ?_⟩
  rw [← e2]; rfl

theorem jsRate {cr : Crypto} {L L1 L2 : Ledger} {n d : Int}
    (h : Client.jsFetchStakingExchangeRate cr L L1 L2 = some (n, d)) :
    ∃ st b v b', StateAddr cr st b ∧ VaultAddr cr st v b' ∧
      n = (balance L1 v : Int) - escrow L st ∧ d = supply L2 XORCA_MINT_ID := by
  unfold Client.jsFetchStakingExchangeRate at h
  obtain ⟨s, h1, h⟩ := optBind_some.1 h
  obtain ⟨w, h2, h⟩ := optBind_some.1 h
  obtain ⟨c, h4, h⟩ := optBind_some.1 h
  cases h
  obtain ⟨k, b, a1, _, a2⟩ := fetchState_some.1 h1
  obtain ⟨st, b1, v, b2, t, c1, c2, _, c3, rfl⟩ := jsFetchVaultState_some.1 h2
  obtain ⟨rfl, -⟩ := stateAddr_unique a1 c1
  obtain ⟨_, _, e1⟩ := jsFetchSupply_some.1 h4
  obtain ⟨f1, -, -⟩ := state_fields a2
  have g1 := (decodeToken_amount c3).1
  refine ⟨k, b, v, b2, a1, c2, ?_, ?_⟩
  · simp only [g1, f1]; rfl
  · rw [← e1]; rfl

theorem Pool.fetchState {cr : Crypto} {L : Ledger} {st v : Pubkey} (p : Pool cr L st v) :
    ∃ s, Client.fetchState cr L = some s ∧ s.escrowedOrcaAmount.toNat = escrow L st := by
  have hd : State.deserialize (L st).data = some (stateAt (L st).data .State) := by
    rw [State.deserialize_eq, if_pos (by rw [p.acc.len]), p.acc.tag]; rfl
  exact ⟨_, fetchState_some.2 ⟨st, _, p.acc.addr, p.acc.lam, hd⟩, rfl⟩

theorem Spec.PoolToken.unpack {cr : Crypto} {a : Account} (p : PoolToken cr a) :
    ∃ t, unpackTokenAccount a.data = .ok t ∧ decodeTokenAccount a.data = some t := by
  have hl := p.len
  have hs : ∃ s, tokenStateOf (readU8 a.data 108) = some s ∧ s ≠ .Uninitialized := by
    rcases p.state with h | h <;> rw [h]
    · exact ⟨.Initialized, by decide, by decide⟩
    · exact ⟨.Frozen, by decide, by decide⟩
  obtain ⟨s, hs, hu⟩ := hs
  have hd : decodeTokenAccount a.data = some (tokenAccountAt a.data s) := by
    rw [decodeTokenAccount_eq, if_pos (by omega), hs]; rfl
  refine ⟨_, ?_, hd⟩
  unfold unpackTokenAccount
  simp only [bind_eq_ok, exists_unit, ensure_eq_ok, okOr_eq_ok, hd, Option.some.injEq, exists_eq_left', Except.ok.injEq,
    and_true]
  refine ⟨hl, ⟨?_, ?_, ?_⟩, hu⟩
  · change coptionOk (readU32 a.data 72); rw [p.delegate]; exact Or.inl rfl
  · change coptionOk (readU32 a.data 109); rw [p.native]; exact Or.inl rfl
  · change coptionOk (readU32 a.data 129); rw [p.close]; exact Or.inl rfl

theorem Pool.fetchVault {cr : Crypto} {L : Ledger} {st v : Pubkey} (p : Pool cr L st v) (hl : (L v).lamports ≠ 0) :
    ∃ w, Client.fetchVaultState cr L = some w ∧ w.amount.toNat = balance L v := by
  obtain ⟨t, h1, h2⟩ := p.v_tok.unpack
  refine ⟨_, fetchVaultState_some.2 ⟨st, _, v, _, t, p.acc.addr, p.v_addr, hl, h1, rfl⟩, ?_⟩
  simp only [(unpackToken_amount h1).1]; rfl

theorem Pool.jsFetchVault {cr : Crypto} {L : Ledger} {st v : Pubkey} (p : Pool cr L st v) (hl : (L v).lamports ≠ 0) :
    ∃ w, Client.jsFetchVaultState cr L = some w ∧ w.amount.toNat = balance L v := by
  obtain ⟨t, h1, h2⟩ := p.v_tok.unpack
  refine ⟨_, jsFetchVaultState_some.2 ⟨st, _, v, _, t, p.acc.addr, p.v_addr, hl, h2, rfl⟩, ?_⟩
  simp only [(decodeToken_amount h2).1]; rfl

theorem Pool.fetchSupply {cr : Crypto} {L : Ledger} {st v : Pubkey} (p : Pool cr L st v)
    (hl : (L XORCA_MINT_ID).lamports ≠ 0) :
    Client.fetchXorcaMintSupply L = some (readU64 (L XORCA_MINT_ID).data 36) := by
  have hm := p.mint
  refine fetchSupply_some.2 ⟨hl, tokenMintAt (L XORCA_MINT_ID).data true, ?_, rfl⟩
  rw [unpackMint_ok]
  refine ⟨hm.len, hm.init, rfl, ?_, ?_⟩
  · rw [hm.flag]; exact Or.inr rfl
  · rw [hm.freeze]; exact Or.inl rfl

theorem Pool.jsFetchSupply {cr : Crypto} {L : Ledger} {st v : Pubkey} (p : Pool cr L st v)
    (hl : (L XORCA_MINT_ID).lamports ≠ 0) :
    Client.jsFetchXorcaMintSupply L = some (readU64 (L XORCA_MINT_ID).data 36) :=
  jsFetchSupply_some.2 ⟨hl, by rw [p.mint.len], rfl⟩

end Xorca
