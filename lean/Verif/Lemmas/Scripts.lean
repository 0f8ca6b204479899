import Verif.Lemmas.Client
import Verif.Client.Scripts
import Mathlib.Data.Nat.Digits.Defs
/-
Facts about the scripts.
-/
namespace Xorca
open Spec Client

variable {cr : Crypto} {L : Ledger}

/-! ### Numbers -/

theorem roundDouble_small {n : Nat} (h : n ≤ 2 ^ 53) : Scripts.roundDouble n = n := by
  unfold Scripts.roundDouble
  split
  · rfl
  · have : n = 2 ^ 53 := by omega
    subst this
    decide +kernel

theorem roundDouble_large {n : Nat} (h : 2 ^ 53 ≤ n) : 2 ^ 53 ≤ Scripts.roundDouble n := by
  unfold Scripts.roundDouble
  rw [if_neg (by omega)]
  dsimp only
  have hl : 53 ≤ n.log2 := (Nat.le_log2 (by omega)).2 h
  have h1 : 2 ^ n.log2 ≤ n := Nat.log2_self_le (by omega)
  have h2 : 2 ^ 52 ≤ n / 2 ^ (n.log2 - 52) := by
    rw [Nat.le_div_iff_mul_le (Nat.two_pow_pos _), ← Nat.pow_add]
    rwa [show 52 + (n.log2 - 52) = n.log2 by omega]
  have h3 : 2 ^ 1 ≤ 2 ^ (n.log2 - 52) := Nat.pow_le_pow_right (by omega) (by omega)
  have h4 : 2 ^ 52 * 2 ^ 1 ≤ n / 2 ^ (n.log2 - 52) * 2 ^ (n.log2 - 52) := Nat.mul_le_mul h2 h3
  split
  · omega
  · rw [Nat.add_mul]; omega

theorem toNumber_small {i : Int} (h : i.natAbs ≤ 2 ^ 53) : Scripts.toNumber i = i := by
  unfold Scripts.toNumber
  rw [roundDouble_small h]
  split <;> omega

/-- Conversion to a double keeps the order relative to a clock that is itself exact. -/
theorem toNumber_le_iff {i now : Int} (h0 : 0 ≤ now) (h1 : now < 2 ^ 53) : Scripts.toNumber i ≤ now ↔ i ≤ now := by
  by_cases hs : i.natAbs ≤ 2 ^ 53
  · rw [toNumber_small hs]
  · have := roundDouble_large (n := i.natAbs) (by omega)
    unfold Scripts.toNumber
    split <;> omega

/-! ### Texts -/

theorem isDigit_range {c : Char} (h : c.isDigit = true) : 48 ≤ c.toNat ∧ c.toNat ≤ 57 := by
  unfold Char.isDigit at h
  simp only [ge_iff_le, Bool.and_eq_true, decide_eq_true_eq] at h
  exact ⟨h.1, h.2⟩

theorem isDigit_not_space {c : Char} (h : c.isDigit = true) : c.isWhitespace = false := by
  have hr := isDigit_range h
  unfold Char.isWhitespace
  simp only [Bool.or_eq_false_iff, decide_eq_false_iff_not]
  refine ⟨⟨⟨?_, ?_⟩, ?_⟩, ?_⟩ <;> (rintro rfl; revert hr; decide)

theorem parseInt_digits {auto : Bool} {c : Char} {l r : List Char} (hd : ∀ a ∈ c :: l, a.isDigit = true)
    (hr : ∀ a ∈ r.head?, a.isDigit = false) (hx : auto = true → ∀ a ∈ r.head?, a ≠ 'x' ∧ a ≠ 'X') :
    Scripts.parseInt auto (c :: l ++ r) = some (Scripts.toNumber (Scripts.decimal (c :: l))) := by
  have hc := hd c (by simp)
  have hcr := isDigit_range hc
  unfold Scripts.parseInt
  have h1 : (c :: l ++ r).dropWhile Char.isWhitespace = c :: l ++ r := by
    rw [List.cons_append, List.dropWhile_cons, if_neg (by rw [isDigit_not_space hc]; decide)]
  rw [h1]
  dsimp only [List.cons_append]
  have hm : Scripts.splitSign (c :: (l ++ r)) = (false, c :: (l ++ r)) := by
    unfold Scripts.splitSign
    split
    · next h => cases h; exact absurd hc (by decide)
    · next h => cases h; exact absurd hc (by decide)
    · rfl
  rw [hm]
  dsimp only
  have htk : (c :: (l ++ r)).takeWhile Char.isDigit = c :: l := by
    rw [← List.cons_append, List.takeWhile_append_of_pos hd]
    cases r with
    | nil => simp
    | cons a r => rw [List.takeWhile_cons, if_neg (by rw [hr a (by simp)]; decide)]; simp
  have hhex : (auto && ((c :: (l ++ r)).take 2 == ['0', 'x'] || (c :: (l ++ r)).take 2 == ['0', 'X'])) = false := by
    cases auto with
    | false => rfl
    | true =>
      have key : ∀ ch, ch = 'x' ∨ ch = 'X' → ((c :: (l ++ r)).take 2 == ['0', ch]) = false := by
        intro ch hch
        rw [beq_eq_false_iff_ne]
        intro he
        have h2 : (l ++ r).head? = some ch := by
          cases hlr : l ++ r with
          | nil => rw [hlr] at he; simp at he
          | cons b t => rw [hlr] at he; simp at he; rw [he.2]; rfl
        cases l with
        | nil =>
          have := hx rfl ch (by simpa using h2)
          rcases hch with rfl | rfl
          · exact this.1 rfl
          · exact this.2 rfl
        | cons b t =>
          simp at h2
          have hb := isDigit_range (hd b (by simp))
          rw [h2] at hb
          rcases hch with rfl | rfl <;> revert hb <;> decide
      rw [key 'x' (Or.inl rfl), key 'X' (Or.inr rfl)]
      rfl
  rw [hhex]
  simp only [Bool.false_eq_true, if_false]
  rw [htk, if_neg (by simp)]

theorem parseInt_toString {auto : Bool} (n : Nat) :
    Scripts.parseInt auto (toString n).toList = some (Scripts.toNumber n) := by
  rw [Nat.toString_eq_ofList_toDigits, String.toList_ofList]
  have hd : ∀ a ∈ Nat.toDigits 10 n, a.isDigit = true :=
    fun a ha => Nat.isDigit_of_mem_toDigits (by omega) (by omega) ha
  have hv : Scripts.decimal (Nat.toDigits 10 n) = n := by
    unfold Scripts.decimal
    rw [← Nat.ofDigitChars_eq_foldl]
    exact Nat.ofDigitChars_ten_toDigits
  cases hl : Nat.toDigits 10 n with
  | nil => exact absurd hl Nat.toDigits_ne_nil
  | cons c l =>
    rw [hl] at hd hv
    have := parseInt_digits (auto := auto) (r := []) hd (by simp) (by simp)
    rw [List.append_nil] at this
    rw [this, hv]

theorem writeUInt8_eq {v : Option Int} {b : Bytes} (h : Scripts.writeUInt8 v = some b) :
    ∃ i : UInt8, b = [i] ∧ Scripts.bufferFrom v = i ∧ ((v = none ∧ i = 0) ∨ v = some (i.toNat : Int)) := by
  cases v with
  | none =>
    simp only [Scripts.writeUInt8, Option.some.injEq] at h
    exact ⟨0, h.symm, rfl, Or.inl ⟨rfl, rfl⟩⟩
  | some i =>
    simp only [Scripts.writeUInt8] at h
    split at h
    · cases h
    · next hi =>
      cases h
      have ht : (UInt8.ofNat i.toNat).toNat = i.toNat := UInt8.toNat_ofNat_of_lt' (by change i.toNat < 256; omega)
      refine ⟨_, rfl, ?_, Or.inr ?_⟩
      · unfold Scripts.bufferFrom
        rw [Option.getD_some, show i % 256 = i by omega]
      · rw [ht]; congr 1; omega

theorem writeUInt8_some {i : Nat} (h : i < 256) : Scripts.writeUInt8 (some (i : Int)) = some [UInt8.ofNat i] := by
  simp only [Scripts.writeUInt8]
  rw [if_neg (by omega), Int.toNat_natCast]

theorem writeU64_eq {n : Int} {b : Bytes} (h : Scripts.writeBigUInt64LE n = some b) :
    ∃ a : UInt64, b = u64le a ∧ (a.toNat : Int) = n := by
  unfold Scripts.writeBigUInt64LE at h
  split at h
  · cases h
  · cases h
    refine ⟨_, rfl, ?_⟩
    rw [UInt64.toNat_ofNat_of_lt' (by change n.toNat < 2 ^ 64; omega)]
    omega

theorem writeI64_eq {n : Int} {b : Bytes} (h : Scripts.writeBigInt64LE n = some b) :
    ∃ a : Int64, b = i64le a ∧ a.toInt = n := by
  unfold Scripts.writeBigInt64LE at h
  split at h
  · cases h
  · cases h
    exact ⟨_, rfl, Int64.toInt_ofInt_of_le (by omega) (by omega)⟩

/-! ### Addresses -/

theorem skey_program : key58 Scripts.XORCA_STAKING_PROGRAM_ID = some PROGRAM_ID := key58_program
theorem skey_orca : key58 Scripts.ORCA_MINT_ADDRESS = some ORCA_MINT_ID := key58_orca
theorem skey_xorca : key58 Scripts.XORCA_MINT_ADDRESS = some XORCA_MINT_ID := key58_xorca
theorem skey_token : key58 Scripts.TOKEN_PROGRAM_ID = some SPL_TOKEN_PROGRAM_ID := key58_token
theorem skey_ata : key58 Scripts.ASSOCIATED_TOKEN_PROGRAM_ID = some Xorca.ASSOCIATED_TOKEN_PROGRAM_ID := key58_ata
theorem skey_system : key58 Scripts.SYSTEM_PROGRAM_ID = some Xorca.SYSTEM_PROGRAM_ID := by decide +kernel
theorem skey_deployer : key58 Scripts.DEPLOYER_ADDRESS = some Xorca.DEPLOYER_ADDRESS := by decide +kernel

theorem optMap_fst {o : Option (Pubkey × UInt8)} {k : Pubkey} : o.map Prod.fst = some k ↔ ∃ b, o = some (k, b) := by
  rcases o with _ | ⟨a, b⟩
  · simp
  · simp

theorem stateAccount_iff {k : Pubkey} : Scripts.stateAccount cr = some k ↔ ∃ b, StateAddr cr k b := by
  unfold Scripts.stateAccount StateAddr
  rw [skey_program, show ascii "state" = [115, 116, 97, 116, 101] by decide +kernel]
  exact optMap_fst

theorem vaultAccount_iff {st k : Pubkey} : Scripts.vaultAccount cr st = some k ↔ ∃ b, VaultAddr cr st k b := by
  unfold Scripts.vaultAccount VaultAddr
  rw [skey_token, skey_orca, skey_ata]
  exact optMap_fst

theorem pendingAccount_iff {u k : Pubkey} {v : Option Int} :
    Scripts.pendingWithdrawAccount cr u v = some k ↔ ∃ b, RecordAddr cr u (Scripts.bufferFrom v) k b := by
  unfold Scripts.pendingWithdrawAccount RecordAddr
  rw [skey_program, show ascii "pending_withdraw" = [112, 101, 110, 100, 105, 110, 103, 95, 119, 105, 116, 104, 100, 114,
    97, 119] by decide +kernel]
  exact optMap_fst

theorem ataOf_iff {m u k : Pubkey} : Scripts.ataOf cr m u = some k ↔
    ∃ b, findProgramAddress cr [u.bytes, SPL_TOKEN_PROGRAM_ID.bytes, m.bytes] Xorca.ASSOCIATED_TOKEN_PROGRAM_ID =
      some (k, b) := by
  unfold Scripts.ataOf
  rw [skey_token, skey_ata]
  exact optMap_fst

theorem getAccount_isNone {k : Pubkey} : (getAccount L k).isNone = true ↔ (L k).lamports = 0 := by
  unfold getAccount
  split <;> simp_all

theorem tokenAmount_some {k : Pubkey} {n : UInt64} (h : Scripts.tokenAmount L k = some n) : n.toNat = balance L k := by
  unfold Scripts.tokenAmount at h
  obtain ⟨a, h1, h⟩ := optBind_some.1 h
  obtain ⟨hl, rfl⟩ := getAccount_some.1 h1
  rw [skey_token] at h
  change (if (L k).owner = SPL_TOKEN_PROGRAM_ID then _ else none) = _ at h
  split at h
  · obtain ⟨t, h2, rfl⟩ := Option.map_eq_some_iff.1 h
    rw [orNone_some] at h2
    rw [(unpackToken_amount h2).1]; rfl
  · cases h

theorem tokenAmount_of {k : Pubkey} {t : TokenAccount} (hl : (L k).lamports ≠ 0) (ho : (L k).owner = SPL_TOKEN_PROGRAM_ID)
    (ht : unpackTokenAccount (L k).data = .ok t) : Scripts.tokenAmount L k = some t.amount := by
  unfold Scripts.tokenAmount
  refine optBind_some.2 ⟨_, getAccount_some.2 ⟨hl, rfl⟩, ?_⟩
  rw [skey_token]
  change (if (L k).owner = SPL_TOKEN_PROGRAM_ID then _ else none) = _
  rw [if_pos ho, orNone_some.2 ht]; rfl

theorem Spec.TokenOk.unpack {k m o : Pubkey} (h : TokenOk L k m o) :
    ∃ t, unpackTokenAccount (L k).data = .ok t ∧ t.amount.toNat = balance L k := by
  have hs : tokenStateOf (readU8 (L k).data 108) = some .Initialized := by rw [h.state]; decide
  refine ⟨_, unpackTokenAccount_ok.2 ⟨h.len, ⟨_, hs, rfl⟩, ⟨h.delegate, Or.inl h.native, h.close⟩, ?_⟩, rfl⟩
  rw [h.state]; decide

theorem Spec.TokenOk.tokenAmount {k m o : Pubkey} (h : TokenOk L k m o) (hl : (L k).lamports ≠ 0) :
    ∃ n, Scripts.tokenAmount L k = some n ∧ n.toNat = balance L k := by
  obtain ⟨t, h1, h2⟩ := h.unpack
  exact ⟨_, tokenAmount_of hl h.prog h1, h2⟩

/-! ### Account lists -/

theorem Client.Passed.cons {b : Meta} {bs accs : List Meta} (h : Passed (b :: bs) accs) :
    ∃ m rest, accs = m :: rest ∧ m.key = b.key ∧ (b.isSigner = true → m.isSigner = true) ∧
      (b.isWritable = true → m.isWritable = true) ∧ Passed bs rest := by
  obtain ⟨m, h1, h2, h3, h4⟩ := h 0 b rfl
  cases accs with
  | nil => cases h1
  | cons a rest =>
    cases h1
    refine ⟨m, rest, rfl, h2, h3, h4, fun i b' hb => ?_⟩
    exact h (i + 1) b' hb

/-! ### The scripts as conditions -/

theorem ite_none_some {α : Type} {c : Prop} [Decidable c] {o : Option α} {a : α} :
    (if c then none else o) = some a ↔ ¬ c ∧ o = some a := by
  split <;> simp_all

theorem stakeScript_iff {u : Pubkey} {a : Int} {s : Scripts.Sent} : Scripts.stake cr L u a = some s ↔
    ∃ st v oa xa n b, (∃ b, StateAddr cr st b) ∧ (∃ b, VaultAddr cr st v b) ∧
      Scripts.ataOf cr ORCA_MINT_ID u = some oa ∧ Scripts.ataOf cr XORCA_MINT_ID u = some xa ∧
      Scripts.tokenAmount L oa = some n ∧ ¬ (n.toNat : Int) < a ∧ Scripts.writeBigUInt64LE a = some b ∧
      s = ⟨[0] ++ b, [⟨u, true, true⟩, ⟨v, false, true⟩, ⟨oa, false, true⟩, ⟨xa, false, true⟩,
        ⟨XORCA_MINT_ID, false, true⟩, ⟨st, false, false⟩, ⟨ORCA_MINT_ID, false, false⟩,
        ⟨SPL_TOKEN_PROGRAM_ID, false, false⟩], (getAccount L xa).isNone⟩ := by
  unfold Scripts.stake
  simp only [skey_orca, skey_xorca, skey_token, optBind_some, Option.some.injEq, exists_eq_left', stateAccount_iff,
    vaultAccount_iff, ite_none_some]
  constructor
  · rintro ⟨st, h1, v, h2, oa, h3, xa, h4, n, h5, h6, b, h7, rfl⟩
    exact ⟨st, v, oa, xa, n, b, h1, h2, h3, h4, h5, h6, h7, rfl⟩
  · rintro ⟨st, v, oa, xa, n, b, h1, h2, h3, h4, h5, h6, h7, rfl⟩
    exact ⟨st, h1, v, h2, oa, h3, xa, h4, n, h5, h6, b, h7, rfl⟩

theorem unstakeScript_iff {u : Pubkey} {a : Int} {t : List Char} {s : Scripts.Sent} :
    Scripts.unstake cr L u a t = some s ↔
    ∃ st v oa xa n pw b c, (∃ b, StateAddr cr st b) ∧ (∃ b, VaultAddr cr st v b) ∧
      Scripts.ataOf cr ORCA_MINT_ID u = some oa ∧ Scripts.ataOf cr XORCA_MINT_ID u = some xa ∧
      Scripts.tokenAmount L xa = some n ∧ ¬ (n.toNat : Int) < a ∧
      (∃ b, RecordAddr cr u (Scripts.bufferFrom (Scripts.parseInt false t)) pw b) ∧
      Scripts.writeBigUInt64LE a = some b ∧ Scripts.writeUInt8 (Scripts.parseInt false t) = some c ∧
      s = ⟨[1] ++ b ++ c, [⟨u, true, true⟩, ⟨st, false, true⟩, ⟨pw, false, true⟩, ⟨xa, false, true⟩,
        ⟨XORCA_MINT_ID, false, true⟩, ⟨ORCA_MINT_ID, false, false⟩, ⟨v, false, true⟩,
        ⟨SYSTEM_PROGRAM_ID, false, false⟩, ⟨SPL_TOKEN_PROGRAM_ID, false, false⟩], (getAccount L oa).isNone⟩ := by
  unfold Scripts.unstake
  simp only [skey_orca, skey_xorca, skey_token, skey_system, optBind_some, Option.some.injEq, exists_eq_left',
    stateAccount_iff, vaultAccount_iff, pendingAccount_iff, ite_none_some]
  constructor
  · rintro ⟨st, h1, v, h2, oa, h3, xa, h4, n, h5, h6, pw, h7, b, h8, c, h9, rfl⟩
    exact ⟨st, v, oa, xa, n, pw, b, c, h1, h2, h3, h4, h5, h6, h7, h8, h9, rfl⟩
  · rintro ⟨st, v, oa, xa, n, pw, b, c, h1, h2, h3, h4, h5, h6, h7, h8, h9, rfl⟩
    exact ⟨st, h1, v, h2, oa, h3, xa, h4, n, h5, h6, pw, h7, b, h8, c, h9, rfl⟩

theorem withdrawScript_iff {u : Pubkey} {t : List Char} {now : Int} {s : Scripts.Sent × Int} :
    Scripts.withdraw cr L u t now = some s ↔
    ∃ st pw v oa c, (∃ b, StateAddr cr st b) ∧
      (∃ b, RecordAddr cr u (Scripts.bufferFrom (Scripts.parseInt false t)) pw b) ∧ (∃ b, VaultAddr cr st v b) ∧
      Scripts.ataOf cr ORCA_MINT_ID u = some oa ∧ (L pw).lamports ≠ 0 ∧ 56 ≤ (L pw).data.length ∧
      Scripts.writeUInt8 (Scripts.parseInt false t) = some c ∧
      s = (⟨[2] ++ c, [⟨u, true, true⟩, ⟨st, false, true⟩, ⟨pw, false, true⟩, ⟨oa, false, true⟩, ⟨v, false, true⟩,
        ⟨ORCA_MINT_ID, false, false⟩, ⟨SYSTEM_PROGRAM_ID, false, false⟩, ⟨SPL_TOKEN_PROGRAM_ID, false, false⟩],
        (getAccount L oa).isNone⟩, Scripts.toNumber (readI64 (L pw).data 48).toInt - now) := by
  unfold Scripts.withdraw
  simp only [skey_orca, skey_token, skey_system, optBind_some, Option.some.injEq, exists_eq_left', stateAccount_iff,
    vaultAccount_iff, pendingAccount_iff, ite_none_some, getAccount_some]
  constructor
  · rintro ⟨st, h1, pw, h2, v, h3, oa, h4, _, ⟨h5, rfl⟩, h6, c, h7, rfl⟩
    exact ⟨st, pw, v, oa, c, h1, h2, h3, h4, h5, by omega, h7, rfl⟩
  · rintro ⟨st, pw, v, oa, c, h1, h2, h3, h4, h5, h6, h7, rfl⟩
    exact ⟨st, h1, pw, h2, v, h3, oa, h4, _, ⟨h5, rfl⟩, by omega, c, h7, rfl⟩

theorem setScript_iff {u : Pubkey} {op : Scripts.SetOperation} {s : Scripts.Sent} :
    Scripts.setScript cr L u op = some s ↔
    ∃ st d, (∃ b, StateAddr cr st b) ∧ (L st).lamports ≠ 0 ∧
      (match op with
        | .updateCooldown t => ∃ c b, Scripts.parseInt true t = some c ∧ ¬ c < 0 ∧ Scripts.writeBigInt64LE c = some b ∧
            [4, 0] ++ b = d
        | .updateAuthority t => ∃ k, key58 t = some k ∧ [4, 1] ++ k.bytes = d) ∧
      s = ⟨d, [⟨u, true, true⟩, ⟨st, false, true⟩], false⟩ := by
  unfold Scripts.setScript
  simp only [optBind_some, Option.some.injEq, stateAccount_iff, getAccount_some]
  constructor
  · rintro ⟨st, h1, _, ⟨h2, rfl⟩, d, h3, rfl⟩
    refine ⟨st, d, h1, h2, ?_, rfl⟩
    cases op with
    | updateCooldown t =>
      simp only [Scripts.setData, optBind_some, ite_none_some, Option.map_eq_some_iff] at h3
      obtain ⟨c, h3, h4, b, h5, h6⟩ := h3
      exact ⟨c, b, h3, h4, h5, h6⟩
    | updateAuthority t => exact Option.map_eq_some_iff.1 h3
  · rintro ⟨st, d, h1, h2, h3, rfl⟩
    refine ⟨st, h1, _, ⟨h2, rfl⟩, d, ?_, rfl⟩
    cases op with
    | updateCooldown t =>
      obtain ⟨c, b, h3, h4, h5, h6⟩ := h3
      simp only [Scripts.setData, optBind_some, ite_none_some, Option.map_eq_some_iff]
      exact ⟨c, h3, h4, b, h5, h6⟩
    | updateAuthority t => exact Option.map_eq_some_iff.2 h3

theorem initializeScript_iff {d au : Pubkey} {t : List Char} {s : Scripts.Sent} :
    Scripts.initializeScript cr d au t = some s ↔
    ∃ st v c b, d = DEPLOYER_ADDRESS ∧ (∃ b, StateAddr cr st b) ∧ (∃ b, VaultAddr cr st v b) ∧
      Scripts.parseInt true t = some c ∧ Scripts.writeBigInt64LE c = some b ∧
      s = ⟨[3] ++ b, [⟨d, true, true⟩, ⟨au, true, true⟩, ⟨st, false, true⟩, ⟨v, false, true⟩,
        ⟨XORCA_MINT_ID, false, false⟩, ⟨ORCA_MINT_ID, false, false⟩, ⟨SYSTEM_PROGRAM_ID, false, false⟩,
        ⟨SPL_TOKEN_PROGRAM_ID, false, false⟩, ⟨Xorca.ASSOCIATED_TOKEN_PROGRAM_ID, false, false⟩], false⟩ := by
  unfold Scripts.initializeScript
  simp only [skey_deployer, skey_orca, skey_xorca, skey_token, skey_system, skey_ata, optBind_some, Option.some.injEq,
    exists_eq_left', stateAccount_iff, vaultAccount_iff, ite_none_some, not_not]
  constructor
  · rintro ⟨h0, st, h1, v, h2, c, h3, b, h4, rfl⟩
    exact ⟨st, v, c, b, h0, h1, h2, h3, h4, rfl⟩
  · rintro ⟨st, v, c, b, h0, h1, h2, h3, h4, rfl⟩
    exact ⟨h0, st, h1, v, h2, c, h3, b, h4, rfl⟩

theorem status_iff {L1 L2 : Ledger} {q : Scripts.Status} (h : Scripts.status cr L L1 L2 = some q) :
    ∃ st v, (∃ b, StateAddr cr st b) ∧ (∃ b, VaultAddr cr st v b) ∧
      q.nonEscrowed = (balance L1 v : Int) - escrow L st ∧ q.supply = supply L2 XORCA_MINT_ID ∧
      q.orcaToXorca = (q.nonEscrowed + 100, (q.supply : Int) + 100) ∧
      q.xorcaToOrca = ((q.supply : Int) + 100, q.nonEscrowed + 100) := by
  unfold Scripts.status at h
  simp only [skey_xorca, skey_token, optBind_some, Option.some.injEq, exists_eq_left', stateAccount_iff,
    vaultAccount_iff, getAccount_some] at h
  obtain ⟨st, h1, v, h2, _, ⟨h3, rfl⟩, d, h4, n, h5, _, ⟨h6, rfl⟩, h⟩ := h
  split at h
  · simp only [optBind_some, orNone_some, Option.some.injEq] at h
    obtain ⟨m, h7, rfl⟩ := h
    obtain ⟨_, _, h8, _⟩ := unpackMint_ok.1 h7
    refine ⟨st, v, h1, h2, ?_, ?_, rfl, rfl⟩
    · dsimp only
      rw [tokenAmount_some h5, (state_fields h4).1]
    · dsimp only
      rw [← h8]; rfl
  · cases h

theorem rowOf_some {k : Pubkey} {c now : Int} {r : Scripts.Row} : Scripts.rowOf L k c now = some r ↔
    (L k).lamports ≠ 0 ∧ 56 ≤ (L k).data.length ∧
    r = { index := recIndex L k, address := k, xorcaAmount := recAmount L k, timestamp := recTime L k
          isReady := decide (recTime L k ≤ now)
          timeRemaining := if recTime L k ≤ now then 0 else recTime L k - now
          timeSinceReady := if recTime L k ≤ now then now - recTime L k else 0
          createdAt := recTime L k - c } := by
  unfold Scripts.rowOf
  simp only [optBind_some, getAccount_some, ite_none_some, Option.some.injEq]
  constructor
  · rintro ⟨_, ⟨h1, rfl⟩, h2, rfl⟩
    refine ⟨h1, by omega, ?_⟩
    simp only [decide_eq_true_eq]
    rfl
  · rintro ⟨h1, h2, rfl⟩
    refine ⟨_, ⟨h1, rfl⟩, by omega, ?_⟩
    simp only [decide_eq_true_eq]
    rfl

theorem bufferFrom_small {i : Nat} (h : i < 256) : Scripts.bufferFrom (some (i : Int)) = UInt8.ofNat i := by
  unfold Scripts.bufferFrom
  rw [Option.getD_some, show ((i : Int) % 256).toNat = i by omega]

theorem pendingRows_mem {u : Pubkey} {now : Int} {rows : List Scripts.Row}
    (h : Scripts.pendingWithdraws cr L u now = some rows) :
    ∃ st, (∃ b, StateAddr cr st b) ∧ ∀ r, r ∈ rows ↔ ∃ i < 15, ∃ k b, RecordAddr cr u (UInt8.ofNat i) k b ∧
      Scripts.rowOf L k (coolDown L st) now = some r := by
  unfold Scripts.pendingWithdraws at h
  simp only [optBind_some, stateAccount_iff, getAccount_some, ite_none_some, Option.some.injEq] at h
  obtain ⟨st, h1, _, ⟨h2, rfl⟩, h3, rfl⟩ := h
  refine ⟨st, h1, fun r => ?_⟩
  simp only [List.mem_filterMap, List.mem_range, Option.bind_eq_some_iff, pendingAccount_iff]
  constructor
  · rintro ⟨i, hi, k, ⟨b, hk⟩, hr⟩
    rw [bufferFrom_small (by omega)] at hk
    exact ⟨i, hi, k, b, hk, hr⟩
  · rintro ⟨i, hi, k, b, hk, hr⟩
    refine ⟨i, hi, k, ⟨b, ?_⟩, hr⟩
    rw [bufferFrom_small (by omega)]
    exact hk

end Xorca
