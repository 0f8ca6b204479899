import Verif.Lemmas.Types
import Verif.Demo
/-
C102: the generated type modules of the clients.
-/
namespace Xorca
open Client

/-! ### C102: numbers that do not fit are refused -/

/-- The JS encoders of instruction data give bytes exactly for arguments that are the values of some instruction, and
the bytes are those of the Rust client; the program reads back that instruction and nothing is left over. -/
theorem C102_js_instruction_encoder (a : IxArgs) (d : Bytes) :
    (jsEncodeIx a = some d ↔ ∃ ix, IxArgs.of ix = a ∧ d = Client.encode ix) ∧
    ∀ ix, IxArgs.of ix = a → jsEncodeIx a = some d → Instruction.deserialize d = some (ix, []) := by
  have key : ∀ ix, jsEncodeIx (.of ix) = some (Client.encode ix) := by
    intro ix
    cases ix with
    | Stake a => simp only [IxArgs.of, jsEncodeIx, jsU64_toNat, Option.bind_eq_bind, Option.bind_some]; rfl
    | Unstake a i =>
      simp only [IxArgs.of, jsEncodeIx, jsU64_toNat, jsU8_toNat, Option.bind_eq_bind, Option.bind_some]; rfl
    | Withdraw i => simp only [IxArgs.of, jsEncodeIx, jsU8_toNat, Option.bind_eq_bind, Option.bind_some]; rfl
    | Initialize c => simp only [IxArgs.of, jsEncodeIx, jsI64_toInt, Option.bind_eq_bind, Option.bind_some]; rfl
    | Set u =>
      cases u with
      | UpdateCoolDownPeriod c =>
        simp only [IxArgs.of, StateUpdateArgs.of, jsEncodeIx, jsEncodeStateUpdate, jsI64_toInt, Option.bind_eq_bind,
          Option.bind_some]
        rfl
      | UpdateUpdateAuthority k => rfl
  refine ⟨⟨fun h => ?_, ?_⟩, ?_⟩
  · cases a with
    | Stake v =>
      obtain ⟨b1, h1, h⟩ := optBind_some.1 h
      obtain ⟨w1, rfl, rfl⟩ := jsU64_some.1 h1
      cases h; exact ⟨.Stake w1, rfl, rfl⟩
    | Unstake v i =>
      obtain ⟨b1, h1, h⟩ := optBind_some.1 h
      obtain ⟨b2, h2, h⟩ := optBind_some.1 h
      obtain ⟨w1, rfl, rfl⟩ := jsU64_some.1 h1
      obtain ⟨w2, rfl, rfl⟩ := jsU8_some.1 h2
      cases h; exact ⟨.Unstake w1 w2, rfl, rfl⟩
    | Withdraw i =>
      obtain ⟨b1, h1, h⟩ := optBind_some.1 h
      obtain ⟨w1, rfl, rfl⟩ := jsU8_some.1 h1
      cases h; exact ⟨.Withdraw w1, rfl, rfl⟩
    | Initialize c =>
      obtain ⟨b1, h1, h⟩ := optBind_some.1 h
      obtain ⟨w1, rfl, rfl⟩ := jsI64_some.1 h1
      cases h; exact ⟨.Initialize w1, rfl, rfl⟩
    | Set u =>
      obtain ⟨b1, h1, h⟩ := optBind_some.1 h
      cases u with
      | UpdateCoolDownPeriod c =>
        obtain ⟨b2, h2, h1⟩ := optBind_some.1 h1
        obtain ⟨w1, rfl, rfl⟩ := jsI64_some.1 h2
        cases h1; cases h; exact ⟨.Set (.UpdateCoolDownPeriod w1), rfl, rfl⟩
      | UpdateUpdateAuthority k => cases h1; cases h; exact ⟨.Set (.UpdateUpdateAuthority k), rfl, rfl⟩
  · rintro ⟨ix, rfl, rfl⟩; exact key ix
  · rintro ix rfl h
    rw [key] at h
    cases h
    simpa using deserialize_encode ix []

/-- In numbers: an amount is refused outside of `[0, 2 ^ 64)`, an index outside of `[0, 255]` and a period outside of
`[-2 ^ 63, 2 ^ 63)`. -/
theorem C102_js_instruction_ranges (v i c : Int) :
    (jsEncodeIx (.Stake v) = none ↔ v < 0 ∨ 2 ^ 64 ≤ v) ∧
    (jsEncodeIx (.Unstake v i) = none ↔ v < 0 ∨ 2 ^ 64 ≤ v ∨ i < 0 ∨ 255 < i) ∧
    (jsEncodeIx (.Withdraw i) = none ↔ i < 0 ∨ 255 < i) ∧
    (jsEncodeIx (.Initialize c) = none ↔ c < -2 ^ 63 ∨ 2 ^ 63 ≤ c) ∧
    (jsEncodeIx (.Set (.UpdateCoolDownPeriod c)) = none ↔ c < -2 ^ 63 ∨ 2 ^ 63 ≤ c) ∧
    (∀ k, jsEncodeIx (.Set (.UpdateUpdateAuthority k)) ≠ none) := by
  refine ⟨?_, ?_, ?_, ?_, ?_, fun k => by simp [jsEncodeIx, jsEncodeStateUpdate]⟩
  · simp only [jsEncodeIx, jsU64]; split <;> simp <;> omega
  · simp only [jsEncodeIx, jsU64, jsU8]; split <;> split <;> simp <;> omega
  · simp only [jsEncodeIx, jsU8]; split <;> simp <;> omega
  · simp only [jsEncodeIx, jsI64]; split <;> simp <;> omega
  · simp only [jsEncodeIx, jsEncodeStateUpdate, jsI64]; split <;> simp <;> omega

/-- The JS encoder of events gives bytes exactly for the values of some event, and the bytes are those that the program
emits. -/
theorem C102_js_event_encoder (a : EventArgs) (d : Bytes) :
    (jsEncodeEvent a = some d ↔ ∃ e, EventArgs.of e = a ∧ d = e.serialize) ∧
    ∀ e, EventArgs.of e = a → jsEncodeEvent a = some d → decodeEvent d = some e := by
  have key : ∀ e, jsEncodeEvent (.of e) = some e.serialize := by
    intro e
    cases e <;> simp only [EventArgs.of, jsEncodeEvent, jsU64_toNat, jsI64_toInt, jsU8_toNat, Option.bind_eq_bind,
      Option.bind_some, Event.serialize]
  refine ⟨⟨fun h => ?_, ?_⟩, ?_⟩
  · cases a with
    | Stake a b c d e =>
      obtain ⟨b1, h1, h⟩ := optBind_some.1 h
      obtain ⟨b2, h2, h⟩ := optBind_some.1 h
      obtain ⟨b3, h3, h⟩ := optBind_some.1 h
      obtain ⟨b4, h4, h⟩ := optBind_some.1 h
      obtain ⟨b5, h5, h⟩ := optBind_some.1 h
      obtain ⟨w1, rfl, rfl⟩ := jsU64_some.1 h1
      obtain ⟨w2, rfl, rfl⟩ := jsU64_some.1 h2
      obtain ⟨w3, rfl, rfl⟩ := jsU64_some.1 h3
      obtain ⟨w4, rfl, rfl⟩ := jsU64_some.1 h4
      obtain ⟨w5, rfl, rfl⟩ := jsU64_some.1 h5
      cases h; exact ⟨.Stake w1 w2 w3 w4 w5, rfl, rfl⟩
    | Unstake a b c d e f g =>
      obtain ⟨b1, h1, h⟩ := optBind_some.1 h
      obtain ⟨b2, h2, h⟩ := optBind_some.1 h
      obtain ⟨b3, h3, h⟩ := optBind_some.1 h
      obtain ⟨b4, h4, h⟩ := optBind_some.1 h
      obtain ⟨b5, h5, h⟩ := optBind_some.1 h
      obtain ⟨b6, h6, h⟩ := optBind_some.1 h
      obtain ⟨b7, h7, h⟩ := optBind_some.1 h
      obtain ⟨w1, rfl, rfl⟩ := jsU64_some.1 h1
      obtain ⟨w2, rfl, rfl⟩ := jsU64_some.1 h2
      obtain ⟨w3, rfl, rfl⟩ := jsU64_some.1 h3
      obtain ⟨w4, rfl, rfl⟩ := jsU64_some.1 h4
      obtain ⟨w5, rfl, rfl⟩ := jsU64_some.1 h5
      obtain ⟨w6, rfl, rfl⟩ := jsI64_some.1 h6
      obtain ⟨w7, rfl, rfl⟩ := jsU8_some.1 h7
      cases h; exact ⟨.Unstake w1 w2 w3 w4 w5 w6 w7, rfl, rfl⟩
    | Withdraw a b c d =>
      obtain ⟨b1, h1, h⟩ := optBind_some.1 h
      obtain ⟨b2, h2, h⟩ := optBind_some.1 h
      obtain ⟨b3, h3, h⟩ := optBind_some.1 h
      obtain ⟨b4, h4, h⟩ := optBind_some.1 h
      obtain ⟨w1, rfl, rfl⟩ := jsU64_some.1 h1
      obtain ⟨w2, rfl, rfl⟩ := jsU64_some.1 h2
      obtain ⟨w3, rfl, rfl⟩ := jsI64_some.1 h3
      obtain ⟨w4, rfl, rfl⟩ := jsU8_some.1 h4
      cases h; exact ⟨.Withdraw w1 w2 w3 w4, rfl, rfl⟩
    | UpdateAuthoritySet a b => cases h; exact ⟨.UpdateAuthoritySet a b, rfl, rfl⟩
  · rintro ⟨e, rfl, rfl⟩; exact key e
  · rintro e rfl h
    rw [key] at h
    cases h
    simpa using decodeEvent_serialize e []

/-! ### C102: token accounts and mints -/

/-- Mints: 82 bytes; decoding what was encoded and encoding what was decoded give back the same; the JS encoder gives
bytes exactly for the values of some mint, and they are the Borsh bytes. -/
theorem C102_mint_codec :
    (∀ (m : TokenMint) (r : Bytes), m.serialize.length = 82 ∧ decodeTokenMint (m.serialize ++ r) = some m) ∧
    (∀ (d : Bytes) (m : TokenMint), decodeTokenMint d = some m → m.serialize = d.take 82) ∧
    (∀ (a : TokenMintArgs) (d : Bytes), jsEncodeTokenMint a = some d ↔ ∃ m, TokenMintArgs.of m = a ∧ d = m.serialize) := by
  refine ⟨fun m r => ⟨?_, m.decode_serialize r⟩, ?_, ?_⟩
  · simp [TokenMint.serialize, m.mintAuthority.len, m.freezeAuthority.len]
  · intro d m h
    obtain ⟨hl, b, hb, rfl⟩ := decodeTokenMint_ok.1 h
    exact tokenMintAt_serialize hl (boolOf_byte hb)
  · intro a d
    constructor
    · intro h
      obtain ⟨b1, h1, h⟩ := optBind_some.1 h
      obtain ⟨b2, h2, h⟩ := optBind_some.1 h
      obtain ⟨b3, h3, h⟩ := optBind_some.1 h
      obtain ⟨b4, h4, h⟩ := optBind_some.1 h
      obtain ⟨w1, e1, rfl⟩ := jsU32_some.1 h1
      obtain ⟨w2, e2, rfl⟩ := jsU64_some.1 h2
      obtain ⟨w3, e3, rfl⟩ := jsU8_some.1 h3
      obtain ⟨w4, e4, rfl⟩ := jsU32_some.1 h4
      cases h
      refine ⟨⟨w1, a.mintAuthority, w2, w3, a.isInitialized, w4, a.freezeAuthority⟩, ?_, rfl⟩
      simp only [TokenMintArgs.of, e1, e2, e3, e4]
    · rintro ⟨m, rfl, rfl⟩
      simp only [TokenMintArgs.of, jsEncodeTokenMint, jsU32_toNat, jsU64_toNat, jsU8_toNat, Option.bind_eq_bind,
        Option.bind_some, TokenMint.serialize]

/-- Token accounts: the same with 165 bytes. -/
theorem C102_token_account_codec :
    (∀ (t : TokenAccount) (r : Bytes), t.serialize.length = 165 ∧ decodeTokenAccount (t.serialize ++ r) = some t) ∧
    (∀ (d : Bytes) (t : TokenAccount), decodeTokenAccount d = some t → t.serialize = d.take 165) ∧
    (∀ (a : TokenAccountArgs) (d : Bytes),
      jsEncodeTokenAccount a = some d ↔ ∃ t, TokenAccountArgs.of t = a ∧ d = t.serialize) := by
  refine ⟨fun t r => ⟨?_, t.decode_serialize r⟩, ?_, ?_⟩
  · simp [TokenAccount.serialize, t.mint.len, t.owner.len, t.delegate.len, t.closeAuthority.len]
  · intro d t h
    obtain ⟨hl, s, hs, rfl⟩ := decodeTokenAccount_ok.1 h
    exact tokenAccountAt_serialize hl (tokenStateOf_toU8 hs)
  · intro a d
    constructor
    · intro h
      obtain ⟨b1, h1, h⟩ := optBind_some.1 h
      obtain ⟨b2, h2, h⟩ := optBind_some.1 h
      obtain ⟨b3, h3, h⟩ := optBind_some.1 h
      obtain ⟨b4, h4, h⟩ := optBind_some.1 h
      obtain ⟨b5, h5, h⟩ := optBind_some.1 h
      obtain ⟨b6, h6, h⟩ := optBind_some.1 h
      obtain ⟨w1, e1, rfl⟩ := jsU64_some.1 h1
      obtain ⟨w2, e2, rfl⟩ := jsU32_some.1 h2
      obtain ⟨w3, e3, rfl⟩ := jsU32_some.1 h3
      obtain ⟨w4, e4, rfl⟩ := jsU64_some.1 h4
      obtain ⟨w5, e5, rfl⟩ := jsU64_some.1 h5
      obtain ⟨w6, e6, rfl⟩ := jsU32_some.1 h6
      cases h
      refine ⟨⟨a.mint, a.owner, w1, w2, a.delegate, a.state, w3, w4, w5, w6, a.closeAuthority⟩, ?_, rfl⟩
      simp only [TokenAccountArgs.of, e1, e2, e3, e4, e5, e6]
    · rintro ⟨t, rfl, rfl⟩
      simp only [TokenAccountArgs.of, jsEncodeTokenAccount, jsU32_toNat, jsU64_toNat, Option.bind_eq_bind,
        Option.bind_some, TokenAccount.serialize]

/-- The decoders of a mint differ in one case only: when the initialisation byte is neither 0 nor 1 Rust refuses and JS
reads an uninitialised mint.  The token program accepts no such account as a mint. -/
theorem C102_mint_decoders (d : Bytes) :
    (∀ m, decodeTokenMint d = some m → jsDecodeTokenMint d = some m) ∧
    (decodeTokenMint d = none → ∀ m, jsDecodeTokenMint d = some m →
      readU8 d 45 ≠ 0 ∧ readU8 d 45 ≠ 1 ∧ m.isInitialized = false ∧ ∀ m', unpackMint d ≠ .ok m') := by
  constructor
  · intro m h
    obtain ⟨hl, b, hb, rfl⟩ := decodeTokenMint_ok.1 h
    rw [jsDecodeTokenMint_eq, if_pos hl, ← boolOf_byte hb]
    cases b <;> rfl
  · intro h m hm
    rw [jsDecodeTokenMint_eq] at hm
    split at hm
    · next hl =>
      cases hm
      rw [decodeTokenMint_eq, if_pos hl, Option.map_eq_none_iff] at h
      unfold boolOf at h
      split at h
      · cases h
      · next h0 =>
        split at h
        · cases h
        · next h1 =>
          refine ⟨h0, h1, ?_, ?_⟩
          · simp [tokenMintAt, h1]
          · intro m' hu
            unfold unpackMint at hu
            rw [bind_eq_ok] at hu
            obtain ⟨-, -, hu⟩ := hu
            rw [bind_eq_ok] at hu
            obtain ⟨m2, h2, -⟩ := hu
            have e : decodeTokenMint d = none := by
              rw [decodeTokenMint_eq, if_pos hl]; simp [boolOf, h0, h1]
            rw [e] at h2
            cases h2
    · cases hm

section Examples
open Demo

/-- The largest values are accepted, one more is refused. -/
example : jsEncodeIx (.Unstake (2 ^ 64 - 1) 255) = some ([1] ++ List.replicate 9 255) ∧
    jsEncodeIx (.Unstake (2 ^ 64) 255) = none ∧ jsEncodeIx (.Unstake 0 256) = none ∧
    jsEncodeIx (.Initialize (-1)) = some ([3] ++ List.replicate 8 255) := by decide +kernel

/-- A `Withdraw` event. -/
example : jsEncodeEvent (.Withdraw 1 2 (-1) 7) =
    some ([2, 1, 0, 0, 0, 0, 0, 0, 0, 2, 0, 0, 0, 0, 0, 0, 0] ++ List.replicate 8 255 ++ [7]) := by decide +kernel

/-- A mint with the byte 2 where the initialisation flag is: Rust refuses it, JS reads an uninitialised mint. -/
example : decodeTokenMint (List.replicate 45 0 ++ [2] ++ List.replicate 36 0) = none ∧
    (jsDecodeTokenMint (List.replicate 45 0 ++ [2] ++ List.replicate 36 0)).map (·.isInitialized) = some false := by
  decide +kernel

end Examples
end Xorca
