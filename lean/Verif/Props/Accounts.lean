import Verif.Lemmas.Accounts
import Verif.Lemmas.DemoClient
/-
C98: the generated account modules of the clients.
-/
namespace Xorca
open Spec

variable {cr : Crypto} {L : Ledger}

/-! ### C98: encoders and decoders -/

/-- Borsh round trip of both account types; what follows the account is ignored. -/
theorem C98_borsh_round_trip (r : Bytes) :
    (∀ s : State, s.padding1.length = 5 → s.padding2.length = 1992 →
      s.serialize.length = Client.STATE_SIZE ∧ State.deserialize (s.serialize ++ r) = some s) ∧
    (∀ p : PendingWithdraw, p.padding1.length = 5 → p.padding2.length = 968 →
      p.serialize.length = Client.PENDING_WITHDRAW_SIZE ∧ PendingWithdraw.deserialize (p.serialize ++ r) = some p) := by
  refine ⟨fun s h1 h2 => ⟨State.serialize_length h1 h2, State.deserialize_serialize h1 h2 r⟩,
    fun p h1 h2 => ⟨?_, PendingWithdraw.deserialize_serialize h1 h2 r⟩⟩
  simp [PendingWithdraw.serialize, h1, h2, p.unstaker.len, Client.PENDING_WITHDRAW_SIZE]

/-- The JS encoder of a state accepts exactly the values that fit, gives 2048 bytes, and they decode to those values with
the tag of a state; missing padding is zero. -/
theorem C98_js_state_encoder (a : Client.StateArgs) :
    ((∃ d, Client.jsEncodeState a = some d) ↔ (0 ≤ a.bump ∧ a.bump ≤ 255) ∧ (0 ≤ a.vaultBump ∧ a.vaultBump ≤ 255) ∧
      (0 ≤ a.escrowedOrcaAmount ∧ a.escrowedOrcaAmount < 2 ^ 64) ∧
      (-2 ^ 63 ≤ a.coolDownPeriodS ∧ a.coolDownPeriodS < 2 ^ 63)) ∧
    (∀ d, Client.jsEncodeState a = some d → d.length = 2048 ∧ ∃ s, State.deserialize d = some s ∧ s.serialize = d ∧
      s.discriminator = .State ∧ (s.bump.toNat : Int) = a.bump ∧ (s.vaultBump.toNat : Int) = a.vaultBump ∧
      (s.escrowedOrcaAmount.toNat : Int) = a.escrowedOrcaAmount ∧ s.coolDownPeriodS.toInt = a.coolDownPeriodS ∧
      s.updateAuthority = a.updateAuthority ∧
      (∀ q, a.padding1 = some q → q.length = 5 → s.padding1 = q) ∧ (a.padding1 = none → s.padding1 = List.replicate 5 0) ∧
      (∀ q, a.padding2 = some q → q.length = 1992 → s.padding2 = q) ∧
      (a.padding2 = none → s.padding2 = List.replicate 1992 0)) := by
  constructor
  · constructor
    · rintro ⟨d, h⟩
      unfold Client.jsEncodeState at h
      obtain ⟨b1, h1, h⟩ := optBind_some.1 h
      obtain ⟨b2, h2, h⟩ := optBind_some.1 h
      obtain ⟨b3, h3, h⟩ := optBind_some.1 h
      obtain ⟨b4, h4, h⟩ := optBind_some.1 h
      unfold Client.jsU8 at h1 h2
      unfold Client.jsU64 at h3
      unfold Client.jsI64 at h4
      split at h1 <;> split at h2 <;> split at h3 <;> split at h4 <;> try cases h1 <;> cases h2 <;> cases h3 <;> cases h4
      exact ⟨by assumption, by assumption, by assumption, by assumption⟩
    · rintro ⟨h1, h2, h3, h4⟩
      unfold Client.jsEncodeState Client.jsU8 Client.jsU64 Client.jsI64
      rw [if_pos h1, if_pos h2, if_pos h3, if_pos h4]
      exact ⟨_, rfl⟩
  · intro d h
    unfold Client.jsEncodeState at h
    obtain ⟨b1, h1, h⟩ := optBind_some.1 h
    obtain ⟨b2, h2, h⟩ := optBind_some.1 h
    obtain ⟨b3, h3, h⟩ := optBind_some.1 h
    obtain ⟨b4, h4, h⟩ := optBind_some.1 h
    obtain ⟨w1, e1, rfl⟩ := jsU8_some.1 h1
    obtain ⟨w2, e2, rfl⟩ := jsU8_some.1 h2
    obtain ⟨w3, e3, rfl⟩ := jsU64_some.1 h3
    obtain ⟨w4, e4, rfl⟩ := jsI64_some.1 h4
    cases h
    set s : State := ⟨.State, Client.jsFixBytes 5 (a.padding1.getD (List.replicate 5 0)), w1, w2, w3, w4,
      a.updateAuthority, Client.jsFixBytes 1992 (a.padding2.getD (List.replicate 1992 0))⟩ with hs
    have hp1 : s.padding1.length = 5 := jsFixBytes_length ..
    have hp2 : s.padding2.length = 1992 := jsFixBytes_length ..
    have hr := State.deserialize_serialize hp1 hp2 []
    rw [List.append_nil] at hr
    refine ⟨State.serialize_length hp1 hp2, s, hr, rfl, rfl, e1, e2, e3, e4, rfl, ?_, ?_, ?_, ?_⟩
    · intro q hq hl; simp only [hs, hq, Option.getD_some]; exact jsFixBytes_same hl
    · intro hq; simp only [hs, hq, Option.getD_none]; exact jsFixBytes_same List.length_replicate
    · intro q hq hl; simp only [hs, hq, Option.getD_some]; exact jsFixBytes_same hl
    · intro hq; simp only [hs, hq, Option.getD_none]; exact jsFixBytes_same List.length_replicate

/-- The same for a withdrawal record: 1024 bytes, with the tag of a record. -/
theorem C98_js_record_encoder (a : Client.PendingWithdrawArgs) :
    ((∃ d, Client.jsEncodePendingWithdraw a = some d) ↔ (0 ≤ a.bump ∧ a.bump ≤ 255) ∧
      (0 ≤ a.withdrawIndex ∧ a.withdrawIndex ≤ 255) ∧
      (0 ≤ a.withdrawableOrcaAmount ∧ a.withdrawableOrcaAmount < 2 ^ 64) ∧
      (-2 ^ 63 ≤ a.withdrawableTimestamp ∧ a.withdrawableTimestamp < 2 ^ 63)) ∧
    (∀ d, Client.jsEncodePendingWithdraw a = some d → d.length = 1024 ∧ ∃ p, PendingWithdraw.deserialize d = some p ∧
      p.serialize = d ∧ p.discriminator = .PendingWithdraw ∧ (p.bump.toNat : Int) = a.bump ∧
      (p.withdrawIndex.toNat : Int) = a.withdrawIndex ∧ p.unstaker = a.unstaker ∧
      (p.withdrawableOrcaAmount.toNat : Int) = a.withdrawableOrcaAmount ∧
      p.withdrawableTimestamp.toInt = a.withdrawableTimestamp ∧
      (∀ q, a.padding1 = some q → q.length = 5 → p.padding1 = q) ∧ (a.padding1 = none → p.padding1 = List.replicate 5 0) ∧
      (∀ q, a.padding2 = some q → q.length = 968 → p.padding2 = q) ∧
      (a.padding2 = none → p.padding2 = List.replicate 968 0)) := by
  constructor
  · constructor
    · rintro ⟨d, h⟩
      unfold Client.jsEncodePendingWithdraw at h
      obtain ⟨b1, h1, h⟩ := optBind_some.1 h
      obtain ⟨b2, h2, h⟩ := optBind_some.1 h
      obtain ⟨b3, h3, h⟩ := optBind_some.1 h
      obtain ⟨b4, h4, h⟩ := optBind_some.1 h
      unfold Client.jsU8 at h1 h2
      unfold Client.jsU64 at h3
      unfold Client.jsI64 at h4
      split at h1 <;> split at h2 <;> split at h3 <;> split at h4 <;> try cases h1 <;> cases h2 <;> cases h3 <;> cases h4
      exact ⟨by assumption, by assumption, by assumption, by assumption⟩
    · rintro ⟨h1, h2, h3, h4⟩
      unfold Client.jsEncodePendingWithdraw Client.jsU8 Client.jsU64 Client.jsI64
      rw [if_pos h1, if_pos h2, if_pos h3, if_pos h4]
      exact ⟨_, rfl⟩
  · intro d h
    unfold Client.jsEncodePendingWithdraw at h
    obtain ⟨b1, h1, h⟩ := optBind_some.1 h
    obtain ⟨b2, h2, h⟩ := optBind_some.1 h
    obtain ⟨b3, h3, h⟩ := optBind_some.1 h
    obtain ⟨b4, h4, h⟩ := optBind_some.1 h
    obtain ⟨w1, e1, rfl⟩ := jsU8_some.1 h1
    obtain ⟨w2, e2, rfl⟩ := jsU8_some.1 h2
    obtain ⟨w3, e3, rfl⟩ := jsU64_some.1 h3
    obtain ⟨w4, e4, rfl⟩ := jsI64_some.1 h4
    cases h
    set p : PendingWithdraw := ⟨.PendingWithdraw, Client.jsFixBytes 5 (a.padding1.getD (List.replicate 5 0)), w1, w2,
      a.unstaker, w3, w4, Client.jsFixBytes 968 (a.padding2.getD (List.replicate 968 0))⟩ with hs
    have hp1 : p.padding1.length = 5 := jsFixBytes_length ..
    have hp2 : p.padding2.length = 968 := jsFixBytes_length ..
    have hr := PendingWithdraw.deserialize_serialize hp1 hp2 []
    rw [List.append_nil] at hr
    refine ⟨((C98_borsh_round_trip []).2 p hp1 hp2).1, p, hr, rfl, rfl, e1, e2, rfl, e3, e4, ?_, ?_, ?_, ?_⟩
    · intro q hq hl; simp only [hs, hq, Option.getD_some]; exact jsFixBytes_same hl
    · intro hq; simp only [hs, hq, Option.getD_none]; exact jsFixBytes_same List.length_replicate
    · intro q hq hl; simp only [hs, hq, Option.getD_some]; exact jsFixBytes_same hl
    · intro hq; simp only [hs, hq, Option.getD_none]; exact jsFixBytes_same List.length_replicate

/-! ### C98: kinds are not checked -/

/-- Decoders do not check the kind of the account: every account that decodes as a state also decodes as a withdrawal
record, with the tag, the bump and the vault's bump as tag, bump and index.  The other way round, a record of the
program's size never decodes as a state. -/
theorem C98_state_decodes_as_record {d : Bytes} {s : State} (h : State.deserialize d = some s) :
    (∃ p, PendingWithdraw.deserialize d = some p ∧ p.discriminator = s.discriminator ∧ p.bump = s.bump ∧
      p.withdrawIndex = s.vaultBump ∧ p.unstaker.bytes =
        u64le s.escrowedOrcaAmount ++ i64le s.coolDownPeriodS ++ s.updateAuthority.bytes.take 16) ∧
    ∀ d' : Bytes, d'.length = 1024 → State.deserialize d' = none := by
  constructor
  · rw [State.deserialize_eq] at h
    split at h
    · next hl =>
      obtain ⟨a, ha, rfl⟩ := Option.map_eq_some_iff.1 h
      refine ⟨pendingWithdrawAt d a, ?_, rfl, rfl, rfl, ?_⟩
      · rw [PendingWithdraw.deserialize_eq, if_pos (by omega), ha]; rfl
      · show (readKey d 8).bytes = u64le (readU64 d 8) ++ i64le (readI64 d 16) ++ (readKey d 24).bytes.take 16
        rw [key_slice (by omega), u64_slice (by omega), i64_slice (by omega), key_slice (by omega)]
        simp only [slice, List.take_take]
        apply List.ext_getElem?
        intro i
        simp only [List.getElem?_append, List.getElem?_take, List.getElem?_drop, List.length_take, List.length_drop,
          List.length_append]
        have e1 : min 8 (d.length - 8) = 8 := by omega
        have e2 : min 8 (d.length - 16) = 8 := by omega
        simp only [e1, e2]
        split_ifs <;> first | rfl | (congr 1; omega)
    · cases h
  · intro d' hl
    rw [State.deserialize_eq, if_neg (by omega)]

/-! ### C98: fetchers -/

/-- One account: it must exist and decode. -/
theorem C98_fetch_one {α : Type} (decode : Bytes → Option α) {limit : Nat} (hl : 1 ≤ limit) (k : Pubkey) (v : α) :
    Client.fetchOne decode limit L k = some v ↔ (L k).lamports ≠ 0 ∧ decode (L k).data = some v := by
  unfold Client.fetchOne Client.fetchAll Client.getMultipleAccounts
  simp only [List.length_singleton, hl, if_true, List.map_cons, List.map_nil, Option.bind_eq_bind, Option.bind_some,
    List.mapM_cons, List.mapM_nil, Client.getAccount]
  by_cases h : (L k).lamports = 0
  · simp [h]
  · simp only [h, if_false, ne_eq, not_false_eq_true, true_and]
    cases decode (L k).data <;> simp

/-- Many accounts: all must exist and decode, the answer is in the order of the question; more keys than the node admits
are an error. -/
theorem C98_fetch_all {α : Type} (decode : Bytes → Option α) (limit : Nat) (keys : List Pubkey) (l : List α) :
    (Client.fetchAll decode limit L keys = some l ↔ keys.length ≤ limit ∧ (∀ k ∈ keys, (L k).lamports ≠ 0) ∧
      keys.map (fun k => decode (L k).data) = l.map some) ∧
    (∀ m, Client.fetchAllMaybeOf decode limit L keys = some m ↔ keys.length ≤ limit ∧
      keys.map (fun k => if (L k).lamports = 0 then some none else (decode (L k).data).map some) = m.map some) := by
  constructor
  · unfold Client.fetchAll
    simp only [optBind_some, getMultiple_some, mapM_some_iff]
    constructor
    · rintro ⟨_, ⟨h1, rfl⟩, h2⟩
      have key : ∀ k ∈ keys, (L k).lamports ≠ 0 := by
        intro k hk h0
        have : (none : Option α) ∈ l.map some := by
          rw [← h2]
          simp only [List.map_map, List.mem_map]
          exact ⟨k, hk, by simp [Client.getAccount, h0]⟩
        simp at this
      refine ⟨h1, key, ?_⟩
      rw [← h2, List.map_map]
      apply List.map_congr_left
      intro k hk
      simp [Client.getAccount, key k hk]
    · rintro ⟨h1, h2, h3⟩
      refine ⟨_, ⟨h1, rfl⟩, ?_⟩
      rw [← h3, List.map_map]
      apply List.map_congr_left
      intro k hk
      simp [Client.getAccount, h2 k hk]
  · intro m
    unfold Client.fetchAllMaybeOf
    simp only [optBind_some, getMultiple_some, mapM_some_iff]
    have e : keys.map (fun k => if (L k).lamports = 0 then some none else (decode (L k).data).map some) =
        (keys.map (Client.getAccount L)).map (fun
          | none => some none
          | some a => (decode a.data).map some) := by
      rw [List.map_map]
      apply List.map_congr_left
      intro k _
      by_cases h : (L k).lamports = 0 <;> simp [Client.getAccount, h]
    rw [e]
    constructor
    · rintro ⟨_, ⟨h1, rfl⟩, h2⟩
      exact ⟨h1, h2⟩
    · rintro ⟨h1, h2⟩
      exact ⟨_, ⟨h1, rfl⟩, h2⟩

/-- So the state can be fetched as a withdrawal record: the clients get a value with the tag of a state. -/
theorem C98_state_fetched_as_record (hr : Reachable cr L) {st : Pubkey} (hi : Initialised cr L st) :
    ∃ p, Client.fetchOne PendingWithdraw.deserialize 100 L st = some p ∧ p.discriminator = .State := by
  obtain ⟨v, pl⟩ := hr.inv.ofInitialised hi
  obtain ⟨s, hs, h1⟩ : ∃ s, State.deserialize (L st).data = some s ∧ s.discriminator = .State := by
    refine ⟨stateAt (L st).data .State, ?_, rfl⟩
    rw [State.deserialize_eq, if_pos (by rw [pl.acc.len]), pl.acc.tag]; rfl
  obtain ⟨⟨p, hp, h2, -⟩, -⟩ := C98_state_decodes_as_record hs
  exact ⟨p, (C98_fetch_one _ (by decide) st p).2 ⟨pl.acc.lam, hp⟩, h2.trans h1⟩

/-! ### Examples -/

/-- The JS encoding of the state of the demo is the account on the chain. -/
example : Client.jsEncodeState ⟨none, 250, 254, 901469, 100, Demo.US, none⟩ = some (Demo.L6 Demo.ST).data := by
  decide +kernel
example : Client.jsEncodeState ⟨none, 250, 256, 901469, 100, Demo.US, none⟩ = none := by decide +kernel
example : (Client.jsEncodePendingWithdraw ⟨none, 255, 255, Demo.US, 899970, 1103, none⟩) =
    some (Demo.L6 Demo.R255).data := by decide +kernel
/-- The state of the demo read as a record. -/
example : (PendingWithdraw.deserialize (Demo.L6 Demo.ST).data).map
    (fun p => (p.discriminator, p.bump, p.withdrawIndex, p.withdrawableOrcaAmount)) =
      some (.State, 250, 254, 7378697629483820646) := by decide +kernel
example := C98_state_fetched_as_record Demo.reach4 Demo.init4
example : (Client.fetchAll PendingWithdraw.deserialize 100 Demo.L6 [Demo.R255, Demo.R0]).map
    (fun l => l.map (·.withdrawIndex)) = some [255, 0] := by decide +kernel
example : Client.fetchAll PendingWithdraw.deserialize 1 Demo.L6 [Demo.R255, Demo.R0] = none := by decide +kernel

end Xorca
