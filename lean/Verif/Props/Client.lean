import Verif.Lemmas.DemoClient
/-
C30 – C32, C39 – C43, C46: the client libraries agree with the program.
-/
namespace Xorca
open Spec

variable {cr : Crypto} {x : Ctx} {L L' : Ledger} {accs : List Meta} {logs : List Bytes}

/-! ### C30: instruction bytes -/

/-- The bytes built by the clients decode on chain to the same instruction; whatever follows is left over. -/
theorem C30_client_bytes_decode (ix : Instruction) (r : Bytes) :
    Instruction.deserialize (Client.encode ix ++ r) = some (ix, r) ∧
    decodeIx (Client.encode ix ++ r) = some ix ∧
    (∀ x L accs, entry x PROGRAM_ID L accs (Client.encode ix ++ r) = dispatch x L accs ix) :=
  ⟨deserialize_encode ix r, decodeIx_encode ix r, fun _ _ _ => entry_eq (decodeIx_encode ix r)⟩

/-- No two instructions share an encoding, not even as a prefix. -/
theorem C30_encodings_differ {ix ix' : Instruction} {r r' : Bytes}
    (h : Client.encode ix ++ r = Client.encode ix' ++ r') : ix = ix' ∧ r = r' := by
  have h1 := deserialize_encode ix r
  rw [h, deserialize_encode] at h1
  simp only [Option.some.injEq, Prod.mk.injEq] at h1
  exact ⟨h1.1.symm, h1.2.symm⟩

/-- The JS client recognises the kind of every instruction. -/
theorem C30_js_identifies (ix : Instruction) (r : Bytes) :
    Client.jsIdentify (Client.encode ix ++ r) = some (match ix with
      | .Stake _ => 0
      | .Unstake .. => 1
      | .Withdraw _ => 2
      | .Initialize _ => 3
      | .Set _ => 4) := by
  cases ix <;> rfl

example : Client.encode (.Unstake 600000 255) = [1, 192, 39, 9, 0, 0, 0, 0, 0, 255] ∧
    decodeIx ([1, 192, 39, 9, 0, 0, 0, 0, 0, 255] ++ [7, 7]) = some (.Unstake 600000 255) := by decide +kernel
/-- The bytes of the demo chain are those of the clients. -/
example : Client.encode (.Set (.UpdateUpdateAuthority Demo.AU)) = 4 :: 1 :: Demo.AU.bytes := by decide +kernel

/-! ### C31: event bytes -/

/-- Serialised events decode in the clients to the same event. -/
theorem C31_events_decode (e : Event) (r : Bytes) : Client.decodeEvent (e.serialize ++ r) = some e :=
  decodeEvent_serialize e r

/-- No two events share an encoding, not even as a prefix. -/
theorem C31_events_differ {e e' : Event} {r r' : Bytes} (h : e.serialize ++ r = e'.serialize ++ r') :
    e = e' ∧ r = r' := by
  have h1 := decodeEvent_serialize e r
  rw [h, decodeEvent_serialize] at h1
  cases h1
  exact ⟨rfl, List.append_cancel_left h⟩

/-- What a successful call logged decodes in the clients. -/
theorem C31_logs_decode {ix : Instruction} (h : Runs x L accs ix L' logs) :
    ∀ l ∈ logs, ∃ e, Client.decodeEvent l = some e := by
  have key : ∀ e : Event, logs = [e.serialize] → ∀ l ∈ logs, ∃ e, Client.decodeEvent l = some e := by
    rintro e rfl l hl
    simp only [List.mem_singleton] at hl
    subst hl
    exact ⟨e, by simpa using decodeEvent_serialize e []⟩
  have hd := h.dispatch
  cases ix with
  | Stake a =>
    obtain ⟨s, v, oa, xa, xm, st, om, tp, L1, m, r⟩ := processStake_run hd
    exact key _ r.log
  | Unstake a i =>
    obtain ⟨u, st, pw, xa, xm, om, v, sp, tp, L1, L3, w, e', ts, b, r⟩ := processUnstake_run hd
    exact key _ r.log
  | Withdraw i =>
    obtain ⟨u, st, pw, oa, v, om, sp, tp, L1, L2, e', r⟩ := processWithdraw_run hd
    exact key _ r.log
  | Initialize c =>
    obtain ⟨p, au, st, v, xm, om, sp, tp, ap, L1, b, vb, r⟩ := processInitialize_run hd
    rw [r.log]; simp
  | Set u =>
    cases u with
    | UpdateCoolDownPeriod c =>
      obtain ⟨a, st, -, -, -, hl⟩ := processSet_coolDown_run hd
      rw [hl]; simp
    | UpdateUpdateAuthority k =>
      obtain ⟨a, st, -, -, hl⟩ := processSet_authority_run hd
      exact key _ hl

/-- The log of the demo's first unstake. -/
example : Demo.logs5.map Client.decodeEvent = [some (.Unstake 600000 1800000 899970 600006 899970 100 255)] := by
  decide +kernel
example := C31_logs_decode Demo.run5

/-! ### C32: account bytes -/

/-- The clients decode a state account exactly when it has 2048 bytes and a known tag, field by field as the
program sees it in memory; re-encoding gives the bytes back. -/
theorem C32_state_decoding (d : Bytes) (s : State) (h : State.deserialize d = some s) :
    s.discriminator.toU8 = readU8 d 0 ∧ s.bump = stBump d ∧ s.vaultBump = stVaultBump d ∧
    s.escrowedOrcaAmount = stEscrow d ∧ s.coolDownPeriodS = stCoolDown d ∧ s.updateAuthority = stAuthority d ∧
    s.serialize = d.take 2048 := by
  rw [State.deserialize_eq] at h
  split at h
  · next hl =>
    obtain ⟨a, ha, rfl⟩ := Option.map_eq_some_iff.1 h
    exact ⟨discOf_eq_some.1 ha, rfl, rfl, rfl, rfl, rfl, stateAt_serialize hl ha⟩
  · cases h

/-- The same for a withdrawal record. -/
theorem C32_record_decoding (d : Bytes) (p : PendingWithdraw) (h : PendingWithdraw.deserialize d = some p) :
    p.discriminator.toU8 = readU8 d 0 ∧ p.bump = pwBump d ∧ p.withdrawIndex = pwIndex d ∧
    p.unstaker = pwUnstaker d ∧ p.withdrawableOrcaAmount = pwAmount d ∧ p.withdrawableTimestamp = pwTimestamp d ∧
    p.serialize = d.take 1024 := by
  rw [PendingWithdraw.deserialize_eq] at h
  split at h
  · next hl =>
    obtain ⟨a, ha, rfl⟩ := Option.map_eq_some_iff.1 h
    exact ⟨discOf_eq_some.1 ha, rfl, rfl, rfl, rfl, rfl, pendingWithdrawAt_serialize hl ha⟩
  · cases h

/-- When the clients can decode. -/
theorem C32_decodable (d : Bytes) :
    ((∃ s, State.deserialize d = some s) ↔ 2048 ≤ d.length ∧ (readU8 d 0).toNat ≤ 3) ∧
    ((∃ p, PendingWithdraw.deserialize d = some p) ↔ 1024 ≤ d.length ∧ (readU8 d 0).toNat ≤ 3) := by
  have key : (∃ a, discOf (readU8 d 0) = some a) ↔ (readU8 d 0).toNat ≤ 3 := by
    generalize readU8 d 0 = b
    constructor
    · rintro ⟨a, ha⟩
      rw [← discOf_eq_some.1 ha]
      exact toU8_le a
    · intro h
      have : b = 0 ∨ b = 1 ∨ b = 2 ∨ b = 3 := by
        have : b.toNat = 0 ∨ b.toNat = 1 ∨ b.toNat = 2 ∨ b.toNat = 3 := by omega
        rcases this with h | h | h | h <;> simp [← UInt8.toNat_inj, h]
      rcases this with rfl | rfl | rfl | rfl
      · exact ⟨_, rfl⟩
      · exact ⟨_, rfl⟩
      · exact ⟨_, rfl⟩
      · exact ⟨_, rfl⟩
  rw [State.deserialize_eq, PendingWithdraw.deserialize_eq, ← key]
  constructor
  · by_cases h : 2048 ≤ d.length
    · simp only [h, if_true, true_and, Option.map_eq_some_iff]
      exact ⟨fun ⟨_, a, ha, _⟩ => ⟨a, ha⟩, fun ⟨a, ha⟩ => ⟨_, a, ha, rfl⟩⟩
    · simp [h]
  · by_cases h : 1024 ≤ d.length
    · simp only [h, if_true, true_and, Option.map_eq_some_iff]
      exact ⟨fun ⟨_, a, ha, _⟩ => ⟨a, ha⟩, fun ⟨a, ha⟩ => ⟨_, a, ha, rfl⟩⟩
    · simp [h]

/-- Every account the program has stored something in is decoded by the clients, as the right kind. -/
theorem C32_reachable_accounts_decode (hr : Reachable cr L) {k : Pubkey} (ho : (L k).owner = PROGRAM_ID)
    (hz : ¬ AllZero (L k).data) :
    (Client.jsIdentifyAccount (L k).data = some .State ∧ ∃ s, State.deserialize (L k).data = some s ∧
      s.serialize = (L k).data ∧ s.escrowedOrcaAmount.toNat = escrow L k ∧
      s.coolDownPeriodS.toInt = coolDown L k ∧ s.updateAuthority = authority L k) ∨
    (Client.jsIdentifyAccount (L k).data = some .PendingWithdraw ∧ ∃ p,
      PendingWithdraw.deserialize (L k).data = some p ∧ p.serialize = (L k).data ∧
      p.withdrawIndex = recIndex L k ∧ p.unstaker = recOwner L k ∧
      p.withdrawableOrcaAmount.toNat = recAmount L k ∧ p.withdrawableTimestamp.toInt = recTime L k) := by
  have htake : ∀ (d : Bytes) (b : UInt8), 1 ≤ d.length → readU8 d 0 = b → d.take 1 = [b] := by
    intro d b h1 h2
    cases d with
    | nil => simp at h1
    | cons c d => simpa [readU8] using h2
  rcases hr.inv.owned k ho with h | h | h
  · exact absurd h hz
  · left
    have hl := h.len
    obtain ⟨s, hs⟩ := (C32_decodable (L k).data).1.2 ⟨by omega, by rw [h.tag]; decide⟩
    obtain ⟨-, -, -, e1, e2, e3, e4⟩ := C32_state_decoding _ _ hs
    refine ⟨?_, s, hs, ?_, by rw [e1]; rfl, by rw [e2]; rfl, by rw [e3]; rfl⟩
    · simp [Client.jsIdentifyAccount, htake _ _ (by omega) h.tag, AccountDiscriminator.toU8]
    · rw [e4, List.take_of_length_le (by omega)]
  · right
    have hl := h.len
    obtain ⟨p, hp⟩ := (C32_decodable (L k).data).2.2 ⟨by omega, by rw [h.tag]; decide⟩
    obtain ⟨-, -, e0, e1, e2, e3, e4⟩ := C32_record_decoding _ _ hp
    refine ⟨?_, p, hp, ?_, by rw [e0]; rfl, by rw [e1]; rfl, by rw [e2]; rfl, by rw [e3]; rfl⟩
    · simp [Client.jsIdentifyAccount, htake _ _ (by omega) h.tag, AccountDiscriminator.toU8]
    · rw [e4, List.take_of_length_le (by omega)]

example : (State.deserialize (Demo.L6 Demo.ST).data).map
    (fun s => (s.bump, s.vaultBump, s.escrowedOrcaAmount, s.updateAuthority)) = some (250, 254, 901469, Demo.US) := by
  decide +kernel
example : (PendingWithdraw.deserialize (Demo.L6 Demo.R255).data).map
    (fun p => (p.withdrawIndex, p.withdrawableOrcaAmount, p.unstaker)) = some (255, 899970, Demo.US) := by
  decide +kernel

/-! ### C39: the Rust client's conversions -/

/-- The Rust client's conversions return what the program's return, and fail exactly when they fail. -/
theorem C39_rust_conversions (a n s : UInt64) :
    (∀ v, Client.convertOrcaToXorca a n s = .ok v ↔ convertOrcaToXorca a n s = .ok v) ∧
    ((∃ e, Client.convertOrcaToXorca a n s = .error e) ↔ ∃ e, convertOrcaToXorca a n s = .error e) ∧
    (∀ v, Client.convertXorcaToOrca a n s = .ok v ↔ convertXorcaToOrca a n s = .ok v) ∧
    ((∃ e, Client.convertXorcaToOrca a n s = .error e) ↔ ∃ e, convertXorcaToOrca a n s = .error e) := by
  refine ⟨client_orca_ok a n s, ?_, client_xorca_ok a n s, ?_⟩
  · have h := client_orca_ok a n s
    cases h1 : Client.convertOrcaToXorca a n s <;> cases h2 : convertOrcaToXorca a n s <;>
      simp [h1, h2] at h ⊢
  · have h := client_xorca_ok a n s
    cases h1 : Client.convertXorcaToOrca a n s <;> cases h2 : convertXorcaToOrca a n s <;>
      simp [h1, h2] at h ⊢

example : Client.convertOrcaToXorca 300000 1500000 1000000 = .ok 200006 ∧
    Client.convertXorcaToOrca 600000 1800000 1200006 = .ok 899970 ∧
    Client.convertXorcaToOrca 600000 1800000 0 = .error .ZeroSupplyOrNonEscrowed := by decide +kernel

/-! ### C40: the JS client's conversions -/

/-- Where the program's conversion succeeds the JS conversion gives the same value.  It throws only for
redemption, exactly on an empty pool; where the program reports an overflow it gives the exact value. -/
theorem C40_js_conversions (a n s : UInt64) :
    (∀ v, convertOrcaToXorca a n s = .ok v → Client.jsConvertOrcaToXorca a.toNat n.toNat s.toNat = some (v.toNat : Int)) ∧
    Client.jsConvertOrcaToXorca a.toNat n.toNat s.toNat = some (mintFor a.toNat n.toNat s.toNat : Int) ∧
    (∀ v, convertXorcaToOrca a n s = .ok v → Client.jsConvertXorcaToOrca a.toNat n.toNat s.toNat = some (v.toNat : Int)) ∧
    (Client.jsConvertXorcaToOrca a.toNat n.toNat s.toNat = none ↔ s = 0 ∨ n = 0) ∧
    (s ≠ 0 → n ≠ 0 →
      Client.jsConvertXorcaToOrca a.toNat n.toNat s.toNat = some (redeemFor a.toNat n.toNat s.toNat : Int)) := by
  refine ⟨fun v h => ?_, js_orca _ _ _, fun v h => ?_, ?_, fun h1 h2 => ?_⟩
  · rw [js_orca, convertOrcaToXorca_ok h]
  · obtain ⟨h1, h2, h3⟩ := convertXorcaToOrca_ok h
    rw [js_xorca, if_neg (by omega), h3]
  · rw [js_xorca, u64_eq_zero_iff, u64_eq_zero_iff]
    split <;> simp_all
  · rw [u64_ne_zero_iff] at h1 h2
    rw [js_xorca, if_neg (by omega)]

example : Client.jsConvertOrcaToXorca 300000 1500000 1000000 = some 200006 ∧
    Client.jsConvertXorcaToOrca 600000 1800000 1200006 = some 899970 ∧
    Client.jsConvertXorcaToOrca 600000 1800000 0 = none := by decide +kernel

/-! ### C41: listing the withdrawals of a user -/

/-- Every open record with an index below the bound is in the list, with its fields. -/
theorem C41_listed_partial (hr : Reachable cr L) {k : Pubkey} (hk : IsRecord L k) :
    (∀ (max : Option UInt8) l, Client.fetchPendingWithdraws cr L (recOwner L k) max = some l →
      (recIndex L k).toNat < (max.getD 15).toNat →
      ∃ p ∈ l, p.unstaker = recOwner L k ∧ p.withdrawIndex = recIndex L k ∧
        p.withdrawableOrcaAmount.toNat = recAmount L k ∧ p.withdrawableTimestamp.toInt = recTime L k) ∧
    (∀ (max : Option Int) l, Client.jsFetchPendingWithdraws cr L (recOwner L k) max = some l →
      ((recIndex L k).toNat : Int) < max.getD 15 →
      ∃ p ∈ l, p.unstaker = recOwner L k ∧ p.withdrawIndex = recIndex L k ∧
        p.withdrawableOrcaAmount.toNat = recAmount L k ∧ p.withdrawableTimestamp.toInt = recTime L k) := by
  obtain ⟨p, hp⟩ := IsRecord.deserialize hk
  have hacc := hr.inv.isRec hk
  have ha : RecordAddr cr (recOwner L k) (UInt8.ofNat (recIndex L k).toNat) k (readU8 (L k).data 6) := by
    rw [UInt8.ofNat_toNat]; exact hacc.addr
  obtain ⟨-, f1, f2, f3, f4, -⟩ := deserialize_fields hp
  constructor
  · intro max l hl hi
    exact ⟨p, (fetchPending_mem hl p).2 ⟨_, hi, k, _, ha, hacc.lam, hp⟩, f2, f1, f3, f4⟩
  · intro max l hl hi
    exact ⟨p, (jsFetchPending_mem hl p).2 ⟨_, by omega, k, _, ha, hacc.lam, hp⟩, f2, f1, f3, f4⟩

/-- The largest bound is 255 and it is exclusive: neither client ever looks at the record with index 255.
Whatever they list was read at the address of a smaller index. -/
theorem C41_index_255_not_searched {u k : Pubkey} {b : UInt8} (hk : RecordAddr cr u 255 k b) (p : PendingWithdraw)
    (h : (∃ max l, Client.fetchPendingWithdraws cr L u max = some l ∧ p ∈ l) ∨
      (∃ max l, Client.jsFetchPendingWithdraws cr L u max = some l ∧ p ∈ l)) :
    ∃ i k' b', i < 255 ∧ RecordAddr cr u (UInt8.ofNat i) k' b' ∧
      PendingWithdraw.deserialize (L k').data = some p ∧
      (k' = k → Clash cr (recordHashed u 255 b) (recordHashed u (UInt8.ofNat i) b')) := by
  have key : ∀ i k' b', i < 255 → RecordAddr cr u (UInt8.ofNat i) k' b' → k' = k →
      Clash cr (recordHashed u 255 b) (recordHashed u (UInt8.ofNat i) b') := by
    rintro i k' b' hi ha rfl
    refine ⟨fun he => ?_, by rw [← recordAddr_hash hk, ← recordAddr_hash ha]⟩
    have h255 := (recordHashed_inj he).2.1
    have := congrArg UInt8.toNat h255
    rw [UInt8.toNat_ofNat_of_lt' (by change i < 256; omega)] at this
    change 255 = i at this
    omega
  rcases h with ⟨max, l, hl, hp⟩ | ⟨max, l, hl, hp⟩
  · obtain ⟨i, hi, k', b', ha, -, hd⟩ := (fetchPending_mem hl p).1 hp
    have hi' : i < 255 := by have := (max.getD 15).toNat_lt; omega
    exact ⟨i, k', b', hi', ha, hd, key i k' b' hi' ha⟩
  · obtain ⟨i, hi, k', b', ha, -, hd⟩ := (jsFetchPending_mem hl p).1 hp
    have hi' : i < 255 := by
      have := (jsFetchPending_isSome.1 ⟨l, hl⟩).2.1
      omega
    exact ⟨i, k', b', hi', ha, hd, key i k' b' hi' ha⟩

/-- The property is false: with the real hash functions there is a reachable ledger and a user with an open
record that neither client lists under any bound, although every admitted bound gives a list. -/
theorem C41_index_255_missing_witness :
    ∃ (L : Ledger) (u k : Pubkey), Reachable Real.crypto L ∧ IsRecord L k ∧ recOwner L k = u ∧ 0 < recAmount L k ∧
      (∀ max, ∃ l, Client.fetchPendingWithdraws Real.crypto L u max = some l ∧
        ∀ p ∈ l, p.withdrawIndex ≠ recIndex L k) ∧
      (∀ max : Option Int, 0 ≤ max.getD 15 → max.getD 15 ≤ 255 →
        ∃ l, Client.jsFetchPendingWithdraws Real.crypto L u max = some l ∧
          ∀ p ∈ l, p.withdrawIndex ≠ recIndex L k) := by
  rw [← Demo.cr_eq]
  refine ⟨Demo.L8, Demo.US, Demo.R255, Demo.reach8, Demo.record255.1, Demo.record255.2.1, by decide +kernel,
    fun max => ?_, fun max h0 h255 => ?_⟩
  · obtain ⟨l, hl⟩ := Demo.rust_lists max
    refine ⟨l, hl, fun p hp => ?_⟩
    obtain ⟨i, hi, k', b', ha, -, hd⟩ := (fetchPending_mem hl p).1 hp
    have hi' : i < 255 := by have := (max.getD 15).toNat_lt; omega
    obtain ⟨rfl, -⟩ := Demo.searched8 hi' ha hd
    rw [(deserialize_fields hd).2.1, Demo.record0.2.2.1, Demo.record255.2.2.1]
    decide
  · obtain ⟨l, hl⟩ := Demo.js_lists h0 h255
    refine ⟨l, hl, fun p hp => ?_⟩
    obtain ⟨i, hi, k', b', ha, -, hd⟩ := (jsFetchPending_mem hl p).1 hp
    obtain ⟨rfl, -⟩ := Demo.searched8 (by omega) ha hd
    rw [(deserialize_fields hd).2.1, Demo.record0.2.2.1, Demo.record255.2.2.1]
    decide

/-- On the same ledger the record with index 0 is listed by both, also with the default bound. -/
example : (∃ l, Client.fetchPendingWithdraws Demo.cr Demo.L8 Demo.US none = some l ∧
      ∃ p ∈ l, p.withdrawableOrcaAmount.toNat = recAmount Demo.L8 Demo.R0) ∧
    (∃ l, Client.jsFetchPendingWithdraws Demo.cr Demo.L8 Demo.US none = some l ∧
      ∃ p ∈ l, p.withdrawableOrcaAmount.toNat = recAmount Demo.L8 Demo.R0) := by
  have h := C41_listed_partial Demo.reach8 Demo.record0.1
  rw [Demo.record0.2.1, Demo.record0.2.2.1] at h
  constructor
  · obtain ⟨l, hl⟩ := Demo.rust_lists none
    obtain ⟨p, hp, -, -, e, -⟩ := h.1 none l hl (by decide)
    exact ⟨l, hl, p, hp, e⟩
  · obtain ⟨l, hl⟩ := Demo.js_lists (max := none) (by decide) (by decide)
    obtain ⟨p, hp, -, -, e, -⟩ := h.2 none l hl (by decide)
    exact ⟨l, hl, p, hp, e⟩

/-! ### C42: the exchange rate -/

/-- What the Rust helper returns on one ledger: the non-escrowed balance and the supply. -/
theorem C42_rust_rate {n d : UInt64} (h : Client.fetchStakingExchangeRate cr L L L = some (n, d)) :
    ∃ st b v b', StateAddr cr st b ∧ VaultAddr cr st v b' ∧ escrow L st ≤ balance L v ∧
      n.toNat = backing L v st ∧ d.toNat = supply L XORCA_MINT_ID := by
  obtain ⟨st, b, v, b', e1, e2, e3, e4, e5⟩ := rustRate h
  exact ⟨st, b, v, b', e1, e2, e3, by rw [backing]; omega, e5⟩

/-- What the JS helper returns on one ledger: the same, or a negative number if the escrow exceeded the
balance. -/
theorem C42_js_rate {n d : Int} (h : Client.jsFetchStakingExchangeRate cr L L L = some (n, d)) :
    ∃ st b v b', StateAddr cr st b ∧ VaultAddr cr st v b' ∧
      n = (balance L v : Int) - escrow L st ∧ d = supply L XORCA_MINT_ID := jsRate h

/-- On a reachable ledger with an initialised pool both helpers return the price inputs of the program. -/
theorem C42_rate_available {st v : Pubkey} {b : UInt8} (hr : Reachable cr L) (hi : Initialised cr L st)
    (hv : VaultAddr cr st v b) (hl : (L v).lamports ≠ 0) (hm : (L XORCA_MINT_ID).lamports ≠ 0) :
    (∃ n d, Client.fetchStakingExchangeRate cr L L L = some (n, d) ∧
      n.toNat = backing L v st ∧ d.toNat = supply L XORCA_MINT_ID) ∧
    Client.jsFetchStakingExchangeRate cr L L L =
      some ((backing L v st : Int), (supply L XORCA_MINT_ID : Int)) := by
  obtain ⟨v', p⟩ := hr.inv.ofInitialised hi
  obtain ⟨rfl, _⟩ := vaultAddr_unique hv p.v_addr
  have hb := p.backed
  obtain ⟨s, h1, h2⟩ := p.fetchState
  obtain ⟨w, h3, h4⟩ := p.fetchVault hl
  obtain ⟨w', h5, h6⟩ := p.jsFetchVault hl
  have hsub : escrow L st ≤ w.amount.toNat := by rw [h4]; omega
  constructor
  · refine ⟨w.amount - s.escrowedOrcaAmount, readU64 (L XORCA_MINT_ID).data 36, ?_, ?_, rfl⟩
    · unfold Client.fetchStakingExchangeRate
      rw [h1, h3, p.fetchSupply hm]
      have : checkedSubU64 w.amount s.escrowedOrcaAmount = some (w.amount - s.escrowedOrcaAmount) := by
        rw [checkedSubU64_eq_some, u64_sub_toNat (by omega)]; omega
      change (checkedSubU64 w.amount s.escrowedOrcaAmount >>= fun _ => _) = _
      rw [this]; rfl
    · rw [u64_sub_toNat (by omega), h4, h2, backing]
  · unfold Client.jsFetchStakingExchangeRate
    rw [h1, h5, p.jsFetchSupply hm]
    change some _ = some _
    rw [h6, h2]
    congr 2
    rw [backing]; omega

/-- The figures of the demo chain: 1,800,000 ORCA for 1,200,006 xORCA. -/
example : Client.fetchStakingExchangeRate Demo.cr Demo.L4 Demo.L4 Demo.L4 = some (1800000, 1200006) ∧
    Client.jsFetchStakingExchangeRate Demo.cr Demo.L4 Demo.L4 Demo.L4 = some (1800000, 1200006) := by
  decide +kernel
example := C42_rate_available Demo.reach6 (st := Demo.ST) ⟨⟨_, Demo.st_addr⟩, by decide +kernel, by decide +kernel⟩
  Demo.va_addr (by decide +kernel) (by decide +kernel)

/-! ### C43: error codes -/

/-- Codes agree between program and clients and are distinct. -/
theorem C43_error_codes (e e' : ErrorCode) :
    Client.rustErrorCode e = e.code ∧ Client.jsErrorCode e = e.code ∧ (e.code = e'.code → e = e') := by
  refine ⟨by cases e <;> rfl, by cases e <;> rfl, fun h => ?_⟩
  revert h
  cases e <;> cases e' <;> decide

example : Client.rustErrorCode .CoolDownPeriodStillActive = 6011 := rfl

/-! ### C46: account lists -/

/-- An instruction built by the clients is never rejected for the role or number of its accounts. -/
theorem C46_client_account_lists {ix : Instruction} (r : Bytes)
    (hp : match ix with
      | .Stake _ => ∃ k : Client.StakeKeys, Client.Passed k.metas accs
      | .Unstake .. => ∃ k : Client.UnstakeKeys, Client.Passed k.metas accs
      | .Withdraw _ => ∃ k : Client.WithdrawKeys, Client.Passed k.metas accs
      | .Initialize _ => ∃ k : Client.InitializeKeys, Client.Passed k.metas accs
      | .Set _ => ∃ k : Client.SetKeys, Client.Passed k.metas accs) :
    entry x PROGRAM_ID L accs (Client.encode ix ++ r) ≠ .error (.custom .InvalidAccountRole) ∧
    entry x PROGRAM_ID L accs (Client.encode ix ++ r) ≠ .error (.custom .NotEnoughAccountKeys) := by
  rw [entry_eq (decodeIx_encode ix r)]
  cases ix with
  | Stake a =>
    obtain ⟨k, hk⟩ := hp
    exact ⟨stake_roles hk, fun h => absurd (few_accounts_only h) (Nat.not_lt.2 (passed_length hk))⟩
  | Unstake a i =>
    obtain ⟨k, hk⟩ := hp
    exact ⟨unstake_roles hk, fun h => absurd (few_accounts_only h) (Nat.not_lt.2 (passed_length hk))⟩
  | Withdraw i =>
    obtain ⟨k, hk⟩ := hp
    exact ⟨withdraw_roles hk, fun h => absurd (few_accounts_only h) (Nat.not_lt.2 (passed_length hk))⟩
  | Initialize c =>
    obtain ⟨k, hk⟩ := hp
    exact ⟨initialize_roles hk, fun h => absurd (few_accounts_only h) (Nat.not_lt.2 (passed_length hk))⟩
  | Set u =>
    obtain ⟨k, hk⟩ := hp
    exact ⟨set_roles hk, fun h => absurd (few_accounts_only h) (Nat.not_lt.2 (passed_length hk))⟩

/-- The account lists of the demo chain are those of the client builders, and there they succeed. -/
example : Demo.stakeAccs = (⟨Demo.US, Demo.VA, Demo.UO, Demo.UX, XORCA_MINT_ID, Demo.ST, ORCA_MINT_ID,
      SPL_TOKEN_PROGRAM_ID⟩ : Client.StakeKeys).metas ∧
    Demo.unstakeAccs Demo.R0 = (⟨Demo.US, Demo.ST, Demo.R0, Demo.UX, XORCA_MINT_ID, ORCA_MINT_ID, Demo.VA,
      SYSTEM_PROGRAM_ID, SPL_TOKEN_PROGRAM_ID⟩ : Client.UnstakeKeys).metas ∧
    Demo.withdrawAccs Demo.R0 = (⟨Demo.US, Demo.ST, Demo.R0, Demo.UO, Demo.VA, ORCA_MINT_ID, SYSTEM_PROGRAM_ID,
      SPL_TOKEN_PROGRAM_ID⟩ : Client.WithdrawKeys).metas ∧
    Demo.initAccs = (⟨DEPLOYER_ADDRESS, Demo.US, Demo.ST, Demo.VA, XORCA_MINT_ID, ORCA_MINT_ID, SYSTEM_PROGRAM_ID,
      SPL_TOKEN_PROGRAM_ID, ASSOCIATED_TOKEN_PROGRAM_ID⟩ : Client.InitializeKeys).metas ∧
    Demo.setAccs = (⟨Demo.US, Demo.ST⟩ : Client.SetKeys).metas := ⟨rfl, rfl, rfl, rfl, rfl⟩
example (m : List Meta) : Client.Passed m m := fun _ b h => ⟨b, h, rfl, id, id⟩

end Xorca
