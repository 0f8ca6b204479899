import Verif.Lemmas.Accounts
import Verif.Lemmas.DemoNodes
/-
C97: listing a user's withdrawals through a node that answers for a limited number of accounts per call.
-/
namespace Xorca
open Xorca.Spec
variable {cr : Crypto} {L : Ledger}

/-! ### C97: a node with a limit -/

/-- Against a node with a limit, the Rust listing works as without it up to that bound and fails above. -/
theorem C97_rust_listing (limit : Nat) (u : Pubkey) (max : Option UInt8) :
    Client.nodeFetchPendingWithdraws limit cr L u max =
      if (max.getD 15).toNat ≤ limit then Client.fetchPendingWithdraws cr L u max else none :=
  nodeFetch_eq limit u max

/-- So does the JS listing. -/
theorem C97_js_listing (limit : Nat) (u : Pubkey) (max : Option Int) :
    Client.jsNodeFetchPendingWithdraws limit cr L u max =
      if (max.getD 15).toNat ≤ limit then Client.jsFetchPendingWithdraws cr L u max else none :=
  jsNodeFetch_eq limit u max

/-- Whatever a limited node lets the clients list was read at the address of an index below the limit.  This address is
that of a record with a larger index only if two different inputs have the same hash. -/
theorem C97_high_index_not_read {limit : Nat} {u k : Pubkey} {j b : UInt8} (hj : limit ≤ j.toNat)
    (hk : RecordAddr cr u j k b) (p : PendingWithdraw)
    (h : (∃ max l, Client.nodeFetchPendingWithdraws limit cr L u max = some l ∧ p ∈ l) ∨
      (∃ max l, Client.jsNodeFetchPendingWithdraws limit cr L u max = some l ∧ p ∈ l)) :
    ∃ i k' b', i < limit ∧ RecordAddr cr u (UInt8.ofNat i) k' b' ∧
      PendingWithdraw.deserialize (L k').data = some p ∧
      (k' = k → Clash cr (recordHashed u j b) (recordHashed u (UInt8.ofNat i) b')) := by
  have key : ∀ i k' b', i < limit → RecordAddr cr u (UInt8.ofNat i) k' b' → k' = k →
      Clash cr (recordHashed u j b) (recordHashed u (UInt8.ofNat i) b') := by
    rintro i k' b' hi ha rfl
    refine ⟨fun he => ?_, by rw [← recordAddr_hash hk, ← recordAddr_hash ha]⟩
    have h1 := congrArg UInt8.toNat (recordHashed_inj he).2.1
    rw [UInt8.toNat_ofNat_of_lt' (by have := j.toNat_lt; change i < 256; omega)] at h1
    omega
  rcases h with ⟨max, l, hl, hp⟩ | ⟨max, l, hl, hp⟩
  · rw [nodeFetch_eq] at hl
    split at hl
    · obtain ⟨i, hi, k', b', ha, -, hd⟩ := (fetchPending_mem hl p).1 hp
      exact ⟨i, k', b', by omega, ha, hd, key i k' b' (by omega) ha⟩
    · cases hl
  · rw [jsNodeFetch_eq] at hl
    split at hl
    · obtain ⟨i, hi, k', b', ha, -, hd⟩ := (jsFetchPending_mem hl p).1 hp
      exact ⟨i, k', b', by omega, ha, hd, key i k' b' (by omega) ha⟩
    · cases hl

/-- With the limit of the Solana RPC API there is a reachable ledger and a user with an open record with index 200 that
neither client lists with any bound.  Without the limit both list it with the bound 201. -/
theorem C97_index_200_missing_witness :
    ∃ (L : Ledger) (u k : Pubkey), Reachable Real.crypto L ∧ IsRecord L k ∧ recOwner L k = u ∧ recIndex L k = 200 ∧
      0 < recAmount L k ∧
      (∀ max l, Client.nodeFetchPendingWithdraws Client.MAX_MULTIPLE_ACCOUNTS Real.crypto L u max = some l →
        ∀ p ∈ l, p.withdrawIndex ≠ 200) ∧
      (∀ max l, Client.jsNodeFetchPendingWithdraws Client.MAX_MULTIPLE_ACCOUNTS Real.crypto L u max = some l →
        ∀ p ∈ l, p.withdrawIndex ≠ 200) ∧
      Client.nodeFetchPendingWithdraws Client.MAX_MULTIPLE_ACCOUNTS Real.crypto L u (some 201) = none ∧
      Client.jsNodeFetchPendingWithdraws Client.MAX_MULTIPLE_ACCOUNTS Real.crypto L u (some 201) = none ∧
      (∃ l, Client.fetchPendingWithdraws Real.crypto L u (some 201) = some l ∧ ∃ p ∈ l, p.withdrawIndex = 200) ∧
      (∃ l, Client.jsFetchPendingWithdraws Real.crypto L u (some 201) = some l ∧ ∃ p ∈ l, p.withdrawIndex = 200) := by
  rw [← Demo.cr_eq]
  obtain ⟨p, hp⟩ := IsRecord.deserialize Demo.record200.1
  have hacc := Demo.reachN9.inv.isRec Demo.record200.1
  have ha : RecordAddr Demo.cr (recOwner Demo.N9 Demo.R200) (recIndex Demo.N9 Demo.R200) Demo.R200 _ := hacc.addr
  rw [Demo.record200.2.1, Demo.record200.2.2.1] at ha
  have hx : p.withdrawIndex = 200 := by rw [(deserialize_fields hp).2.1]; exact Demo.record200.2.2.1
  have h0 : ∀ i k' b' q, i < 100 → RecordAddr Demo.cr Demo.US (UInt8.ofNat i) k' b' →
      PendingWithdraw.deserialize (Demo.N9 k').data = some q → q.withdrawIndex ≠ 200 := by
    intro i k' b' q hi ha hd
    rw [Demo.searchedN9 (by omega) ha hd] at hd
    rw [(deserialize_fields hd).2.1, Demo.recordN0.2.2]
    decide
  refine ⟨Demo.N9, Demo.US, Demo.R200, Demo.reachN9, Demo.record200.1, Demo.record200.2.1, Demo.record200.2.2.1,
    Demo.record200.2.2.2, ?_, ?_, ?_, ?_, ?_, ?_⟩
  · intro max l hl q hq
    obtain ⟨i, k', b', hi, ha', hd, -⟩ := C97_high_index_not_read (by decide) ha q (Or.inl ⟨max, l, hl, hq⟩)
    exact h0 i k' b' q hi ha' hd
  · intro max l hl q hq
    obtain ⟨i, k', b', hi, ha', hd, -⟩ := C97_high_index_not_read (by decide) ha q (Or.inr ⟨max, l, hl, hq⟩)
    exact h0 i k' b' q hi ha' hd
  · rw [nodeFetch_eq, if_neg (by decide)]
  · rw [jsNodeFetch_eq, if_neg (by decide)]
  · obtain ⟨l, hl⟩ := Demo.rust_listsN (some 201)
    exact ⟨l, hl, p, (fetchPending_mem hl p).2 ⟨200, by decide, _, _, ha, hacc.lam, hp⟩, hx⟩
  · obtain ⟨l, hl⟩ := Demo.js_listsN (max := some 201) (by decide) (by decide)
    exact ⟨l, hl, p, (jsFetchPending_mem hl p).2 ⟨200, by decide, _, _, ha, hacc.lam, hp⟩, hx⟩

/-- A bound within the limit: the record with index 0 of the same user is listed through such a node. -/
example : (∃ l, Client.nodeFetchPendingWithdraws 100 Demo.cr Demo.N9 Demo.US none = some l ∧
      ∃ p ∈ l, p.withdrawIndex = 0) ∧
    (∃ l, Client.jsNodeFetchPendingWithdraws 100 Demo.cr Demo.N9 Demo.US (some 100) = some l ∧
      ∃ p ∈ l, p.withdrawIndex = 0) := by
  obtain ⟨p, hp⟩ := IsRecord.deserialize Demo.recordN0.1
  have hacc := Demo.reachN9.inv.isRec Demo.recordN0.1
  have ha : RecordAddr Demo.cr (recOwner Demo.N9 Demo.R0) (recIndex Demo.N9 Demo.R0) Demo.R0 _ := hacc.addr
  rw [Demo.recordN0.2.1, Demo.recordN0.2.2] at ha
  have hx : p.withdrawIndex = 0 := by rw [(deserialize_fields hp).2.1]; exact Demo.recordN0.2.2
  constructor
  · obtain ⟨l, hl⟩ := Demo.rust_listsN none
    refine ⟨l, ?_, p, (fetchPending_mem hl p).2 ⟨0, by decide, _, _, ha, hacc.lam, hp⟩, hx⟩
    rw [C97_rust_listing, if_pos (by decide), hl]
  · obtain ⟨l, hl⟩ := Demo.js_listsN (max := some 100) (by decide) (by decide)
    refine ⟨l, ?_, p, (jsFetchPending_mem hl p).2 ⟨0, by decide, _, _, ha, hacc.lam, hp⟩, hx⟩
    rw [C97_js_listing, if_pos (by decide), hl]

end Xorca
