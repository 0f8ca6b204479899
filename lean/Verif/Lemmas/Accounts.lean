import Verif.Client.Accounts
import Verif.Lemmas.Client
import Verif.Lemmas.ClientCodec
/-
Lemmas about the generated account modules of the clients.
-/
namespace Xorca
open Spec

variable {cr : Crypto} {L : Ledger} {α : Type}

/-! ### Struct round trips -/

theorem getDiscriminator_cons (a : AccountDiscriminator) (r : Bytes) : getDiscriminator (a.toU8 :: r) = some (a, r) := by
  cases a <;> rfl

/-- Decoding the serialised state. -/
theorem State.deserialize_serialize {s : State} (h1 : s.padding1.length = 5) (h2 : s.padding2.length = 1992) (r : Bytes) :
    State.deserialize (s.serialize ++ r) = some s := by
  simp only [State.deserialize, State.serialize, List.append_assoc, List.cons_append, List.nil_append,
    getDiscriminator_cons, getBytes_append h1, getU8_cons, getU64_append, getI64_append, getKey_append,
    getBytes_append h2, Option.bind_eq_bind, Option.bind_some]

/-- Decoding the serialised record. -/
theorem PendingWithdraw.deserialize_serialize {p : PendingWithdraw} (h1 : p.padding1.length = 5)
    (h2 : p.padding2.length = 968) (r : Bytes) : PendingWithdraw.deserialize (p.serialize ++ r) = some p := by
  simp only [PendingWithdraw.deserialize, PendingWithdraw.serialize, List.append_assoc, List.cons_append, List.nil_append,
    getDiscriminator_cons, getBytes_append h1, getU8_cons, getU64_append, getI64_append, getKey_append,
    getBytes_append h2, Option.bind_eq_bind, Option.bind_some]

theorem jsFixBytes_length (n : Nat) (b : Bytes) : (Client.jsFixBytes n b).length = n := by
  simp [Client.jsFixBytes]; omega

theorem jsFixBytes_same {n : Nat} {b : Bytes} (h : b.length = n) : Client.jsFixBytes n b = b := by
  simp [Client.jsFixBytes, h]

theorem jsU8_some {v : Int} {b : Bytes} : Client.jsU8 v = some b ↔ ∃ w : UInt8, (w.toNat : Int) = v ∧ b = [w] := by
  unfold Client.jsU8
  constructor
  · intro h
    split at h
    · next hv =>
      cases h
      refine ⟨_, ?_, rfl⟩
      rw [UInt8.toNat_ofNat_of_lt' (by change v.toNat < 256; omega)]
      omega
    · cases h
  · rintro ⟨w, rfl, rfl⟩
    have := w.toNat_lt
    rw [if_pos (by omega)]
    simp

theorem jsU64_some {v : Int} {b : Bytes} : Client.jsU64 v = some b ↔ ∃ w : UInt64, (w.toNat : Int) = v ∧ b = u64le w := by
  unfold Client.jsU64
  constructor
  · intro h
    split at h
    · next hv =>
      cases h
      refine ⟨_, ?_, rfl⟩
      rw [UInt64.toNat_ofNat_of_lt' (by change v.toNat < 2 ^ 64; omega)]
      omega
    · cases h
  · rintro ⟨w, rfl, rfl⟩
    have := w.toNat_lt
    rw [if_pos (by omega)]
    simp

theorem jsI64_some {v : Int} {b : Bytes} : Client.jsI64 v = some b ↔ ∃ w : Int64, w.toInt = v ∧ b = i64le w := by
  unfold Client.jsI64
  constructor
  · intro h
    split at h
    · next hv =>
      cases h
      exact ⟨_, Int64.toInt_ofInt_of_le hv.1 hv.2, rfl⟩
    · cases h
  · rintro ⟨w, rfl, rfl⟩
    have h1 := w.le_toInt
    have h2 := w.toInt_lt
    rw [if_pos ⟨h1, h2⟩]
    simp

/-! ### Nodes -/

theorem getMultiple_some {limit : Nat} {keys : List Pubkey} {l : List (Option Account)} :
    Client.getMultipleAccounts limit L keys = some l ↔ keys.length ≤ limit ∧ keys.map (Client.getAccount L) = l := by
  unfold Client.getMultipleAccounts
  split <;> simp_all

theorem mapM_length {β γ : Type} {f : β → Option γ} {l : List β} {r : List γ} (h : l.mapM f = some r) :
    r.length = l.length := by
  induction l generalizing r with
  | nil => simp only [List.mapM_nil] at h; cases h; rfl
  | cons a l ih =>
    simp only [List.mapM_cons] at h
    obtain ⟨b, -, h2⟩ := optBind_some.1 h
    obtain ⟨r', h3, h4⟩ := optBind_some.1 h2
    cases h4
    simp [ih h3]

theorem mapM_some_iff {β γ : Type} {f : β → Option γ} {l : List β} {r : List γ} :
    l.mapM f = some r ↔ l.map f = r.map some := by
  induction l generalizing r with
  | nil => cases r <;> simp
  | cons a l ih =>
    simp only [List.mapM_cons, optBind_some]
    constructor
    · rintro ⟨b, h1, r', h2, h3⟩
      cases h3
      simp [h1, ih.1 h2]
    · intro h
      cases r with
      | nil => simp at h
      | cons b r =>
        simp only [List.map_cons, List.cons.injEq] at h
        exact ⟨b, h.1, r, ih.2 h.2, rfl⟩

theorem withdrawAddresses_length {u : Pubkey} {n : Nat} {l : List Pubkey}
    (h : Client.withdrawAddresses cr u n = some l) : l.length = n := by
  simpa using mapM_length h

theorem fetchAllMaybeOf_eq (limit : Nat) (keys : List Pubkey) :
    Client.fetchAllMaybeOf PendingWithdraw.deserialize limit L keys =
      if keys.length ≤ limit then Client.fetchAllMaybe L keys else none := by
  unfold Client.fetchAllMaybeOf Client.getMultipleAccounts
  split
  · change (keys.map (Client.getAccount L)).mapM _ = _
    rw [List.mapM_map]
    rfl
  · rfl

theorem nodeFetch_eq (limit : Nat) (u : Pubkey) (max : Option UInt8) :
    Client.nodeFetchPendingWithdraws limit cr L u max =
      if (max.getD 15).toNat ≤ limit then Client.fetchPendingWithdraws cr L u max else none := by
  unfold Client.nodeFetchPendingWithdraws Client.fetchPendingWithdraws
  change (Client.withdrawAddresses cr u (max.getD 15).toNat >>= _) =
    if _ then (Client.withdrawAddresses cr u (max.getD 15).toNat >>= _) else _
  cases h : Client.withdrawAddresses cr u (max.getD 15).toNat with
  | none => simp
  | some l =>
    have hl := withdrawAddresses_length h
    simp only [Option.bind_eq_bind, Option.bind_some, fetchAllMaybeOf_eq, hl]
    split <;> simp

theorem jsNodeFetch_eq (limit : Nat) (u : Pubkey) (max : Option Int) :
    Client.jsNodeFetchPendingWithdraws limit cr L u max =
      if (max.getD 15).toNat ≤ limit then Client.jsFetchPendingWithdraws cr L u max else none := by
  unfold Client.jsNodeFetchPendingWithdraws Client.jsFetchPendingWithdraws
  simp only []
  by_cases hv : Client.jsValidMax (max.getD 15) = true
  · simp only [hv, if_true]
    cases h : Client.withdrawAddresses cr u (max.getD 15).toNat with
    | none => simp
    | some l =>
      have hl := withdrawAddresses_length h
      simp only [Option.bind_eq_bind, Option.bind_some, Client.getMultipleAccounts, hl]
      split
      · simp [List.filterMap_map]
      · simp
  · simp [hv]

end Xorca
