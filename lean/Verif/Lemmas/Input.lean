import Verif.Input
import Verif.Lemmas.Serial
import Verif.Lemmas.LocalInstr
import Verif.Lemmas.Machine
/-
The block of memory between runtime and program.
-/
namespace Xorca

variable {b : Bytes} {exec : Pubkey → Bool} {epoch : UInt64} {L M : Ledger}

/-! ### One account -/

theorem putAccount_length {ex : Bool} {m : Meta} {a : Account} : (putAccount ex epoch m a).length =
    88 + a.data.length + (GROWTH + pad8 a.data.length) + 8 := by
  simp [putAccount, m.key.len, a.owner.len]
  omega

/-- The account `m` is written at position `p` of the block. -/
def At (b : Bytes) (exec : Pubkey → Bool) (epoch : UInt64) (L : Ledger) (p : Nat) (m : Meta) : Prop :=
  ∃ t, b.drop p = putAccount (exec m.key) epoch m (L m.key) ++ t

theorem flagByte_ne (f : Bool) : (flagByte f != 0) = f := by cases f <;> decide

theorem At.read {p : Nat} {m : Meta} (h : At b exec epoch L p m) (hl : (L m.key).data.length < 2 ^ 64) :
    readU8 b p = 255 ∧ infoMeta b p = m ∧ infoAccount b p = L m.key ∧ infoLen b p = (L m.key).data.length ∧
    p + 88 + ((L m.key).data.length + GROWTH) ≤ b.length := by
  obtain ⟨t, h⟩ := h
  have hk := m.key.len
  have ho := (L m.key).owner.len
  have e1 : readU8 b p = 255 := by
    have := readU8_drop (d := b) (p := p) (o := 0)
    rw [Nat.add_zero] at this
    rw [← this, h]
    rfl
  have e2 : readU8 b (p + 1) = flagByte m.isSigner := by rw [← readU8_drop, h]; rfl
  have e3 : readU8 b (p + 2) = flagByte m.isWritable := by rw [← readU8_drop, h]; rfl
  have e4 : readKey b (p + 8) = m.key := by
    rw [← readKey_drop, h]
    unfold putAccount
    iterate 7 rw [readKey_append_left (by simp [hk, ho]; try omega)]
    rw [readKey_append_right (by simp)]
  have e5 : readKey b (p + 40) = (L m.key).owner := by
    rw [← readKey_drop, h]
    unfold putAccount
    iterate 6 rw [readKey_append_left (by simp [hk, ho]; try omega)]
    rw [readKey_append_right (by simp [hk])]
  have e6 : readU64 b (p + 72) = (L m.key).lamports := by
    rw [← readU64_drop, h]
    unfold putAccount
    iterate 5 rw [readU64_append_left (by simp [hk, ho]; try omega)]
    rw [readU64_append_right (by simp [hk, ho]; try omega)]
  have e7 : readU64 b (p + 80) = UInt64.ofNat (L m.key).data.length := by
    rw [← readU64_drop, h]
    unfold putAccount
    iterate 4 rw [readU64_append_left (by simp [hk, ho]; try omega)]
    rw [readU64_append_right (by simp [hk, ho]; try omega)]
  have e8 : infoLen b p = (L m.key).data.length := by
    unfold infoLen
    rw [e7, UInt64.toNat_ofNat_of_lt' (by exact hl)]
  have e9 : slice b (p + 88) (L m.key).data.length = (L m.key).data := by
    rw [← slice_drop, h]
    unfold putAccount
    iterate 3 rw [slice_append_left (by simp [hk, ho]; try omega)]
    rw [slice_append_right (by simp [hk, ho]) rfl]
  refine ⟨e1, ?_, ?_, e8, ?_⟩
  · unfold infoMeta infoKey infoSigner infoWritable
    rw [e2, e3, e4, flagByte_ne, flagByte_ne]
  · unfold infoAccount infoLamports infoOwner infoData
    rw [e5, e6, e8, e9]
  · have hlen := congrArg List.length h
    rw [List.length_drop, List.length_append, putAccount_length] at hlen
    omega

/-! ### Storing -/

theorem storeAccount_length {p : Nat} {a : Account} (h : p + 88 + a.data.length ≤ b.length) :
    (storeAccount b p a).length = b.length := by
  have ho := a.owner.len
  unfold storeAccount
  have w1 : (writeAt b (p + 40) a.owner.bytes).length = b.length := writeAt_length (by omega)
  have w2 := writeAt_length (d := writeAt b (p + 40) a.owner.bytes) (off := p + 72) (b := u64le a.lamports) (by simp; omega)
  have w3 := writeAt_length (d := writeAt (writeAt b (p + 40) a.owner.bytes) (p + 72) (u64le a.lamports)) (off := p + 80)
    (b := u64le (UInt64.ofNat a.data.length)) (by simp; omega)
  rw [writeAt_length (by omega), w3, w2, w1]

/-- What lies outside of the fields is not changed. -/
theorem storeAccount_slice {p o n : Nat} {a : Account} (h : p + 88 + a.data.length ≤ b.length)
    (ha : o + n ≤ p + 40 ∨ p + 88 + a.data.length ≤ o) : slice (storeAccount b p a) o n = slice b o n := by
  have ho := a.owner.len
  unfold storeAccount
  have w1 : (writeAt b (p + 40) a.owner.bytes).length = b.length := writeAt_length (by omega)
  have w2 := writeAt_length (d := writeAt b (p + 40) a.owner.bytes) (off := p + 72) (b := u64le a.lamports) (by simp; omega)
  have w3 := writeAt_length (d := writeAt (writeAt b (p + 40) a.owner.bytes) (p + 72) (u64le a.lamports)) (off := p + 80)
    (b := u64le (UInt64.ofNat a.data.length)) (by simp; omega)
  rw [slice_writeAt_apart (by omega) (by unfold Apart; omega),
    slice_writeAt_apart (by simp; omega) (by unfold Apart; simp; omega),
    slice_writeAt_apart (by simp; omega) (by unfold Apart; simp; omega),
    slice_writeAt_apart (by omega) (by unfold Apart; omega)]

theorem storeAccount_read {p : Nat} {a : Account} (h : p + 88 + a.data.length ≤ b.length) (hl : a.data.length < 2 ^ 64) :
    infoAccount (storeAccount b p a) p = a ∧ infoLen (storeAccount b p a) p = a.data.length := by
  have ho := a.owner.len
  have w1 : (writeAt b (p + 40) a.owner.bytes).length = b.length := writeAt_length (by omega)
  have w2 := writeAt_length (d := writeAt b (p + 40) a.owner.bytes) (off := p + 72) (b := u64le a.lamports) (by simp; omega)
  have w3 := writeAt_length (d := writeAt (writeAt b (p + 40) a.owner.bytes) (p + 72) (u64le a.lamports)) (off := p + 80)
    (b := u64le (UInt64.ofNat a.data.length)) (by simp; omega)
  have e1 : infoLen (storeAccount b p a) p = a.data.length := by
    unfold infoLen storeAccount
    rw [readU64_writeAt_apart (by omega) (by unfold Apart; omega), readU64_writeAt_same (by omega),
      UInt64.toNat_ofNat_of_lt' (by exact hl)]
  refine ⟨?_, e1⟩
  unfold infoAccount infoData
  rw [e1]
  unfold infoLamports infoOwner storeAccount
  rw [readU64_writeAt_apart (by omega) (by unfold Apart; omega),
    readU64_writeAt_apart (by simp; omega) (by unfold Apart; simp), readU64_writeAt_same (by omega),
    readKey_writeAt_apart (by omega) (by unfold Apart; omega),
    readKey_writeAt_apart (by simp; omega) (by unfold Apart; simp),
    readKey_writeAt_apart (by simp; omega) (by unfold Apart; simp), readKey_writeAt_same (by omega),
    slice_writeAt_same (by omega)]

theorem info_same {b' : Bytes} {q : Nat} (h : ∀ o n, q + 8 ≤ o → o + n ≤ q + 88 + infoLen b q → slice b' o n = slice b o n) :
    infoAccount b' q = infoAccount b q ∧ infoLen b' q = infoLen b q := by
  have e1 : infoLen b' q = infoLen b q := by
    unfold infoLen readU64
    rw [h _ _ (by omega) (by omega)]
  refine ⟨?_, e1⟩
  unfold infoAccount infoData
  rw [e1]
  unfold infoLamports infoOwner readU64 readKey
  rw [h _ _ (by omega) (by omega), h _ _ (by omega) (by omega), h _ _ (by omega) (by omega)]

/-- Two accounts are in separate parts of the block. -/
def Separate (P : Pubkey → Nat) (c : Pubkey → Nat) (k j : Pubkey) : Prop :=
  P k + 88 + c k ≤ P j ∨ P j + 88 + c j ≤ P k

theorem storeAll_read {P c : Pubkey → Nat} {ms : List Meta} (todo : List Meta) (hsub : ∀ m ∈ todo, m ∈ ms)
    (hsep : ∀ m ∈ ms, ∀ n ∈ ms, m.key ≠ n.key → Separate P c m.key n.key)
    (hroom : ∀ m ∈ ms, (M m.key).data.length ≤ c m.key ∧ (M m.key).data.length < 2 ^ 64) :
    ∀ (b : Bytes) (done : List Meta), (∀ m ∈ done, m ∈ ms) → (∀ m ∈ ms, P m.key + 88 + c m.key ≤ b.length) →
      (∀ m ∈ ms, infoKey b (P m.key) = m.key) →
      (∀ m ∈ done, infoAccount b (P m.key) = M m.key ∧ infoLen b (P m.key) = (M m.key).data.length) →
      ∀ m ∈ done ++ todo, infoAccount (storeAll b M (todo.map fun m => P m.key)) (P m.key) = M m.key ∧
        infoLen (storeAll b M (todo.map fun m => P m.key)) (P m.key) = (M m.key).data.length := by
  induction todo with
  | nil =>
    intro b done _ _ _ h m hm
    exact h m (by simpa using hm)
  | cons s todo ih =>
    intro b done hdone hfit hkey h m hm
    have hs := hsub s (by simp)
    have e : storeAll b M ((s :: todo).map fun m => P m.key) =
        storeAll (storeAccount b (P s.key) (M s.key)) M (todo.map fun m => P m.key) := by
      unfold storeAll
      rw [List.map_cons, List.foldl_cons, hkey s hs]
    rw [e]
    have hr := hroom s hs
    have hf := hfit s hs
    have hb : P s.key + 88 + (M s.key).data.length ≤ b.length := by omega
    refine ih (fun m hm => hsub m (by simp [hm])) (storeAccount b (P s.key) (M s.key)) (done ++ [s]) ?_ ?_ ?_ ?_ m
      (by simpa using hm)
    · intro m hm
      rcases List.mem_append.1 hm with hm | hm
      · exact hdone m hm
      · rw [List.mem_singleton.1 hm]; exact hs
    · intro m hm
      rw [storeAccount_length hb]
      exact hfit m hm
    · intro m hm
      have hk := hkey m hm
      unfold infoKey readKey at hk ⊢
      rw [storeAccount_slice hb, hk]
      by_cases e : m.key = s.key
      · rw [e]; omega
      · rcases hsep m hm s hs e with h | h
        · omega
        · omega
    · intro m hm
      by_cases e : m.key = s.key
      · rw [e]
        exact storeAccount_read hb hr.2
      · have hm' : m ∈ done := by
          rcases List.mem_append.1 hm with hm | hm
          · exact hm
          · exact absurd (by rw [List.mem_singleton.1 hm]) e
        have ha := h m hm'
        have hlen : infoLen b (P m.key) ≤ c m.key := by
          rw [ha.2]
          exact (hroom m (hdone m hm')).1
        have hi := info_same (b := b) (b' := storeAccount b (P s.key) (M s.key)) (q := P m.key)
          fun o n h1 h2 => storeAccount_slice hb (by
            rcases hsep m (hdone m hm') s hs e with h | h
            · omega
            · omega)
        rw [hi.1, hi.2]
        exact ha

/-! ### The walk over the block -/

theorem alignUp_eq {p n : Nat} (hp : 8 ∣ p) : alignUp (p + (88 + 10240 + 8) + n) = p + (88 + n + (GROWTH + pad8 n) + 8) := by
  unfold alignUp pad8 GROWTH
  omega

theorem alignUp_dvd (n : Nat) : 8 ∣ alignUp n := by
  unfold alignUp
  omega

/-- Program and runtime find the same accounts at the same places. -/
theorem walk {t : Bytes} (ms : List Meta) : ∀ (seen : List Meta) (P : Pubkey → Nat) (p : Nat),
    b.drop p = putAccounts exec epoch L seen ms ++ t → 8 ∣ p → seen.length + ms.length ≤ 255 →
    (∀ m ∈ seen ++ ms, (L m.key).data.length < 2 ^ 64) →
    (∀ m ∈ seen ++ ms, ∀ n ∈ seen ++ ms, m.key = n.key → m = n) →
    (∀ m ∈ seen, At b exec epoch L (P m.key) m ∧ P m.key + 88 + ((L m.key).data.length + GROWTH) ≤ p) →
    (∀ m ∈ seen, ∀ n ∈ seen, m.key ≠ n.key → Separate P (fun k => (L k).data.length + GROWTH) m.key n.key) →
    ∃ (Q : Pubkey → Nat) (e : Nat), (∀ m ∈ seen, Q m.key = P m.key) ∧
      getAccounts b ms.length p ((seen.map fun m => P m.key).take 254) =
        some (((seen ++ ms).map fun m => Q m.key).take 254, e) ∧
      b.drop e = t ∧ (∀ m ∈ seen ++ ms, At b exec epoch L (Q m.key) m) ∧
      (∀ m ∈ seen ++ ms, ∀ n ∈ seen ++ ms, m.key ≠ n.key → Separate Q (fun k => (L k).data.length + GROWTH) m.key n.key) ∧
      ∀ (b' : Bytes) (R : Ledger), (∀ m ∈ ms, infoLen b' (Q m.key) ≤ (L m.key).data.length + GROWTH) →
        ∃ R', readBack b' L seen p ms R = some R' ∧
          (∀ m ∈ ms, (∀ s ∈ seen, s.key ≠ m.key) → R' m.key = infoAccount b' (Q m.key)) ∧
          ∀ k, (k ∈ seen.map (·.key) ∨ k ∉ ms.map (·.key)) → R' k = R k := by
  induction ms with
  | nil =>
    intro seen P p h _ _ _ _ hat hsep
    refine ⟨P, p, fun _ _ => rfl, by rw [List.append_nil]; rfl, h, fun m hm => (hat m (by simpa using hm)).1,
      fun m hm n hn => hsep m (by simpa using hm) n (by simpa using hn), fun b' R _ => ⟨R, rfl, by simp, fun _ _ => rfl⟩⟩
  | cons m ms ih =>
    intro seen P p h hp hn hl hc hat hsep
    have happ : seen ++ m :: ms = (seen ++ [m]) ++ ms := by simp
    rw [putAccounts] at h
    cases hf : seen.findIdx? (fun s => s.key = m.key) with
    | some i =>
      rw [hf] at h
      dsimp only at h
      obtain ⟨hi, hk, -⟩ := List.findIdx?_eq_some_iff_getElem.1 hf
      have hk : seen[i].key = m.key := of_decide_eq_true hk
      have hmem : seen[i] ∈ seen := List.getElem_mem hi
      have hsm : seen[i] = m := hc _ (by simp [hmem]) _ (by simp) hk
      have hd : b.drop (p + 8) = putAccounts exec epoch L (seen ++ [m]) ms ++ t := by
        rw [← List.drop_drop, h, List.append_assoc]
        rfl
      have hb : readU8 b p = UInt8.ofNat i := by
        have := readU8_drop (d := b) (p := p) (o := 0)
        rw [Nat.add_zero] at this
        rw [← this, h]
        rfl
      rw [List.length_cons] at hn
      have hin : (UInt8.ofNat i).toNat = i := UInt8.toNat_ofNat_of_lt' (by change i < 256; omega)
      have hne : readU8 b p ≠ 255 := by
        intro e
        rw [hb] at e
        have := congrArg UInt8.toNat e
        rw [hin] at this
        change i = 255 at this
        omega
      have hm' : ∀ s ∈ seen ++ [m], s ∈ seen := by
        intro s hs
        rcases List.mem_append.1 hs with hs | hs
        · exact hs
        · rw [List.mem_singleton.1 hs, ← hsm]; exact hmem
      obtain ⟨Q, e, hQ, hg, he, hatQ, hsepQ, hrb⟩ := ih (seen ++ [m]) P (p + 8) hd (by omega)
        (by rw [List.length_append, List.length_singleton]; omega) (by rw [← happ]; exact hl) (by rw [← happ]; exact hc)
        (fun s hs => ⟨(hat s (hm' s hs)).1, by have := (hat s (hm' s hs)).2; omega⟩)
        (fun s hs r hr => hsep s (hm' s hs) r (hm' r hr))
      refine ⟨Q, e, fun s hs => hQ s (by simp [hs]), ?_, he, by rw [happ]; exact hatQ, by rw [happ]; exact hsepQ, ?_⟩
      · rw [List.length_cons, getAccounts, if_neg hne, happ, ← hg, hb, hin, MAX_TX_ACCOUNTS]
        by_cases h254 : seen.length < 254
        · have e1 : (seen.map fun m => P m.key).take 254 = seen.map fun m => P m.key :=
            List.take_of_length_le (by rw [List.length_map]; omega)
          have e2 : ((seen ++ [m]).map fun m => P m.key).take 254 = (seen ++ [m]).map fun m => P m.key :=
            List.take_of_length_le (by rw [List.length_map, List.length_append, List.length_singleton]; omega)
          rw [e1, e2, if_pos (by rw [List.length_map]; omega)]
          have e3 : (seen.map fun m => P m.key)[i]? = some (P m.key) := by
            rw [List.getElem?_map, List.getElem?_eq_getElem hi, hsm]; rfl
          rw [e3, List.map_append]
          rfl
        · rw [if_neg (by rw [List.length_take, List.length_map]; omega), List.map_append,
            List.take_append_of_le_length (by rw [List.length_map]; omega)]
      · intro b' R hlen
        obtain ⟨R', hr, hr1, hr2⟩ := hrb b' R fun m hm => hlen m (by simp [hm])
        refine ⟨R', ?_, ?_, ?_⟩
        · rw [readBack, hf]
          exact hr
        · intro n hn hns
          rcases List.mem_cons.1 hn with rfl | hn
          · exact absurd hk (hns _ hmem)
          · refine hr1 n hn fun s hs => hns s (hm' s hs)
        · intro k hk'
          refine hr2 k ?_
          rcases hk' with hk' | hk'
          · exact .inl (by rw [List.map_append]; exact List.mem_append_left _ hk')
          · exact .inr fun hh => hk' (by rw [List.map_cons]; exact List.mem_cons_of_mem _ hh)
    | none =>
      rw [hf] at h
      dsimp only at h
      have hnew : ∀ s ∈ seen, s.key ≠ m.key := by
        intro s hs e
        have := List.findIdx?_eq_none_iff.1 hf s hs
        simp [e] at this
      have hatm : At b exec epoch L p m := ⟨_, by rw [h, List.append_assoc]⟩
      obtain ⟨r1, r2, r3, r4, r5⟩ := hatm.read (hl m (by simp))
      have hnext : nextPos b p = p + (88 + (L m.key).data.length + (GROWTH + pad8 (L m.key).data.length) + 8) := by
        unfold nextPos
        rw [r4, alignUp_eq hp]
      have hd : b.drop (nextPos b p) = putAccounts exec epoch L (seen ++ [m]) ms ++ t := by
        rw [hnext, ← List.drop_drop, h, ← putAccount_length (ex := exec m.key) (epoch := epoch), List.append_assoc,
          List.drop_left]
      have h8 : 8 ∣ nextPos b p := by
        unfold nextPos
        exact alignUp_dvd _
      have hP : ∀ s ∈ seen, (if s.key = m.key then p else P s.key) = P s.key := fun s hs => if_neg (hnew s hs)
      rw [List.length_cons] at hn
      obtain ⟨Q, e, hQ, hg, he, hatQ, hsepQ, hrb⟩ := ih (seen ++ [m]) (fun k => if k = m.key then p else P k) (nextPos b p)
        hd h8 (by rw [List.length_append, List.length_singleton]; omega) (by rw [← happ]; exact hl)
        (by rw [← happ]; exact hc)
        (by
          intro s hs
          rcases List.mem_append.1 hs with hs | hs
          · rw [hP s hs]
            exact ⟨(hat s hs).1, by have := (hat s hs).2; omega⟩
          · rw [List.mem_singleton.1 hs]
            rw [if_pos rfl]
            exact ⟨hatm, by omega⟩)
        (by
          intro s hs r hr hne
          unfold Separate
          dsimp only
          rcases List.mem_append.1 hs with hs | hs <;> rcases List.mem_append.1 hr with hr | hr
          · rw [hP s hs, hP r hr]
            exact hsep s hs r hr hne
          · rw [hP s hs, List.mem_singleton.1 hr, if_pos rfl]
            have := (hat s hs).2
            omega
          · rw [hP r hr, List.mem_singleton.1 hs, if_pos rfl]
            have := (hat r hr).2
            omega
          · rw [List.mem_singleton.1 hr, List.mem_singleton.1 hs] at hne
            exact absurd rfl hne)
      have hQm : Q m.key = p := by
        rw [hQ m (by simp), if_pos rfl]
      refine ⟨Q, e, fun s hs => by rw [hQ s (by simp [hs]), hP s hs], ?_, he, by rw [happ]; exact hatQ,
        by rw [happ]; exact hsepQ, ?_⟩
      · rw [List.length_cons, getAccounts, if_pos r1, happ, ← hg, MAX_TX_ACCOUNTS]
        congr 1
        have em : (seen.map fun s => if s.key = m.key then p else P s.key) = seen.map fun s => P s.key :=
          List.map_congr_left hP
        rw [List.map_append, em]
        have e4 : ([m].map fun s => if s.key = m.key then p else P s.key) = [p] := by simp
        rw [e4]
        by_cases h254 : seen.length < 254
        · rw [if_pos (by rw [List.length_take, List.length_map]; omega),
            List.take_of_length_le (l := seen.map _) (by rw [List.length_map]; omega),
            List.take_of_length_le (by rw [List.length_append, List.length_map, List.length_singleton]; omega)]
        · rw [if_neg (by rw [List.length_take, List.length_map]; omega),
            List.take_append_of_le_length (by rw [List.length_map]; omega)]
      · intro b' R hlen
        obtain ⟨R', hr, hr1, hr2⟩ := hrb b' (R.set m.key (infoAccount b' p)) fun m hm => hlen m (by simp [hm])
        refine ⟨R', ?_, ?_, ?_⟩
        · have hle := hlen m (by simp)
          rw [hQm] at hle
          rw [readBack, hf]
          dsimp only
          rw [if_neg (by omega), ← hr, hnext]
          congr 1
          omega
        · intro n hn hns
          by_cases e : n.key = m.key
          · rw [e, hQm, hr2 m.key (.inl (by simp)), Ledger.set_same]
          · rcases List.mem_cons.1 hn with rfl | hn
            · exact absurd rfl e
            · refine hr1 n hn fun s hs => ?_
              rcases List.mem_append.1 hs with hs | hs
              · exact hns s hs
              · rw [List.mem_singleton.1 hs]; exact fun h => e h.symm
        · intro k hk'
          have hkm : k ≠ m.key := by
            rintro rfl
            rcases hk' with hk' | hk'
            · obtain ⟨s, hs, e⟩ := List.mem_map.1 hk'
              exact hnew s hs e
            · exact hk' (by simp)
          rw [hr2 k ?_, Ledger.set_other _ _ hkm]
          rcases hk' with hk' | hk'
          · exact .inl (by rw [List.map_append]; exact List.mem_append_left _ hk')
          · exact .inr fun hh => hk' (by rw [List.map_cons]; exact List.mem_cons_of_mem _ hh)

/-- The whole block, read by the program; and how the runtime reads it back. -/
theorem getInput_put {ms : List Meta} {data : Bytes} {pid : Pubkey} (hn : ms.length ≤ 255)
    (hl : ∀ m ∈ ms, (L m.key).data.length < 2 ^ 64) (hc : ∀ m ∈ ms, ∀ n ∈ ms, m.key = n.key → m = n)
    (hd : data.length < 2 ^ 64) : ∃ P : Pubkey → Nat,
    getInput (putInput exec epoch L ms data pid) = some ((ms.map fun m => P m.key).take 254, data, pid) ∧
    (∀ m ∈ ms, At (putInput exec epoch L ms data pid) exec epoch L (P m.key) m) ∧
    (∀ m ∈ ms, ∀ n ∈ ms, m.key ≠ n.key → Separate P (fun k => (L k).data.length + GROWTH) m.key n.key) ∧
    ∀ (b' : Bytes), (∀ m ∈ ms, infoLen b' (P m.key) ≤ (L m.key).data.length + GROWTH) →
      ∃ R', readBack b' L [] 8 ms L = some R' ∧ (∀ m ∈ ms, R' m.key = infoAccount b' (P m.key)) ∧
        ∀ k, k ∉ ms.map (·.key) → R' k = L k := by
  have h0 : (putInput exec epoch L ms data pid).drop 8 =
      putAccounts exec epoch L [] ms ++ (u64le (UInt64.ofNat data.length) ++ data ++ pid.bytes) := by
    unfold putInput
    simp only [List.append_assoc]
    rw [List.drop_left' (by simp)]
  obtain ⟨P, e, -, hg, he, hat, hsep, hrb⟩ := walk ms [] (fun _ => 0) 8 h0 (by omega) (by simpa using hn)
    (by simpa using hl) (by simpa using hc) (by simp) (by simp)
  have h1 : readU64 (putInput exec epoch L ms data pid) 0 = UInt64.ofNat ms.length := by
    unfold putInput
    iterate 4 rw [readU64_append_left (by simp)]
    exact readU64_append_right (a := []) rfl
  have h2 : readU64 (putInput exec epoch L ms data pid) e = UInt64.ofNat data.length := by
    have := readU64_drop (d := putInput exec epoch L ms data pid) (p := e) (o := 0)
    rw [Nat.add_zero] at this
    rw [← this, he]
    iterate 2 rw [readU64_append_left (by simp)]
    exact readU64_append_right (a := []) rfl
  refine ⟨P, ?_, by simpa using hat, by simpa using hsep, fun b' hb => ?_⟩
  · unfold getInput
    rw [h1, UInt64.toNat_ofNat_of_lt' (by change _ < 2 ^ 64; omega)]
    have hg' : getAccounts (putInput exec epoch L ms data pid) ms.length 8 [] =
      some ((ms.map fun m => P m.key).take 254, e) := by simpa using hg
    rw [hg']
    dsimp only
    rw [h2, UInt64.toNat_ofNat_of_lt' (by exact hd)]
    have h3 : slice (putInput exec epoch L ms data pid) (e + 8) data.length = data := by
      rw [← slice_drop, he, slice_append_left (by simp), slice_append_right (by simp) rfl]
    have h4 : readKey (putInput exec epoch L ms data pid) (e + 8 + data.length) = pid := by
      rw [Nat.add_assoc, ← readKey_drop, he, readKey_append_right (by simp)]
    rw [h3, h4]
  · obtain ⟨R', hr, hr1, hr2⟩ := hrb b' L hb
    exact ⟨R', hr, fun m hm => hr1 m hm (by simp), fun k hk => hr2 k (.inr hk)⟩

/-! ### No account grows by much -/

theorem short_createAccountSecure {x : Ctx} {c : Caller} {L' : Ledger} {f k o : Pubkey} {n : Nat} (hn : n ≤ 2048)
    (h : createAccountSecure x c L f k n o = .ok L') : Short L L' := by
  unfold createAccountSecure at h
  split at h
  · cases h; exact short_refl _
  · simp only at h
    split at h
    · exact short_createAccount hn h
    · generalize (if (x.rentMin n).toNat ≤ (L k).lamports.toNat then (0 : UInt64) else x.rentMin n - (L k).lamports) = v at h
      split at h
      all_goals
        simp only [bind_eq_ok] at h
        obtain ⟨A, hA, B, hB, hC⟩ := h
      · exact (short_systemTransfer hA).trans ((short_allocate hn hB).trans (short_assign hC))
      · cases hA
        exact (short_allocate hn hB).trans (short_assign hC)

theorem short_createRecord {x : Ctx} {c : Caller} {L' : Ledger} {f k : Pubkey}
    (h : createPendingWithdrawSecure x c L f k = .ok L') : Short L L' := by
  unfold createPendingWithdrawSecure at h
  simp only [bind_eq_ok, Except.ok.injEq] at h
  obtain ⟨A, hA, d, hd, rfl⟩ := h
  exact (short_createAccountSecure (by decide) hA).trans (short_setData (by rw [setByte0_len hd]; exact le_max_left _ _))

theorem short_createState {x : Ctx} {c : Caller} {L' : Ledger} {f k : Pubkey} {s : State}
    (h : createStateBorsh x c L f k s = .ok L') : Short L L' := by
  unfold createStateBorsh at h
  simp only [bind_eq_ok, exists_unit, ensure_eq_ok, Except.ok.injEq] at h
  obtain ⟨A, hA, hd, rfl⟩ := h
  refine (short_createAccountSecure (by decide) hA).trans (short_setData ?_)
  rw [writeAt_length (by omega)]
  exact le_max_left _ _

theorem short_close {L' : Ledger} {k r : Pubkey} (h : closeProgramAccount L k r = .ok L') : Short L L' := by
  unfold closeProgramAccount at h
  simp only [bind_eq_ok, Except.ok.injEq] at h
  obtain ⟨d, hd, rfl⟩ := h
  intro j
  by_cases hj : j = k
  · subst hj; simp
  · rw [Ledger.set_other _ _ hj, Ledger.setData_other _ _ hj, Ledger.setLamports_other _ _ hj]
    by_cases hr : j = r
    · subst hr
      simp only [Ledger.setLamports, Ledger.set_same, Ledger.setData_other _ _ hj]
      exact le_max_left _ _
    · rw [Ledger.setLamports_other _ _ hr, Ledger.setData_other _ _ hj]
      exact le_max_left _ _

theorem record_len (d : Bytes) (bump i : UInt8) (u : Pubkey) (w : UInt64) (ts : Int64) :
    (setPwTimestamp (setPwAmount (setPwUnstaker (setPwIndex (setPwBump d bump) i) u) w) ts).length ≤ max d.length 2048 := by
  simp only [setPwTimestamp, setPwAmount, setPwUnstaker, setPwIndex, setPwBump, pwOff_2, pwOff_3, pwOff_4, pwOff_5, pwOff_6]
  have a1 := writeAt_le (d := d) (b := [bump]) (o := 6) (n := 1024) (by simp)
  have a2 := writeAt_le (d := writeAt d 6 [bump]) (b := [i]) (o := 7) (n := 1024) (by simp)
  have a3 := writeAt_le (d := writeAt (writeAt d 6 [bump]) 7 [i]) (b := u.bytes) (o := 8) (n := 1024)
    (by rw [u.len]; decide)
  have a4 := writeAt_le (d := writeAt (writeAt (writeAt d 6 [bump]) 7 [i]) 8 u.bytes) (b := u64le w) (o := 40)
    (n := 1024) (by simp)
  have a5 := writeAt_le (d := writeAt (writeAt (writeAt (writeAt d 6 [bump]) 7 [i]) 8 u.bytes) 40 (u64le w))
    (b := i64le ts) (o := 48) (n := 1024) (by simp)
  omega

/-- No call makes an account longer than it was or than 2048 bytes. -/
theorem dispatch_short {x : Ctx} {accs : List Meta} {ix : Instruction} {L' : Ledger} {logs : List Bytes}
    (h : dispatch x L accs ix = .ok (L', logs)) : Short L L' := by
  cases ix with
  | Stake n =>
    obtain ⟨s, v, oa, xa, xm, st, om, tp, L1, m, r⟩ := processStake_run h
    exact (short_tokenTransfer r.transfer).trans (short_mintTo r.mint)
  | Unstake n i =>
    obtain ⟨u, st, pw, xa, xm, om, v, sp, tp, L1, L3, w, e, ts, b, r⟩ := processUnstake_run h
    rw [r.result]
    exact (short_burn r.burn).trans ((short_setData (setStEscrow_len _ _)).trans
      ((short_createRecord r.create).trans (short_setData (record_len _ _ _ _ _ _))))
  | Withdraw i =>
    obtain ⟨u, st, pw, oa, v, om, sp, tp, L1, L2, e, r⟩ := processWithdraw_run h
    rw [r.result]
    exact (short_tokenTransfer r.transfer).trans ((short_close r.close).trans (short_setData (setStEscrow_len _ _)))
  | Initialize c =>
    obtain ⟨p, au, st, v, xm, om, sp, tp, ap, L1, b, vb, r⟩ := processInitialize_run h
    exact (short_createState r.create).trans (short_createAta r.ata)
  | Set ins =>
    cases ins with
    | UpdateCoolDownPeriod c =>
      obtain ⟨a, st, r, -, rfl, -⟩ := processSet_coolDown_run h
      exact short_setData ((writeAt_le (n := 24) (by simp)).trans (by omega))
    | UpdateUpdateAuthority k =>
      obtain ⟨a, st, r, rfl, -⟩ := processSet_authority_run h
      exact short_setData ((writeAt_le (n := 56) (by rw [k.len])).trans (by omega))

/-! ### The call -/

theorem entry_rel {x : Ctx} {pid : Pubkey} {accs : List Meta} {data : Bytes} (h : Agree (accs.map (·.key)) L M) :
    RelR (RelOut (accs.map (·.key))) (entry x pid L accs data) (entry x pid M accs data) := by
  unfold entry
  exact .bind_val rfl fun _ _ => .bind_val rfl fun p _ => dispatch_rel h

theorem entry_ok {x : Ctx} {pid : Pubkey} {accs : List Meta} {data : Bytes} {o : Outcome}
    (h : entry x pid L accs data = .ok o) : ∃ ix, dispatch x L accs ix = .ok o := by
  unfold entry at h
  simp only [bind_eq_ok, exists_unit] at h
  obtain ⟨-, p, -, h⟩ := h
  exact ⟨p.1, h⟩

theorem entryByBlock_eq {x : Ctx} {pid : Pubkey} {ms : List Meta} {data : Bytes} (hn : ms.length ≤ 254)
    (hl : ∀ m ∈ ms, (L m.key).data.length < 2 ^ 64) (hc : ∀ m ∈ ms, ∀ n ∈ ms, m.key = n.key → m = n)
    (hd : data.length < 2 ^ 64) : entryByBlock x exec epoch pid L ms data = entry x pid L ms data := by
  obtain ⟨P, hg, hat, hsep, hrb⟩ := getInput_put (exec := exec) (epoch := epoch) (pid := pid) (by omega) hl hc hd
  unfold entryByBlock
  generalize putInput exec epoch L ms data pid = b at hg hat
  dsimp only
  rw [hg, List.take_of_length_le (by rw [List.length_map]; exact hn)]
  dsimp only
  have hread := fun m hm => (hat m hm).read (hl m hm)
  have hkey : ∀ m ∈ ms, infoKey b (P m.key) = m.key := fun m hm => congrArg Meta.key (hread m hm).2.1
  have hmetas : (ms.map fun m => P m.key).map (infoMeta b) = ms := by
    rw [List.map_map]
    conv_rhs => rw [← List.map_id ms]
    exact List.map_congr_left fun m hm => (hread m hm).2.1
  have hagree : Agree (ms.map (·.key)) (inputLedger b (ms.map fun m => P m.key)) L := by
    intro k hk
    obtain ⟨m, hm, rfl⟩ := List.mem_map.1 hk
    unfold inputLedger
    cases hf : (ms.map fun m => P m.key).find? (fun p => infoKey b p = m.key) with
    | none =>
      have := List.find?_eq_none.1 hf (P m.key) (List.mem_map.2 ⟨m, hm, rfl⟩)
      simp [hkey m hm] at this
    | some p =>
      dsimp only
      have h1 := List.find?_some hf
      obtain ⟨n, hn, rfl⟩ := List.mem_map.1 (List.mem_of_find?_eq_some hf)
      have h2 : n.key = m.key := by
        have := of_decide_eq_true h1
        rwa [hkey n hn] at this
      rw [(hread n hn).2.2.1, h2]
  rw [hmetas]
  have hrel := entry_rel (x := x) (pid := pid) (data := data) hagree
  cases hL : entry x pid L ms data with
  | error e =>
    rw [hL] at hrel
    generalize entry x pid (inputLedger b (ms.map fun m => P m.key)) ms data = q at hrel
    cases hrel
    rfl
  | ok o =>
    obtain ⟨L', logs⟩ := o
    rw [hL] at hrel
    generalize entry x pid (inputLedger b (ms.map fun m => P m.key)) ms data = q at hrel
    cases hrel with
    | @ok o' _ hr =>
      obtain ⟨M, logs'⟩ := o'
      obtain ⟨rfl, ha⟩ := hr
      dsimp only at ha ⊢
      obtain ⟨ix, hix⟩ := entry_ok hL
      have hM : ∀ m ∈ ms, M m.key = L' m.key := fun m hm => ha _ (List.mem_map.2 ⟨m, hm, rfl⟩)
      have hroom : ∀ m ∈ ms, (M m.key).data.length ≤ (L m.key).data.length + GROWTH ∧ (M m.key).data.length < 2 ^ 64 := by
        intro m hm
        have h1 := dispatch_short hix m.key
        have h2 := hl m hm
        rw [hM m hm]
        unfold GROWTH
        omega
      have hst := storeAll_read (M := M) (P := P) (c := fun k => (L k).data.length + GROWTH) ms (fun _ h => h) hsep hroom b []
        (by simp) (fun m hm => (hread m hm).2.2.2.2) hkey (by simp)
      rw [List.nil_append] at hst
      obtain ⟨R', hr, hr1, hr2⟩ := hrb (storeAll b M (ms.map fun m => P m.key)) fun m hm => by
        rw [(hst m hm).2]
        exact (hroom m hm).1
      rw [hr]
      dsimp only
      have hR : R' = L' := by
        funext k
        by_cases hk : k ∈ ms.map (·.key)
        · obtain ⟨m, hm, rfl⟩ := List.mem_map.1 hk
          rw [hr1 m hm, (hst m hm).1, hM m hm]
        · rw [hr2 k hk, dispatch_frame hix hk]
      rw [hR]

end Xorca
