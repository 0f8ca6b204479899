import Verif.Lemmas.Input
import Verif.Lemmas.DemoCalls
/-
C111: the block of memory through which the runtime hands accounts to the program and takes them back.
-/
namespace Xorca
open Spec

variable {x : Ctx} {L L' : Ledger} {ms : List Meta} {data : Bytes} {pid : Pubkey} {exec : Pubkey → Bool} {epoch : UInt64}

/-- What the program reads from the block is what the runtime put into it: the accounts in the order of the list, up to
254 of them, each with its key, flags, owner, lamports and data; the instruction data; the program id.  Two entries of the
list are one and the same account in memory exactly if they have the same key. -/
theorem C111_read_as_written (hn : ms.length ≤ 255) (hl : ∀ m ∈ ms, (L m.key).data.length < 2 ^ 64)
    (hc : ∀ m ∈ ms, ∀ n ∈ ms, m.key = n.key → m = n) (hd : data.length < 2 ^ 64) :
    ∃ ps, getInput (putInput exec epoch L ms data pid) = some (ps, data, pid) ∧ ps.length = min ms.length 254 ∧
      (∀ (i : Nat) (m : Meta) (p : Nat), ms[i]? = some m → ps[i]? = some p → infoMeta (putInput exec epoch L ms data pid) p = m ∧
        infoAccount (putInput exec epoch L ms data pid) p = L m.key) ∧
      ∀ (i j : Nat) (m n : Meta) (p q : Nat), ms[i]? = some m → ms[j]? = some n → ps[i]? = some p → ps[j]? = some q → (p = q ↔ m.key = n.key) := by
  obtain ⟨P, hg, hat, -, -⟩ := getInput_put (exec := exec) (epoch := epoch) (pid := pid) hn hl hc hd
  have key : ∀ (i : Nat) (m : Meta) (p : Nat), ms[i]? = some m → ((ms.map fun m => P m.key).take 254)[i]? = some p → p = P m.key := by
    intro i m p h1 h2
    rw [List.getElem?_take] at h2
    split at h2
    · rw [List.getElem?_map, h1] at h2
      exact (Option.some.inj h2).symm
    · cases h2
  have hread := fun m hm => (hat m hm).read (hl m hm)
  refine ⟨_, hg, by rw [List.length_take, List.length_map, Nat.min_comm], ?_, ?_⟩
  · intro i m p h1 h2
    rw [key i m p h1 h2]
    exact ⟨(hread m (List.mem_of_getElem? h1)).2.1, (hread m (List.mem_of_getElem? h1)).2.2.1⟩
  · intro i j m n p q h1 h2 h3 h4
    rw [key i m p h1 h3, key j n q h2 h4]
    refine ⟨fun e => ?_, fun e => by rw [e]⟩
    have h5 := (hread m (List.mem_of_getElem? h1)).2.1
    have h6 := (hread n (List.mem_of_getElem? h2)).2.1
    rw [e] at h5
    rw [← h5, h6]

/-- The accounts of an Unstake with the first account once more at the end: the pointers at 0 and 9 are the same. -/
example : ∃ ps, getInput (putInput (fun _ => false) 0 Demo.L4 (Demo.unstakeAccs Demo.R255 ++ [⟨Demo.US, true, true⟩])
    [1, 2] PROGRAM_ID) = some (ps, [1, 2], PROGRAM_ID) ∧ ps.length = 10 ∧ ps[0]? = ps[9]? ∧ ps[0]? ≠ ps[1]? := by
  obtain ⟨ps, h1, h2, -, h4⟩ := C111_read_as_written (exec := fun _ => false) (epoch := 0) (L := Demo.L4)
    (ms := Demo.unstakeAccs Demo.R255 ++ [⟨Demo.US, true, true⟩]) (data := [1, 2]) (pid := PROGRAM_ID) (by decide)
    (by decide +kernel) (by decide +kernel) (by decide)
  have hlen : ps.length = 10 := h2
  have g : ∀ i, i < 10 → ∃ p, ps[i]? = some p := fun i hi => ⟨ps[i], List.getElem?_eq_getElem (by omega)⟩
  obtain ⟨p, hp⟩ := g 0 (by omega)
  obtain ⟨q, hq⟩ := g 1 (by omega)
  obtain ⟨r, hr⟩ := g 9 (by omega)
  refine ⟨ps, h1, hlen, ?_, ?_⟩
  · rw [hp, hr, (h4 0 9 _ _ p r rfl rfl hp hr).2 rfl]
  · rw [hp, hq]
    intro e
    have := (h4 0 1 _ _ p q rfl rfl hp hq).1 (Option.some.inj e)
    revert this
    decide +kernel

/-- Writing through one pointer, with up to 10240 bytes more of data than before, is seen through that pointer and changes
nothing that is seen through the pointer of another account. -/
theorem C111_writes_do_not_interfere (hn : ms.length ≤ 254) (hl : ∀ m ∈ ms, (L m.key).data.length < 2 ^ 32)
    (hc : ∀ m ∈ ms, ∀ n ∈ ms, m.key = n.key → m = n) (hd : data.length < 2 ^ 64) {ps : List Nat} {b d : Bytes} {id : Pubkey}
    (hb : b = putInput exec epoch L ms data pid) (hg : getInput b = some (ps, d, id)) {i j : Nat} {m n : Meta} {p q : Nat}
    (hm : ms[i]? = some m) (hn' : ms[j]? = some n) (hp : ps[i]? = some p) (hq : ps[j]? = some q) (hne : m.key ≠ n.key)
    {a : Account} (ha : a.data.length ≤ (L m.key).data.length + 10240) :
    infoAccount (storeAccount b p a) p = a ∧ infoMeta (storeAccount b p a) p = m ∧
    infoAccount (storeAccount b p a) q = L n.key ∧ infoMeta (storeAccount b p a) q = n := by
  have hl' : ∀ m ∈ ms, (L m.key).data.length < 2 ^ 64 := fun m hm => (hl m hm).trans (by decide)
  obtain ⟨P, hg', hat, hsep, -⟩ := getInput_put (exec := exec) (epoch := epoch) (pid := pid) (data := data) (by omega) hl' hc hd
  rw [← hb] at hg' hat
  rw [hg', List.take_of_length_le (by rw [List.length_map]; exact hn)] at hg
  obtain ⟨rfl, rfl, rfl⟩ : (ms.map fun m => P m.key) = ps ∧ data = d ∧ pid = id := by
    simpa using hg
  rw [List.getElem?_map, hm] at hp
  rw [List.getElem?_map, hn'] at hq
  cases hp
  cases hq
  dsimp only
  have m1 := List.mem_of_getElem? hm
  have m2 := List.mem_of_getElem? hn'
  obtain ⟨-, r2, r3, r4, r5⟩ := (hat m m1).read (hl' m m1)
  obtain ⟨-, s2, s3, s4, s5⟩ := (hat n m2).read (hl' n m2)
  have hfit : P m.key + 88 + a.data.length ≤ b.length := by
    unfold GROWTH at r5
    omega
  have hs := hsep m m1 n m2 hne
  unfold Separate GROWTH at hs
  dsimp only at hs
  have meta_same : ∀ r, (∀ o k, r + 1 ≤ o → o + k ≤ r + 40 → slice (storeAccount b (P m.key) a) o k = slice b o k) →
      infoMeta (storeAccount b (P m.key) a) r = infoMeta b r := by
    intro r h
    unfold infoMeta infoKey infoSigner infoWritable readKey
    rw [readU8_eq_slice, readU8_eq_slice, readU8_eq_slice, readU8_eq_slice, h _ _ (by omega) (by omega),
      h _ _ (by omega) (by omega), h _ _ (by omega) (by omega)]
  refine ⟨(storeAccount_read hfit (by have := hl m m1; omega)).1, ?_, ?_, ?_⟩
  · rw [meta_same _ fun o k h1 h2 => storeAccount_slice hfit (by omega), r2]
  · rw [(info_same (b := b) fun o k h1 h2 => storeAccount_slice hfit (by omega)).1, s3]
  · rw [meta_same _ fun o k h1 h2 => storeAccount_slice hfit (by omega), s2]

/-- The state and the record of an Unstake; the record grows from nothing to 1024 bytes. -/
example {ps : List Nat} {d : Bytes} {id : Pubkey} {p q : Nat}
    (hg : getInput (putInput (fun _ => false) 0 Demo.L4 (Demo.unstakeAccs Demo.R255) [1, 2] PROGRAM_ID) = some (ps, d, id))
    (hp : ps[2]? = some p) (hq : ps[1]? = some q) :
    infoAccount (storeAccount (putInput (fun _ => false) 0 Demo.L4 (Demo.unstakeAccs Demo.R255) [1, 2] PROGRAM_ID) p
      (Demo.L5 Demo.R255)) q = Demo.L4 Demo.ST :=
  (C111_writes_do_not_interfere (ms := Demo.unstakeAccs Demo.R255) (i := 2) (j := 1) (by decide) (by decide +kernel)
    (by decide +kernel) (by decide) rfl hg rfl rfl hp hq (by decide +kernel) (by decide +kernel)).2.2.1

/-- No call makes an account longer than 2048 bytes that was not: the room for growth in the block is never used up. -/
theorem C111_little_growth {ix : Instruction} {logs : List Bytes} (h : Runs x L ms ix L' logs) (k : Pubkey) :
    (L' k).data.length ≤ max (L k).data.length 2048 :=
  dispatch_short h.dispatch k

/-- The record of an Unstake. -/
example : (Demo.L5 Demo.R255).data.length = 1024 ∧ (Demo.L4 Demo.R255).data.length = 0 ∧
    (Demo.L5 Demo.R255).data.length ≤ max (Demo.L4 Demo.R255).data.length 2048 :=
  ⟨by decide +kernel, by decide +kernel, C111_little_growth Demo.run5 Demo.R255⟩

/-- The runtime writes the block, the program reads its accounts and arguments from it, runs and writes the accounts back,
and the runtime takes them over: all this has exactly the outcome of the call on the ledger, in every case. -/
theorem C111_same_as_on_the_ledger (hn : ms.length ≤ 254) (hl : ∀ m ∈ ms, (L m.key).data.length < 2 ^ 64)
    (hc : ∀ m ∈ ms, ∀ n ∈ ms, m.key = n.key → m = n) (hd : data.length < 2 ^ 64) :
    entryByBlock x exec epoch pid L ms data = entry x pid L ms data :=
  entryByBlock_eq hn hl hc hd

/-- An Unstake and a Withdraw. -/
example : entryByBlock (Demo.ctx 1003) (fun _ => false) 0 PROGRAM_ID Demo.L4 (Demo.unstakeAccs Demo.R255)
    (1 :: u64le 600000 ++ [255]) = .ok (Demo.L5, Demo.logs5) := by
  rw [C111_same_as_on_the_ledger (by decide) (by decide +kernel) (by decide +kernel) (by decide),
    entry_eq (ix := .Unstake 600000 255) (by decide +kernel), Demo.run5.dispatch]
example : entryByBlock (Demo.ctx 1103) (fun _ => true) 5 PROGRAM_ID Demo.L8 (Demo.withdrawAccs Demo.R255) [2, 255] =
    .ok (Demo.L9, Demo.logs9) := by
  rw [C111_same_as_on_the_ledger (by decide) (by decide +kernel) (by decide +kernel) (by decide),
    entry_eq (ix := .Withdraw 255) (by decide +kernel), Demo.run9.dispatch]

/-- The room for growth is limited: a block in which an account has grown by more than 10240 bytes is refused. -/
theorem C111_growth_refused {m : Meta} {rest : List Meta} {b : Bytes} {R : Ledger}
    (h : (L m.key).data.length + 10240 < (readU64 b 88).toNat) : readBack b L [] 8 (m :: rest) R = none := by
  unfold readBack
  exact if_pos h

example : readBack (List.replicate 88 0 ++ u64le 10241 ++ List.replicate 20000 0) (fun _ => ⟨0, SYSTEM_PROGRAM_ID, []⟩) [] 8
    [⟨Demo.US, true, true⟩] Demo.L4 = none :=
  C111_growth_refused (by
    rw [readU64_append_left (by simp), readU64_append_right (by simp)]
    decide)

end Xorca
