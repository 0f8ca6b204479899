import Verif.Work
import Verif.Lemmas.Codes
/-
Lemmas about traces: the result is that of the plain model, and what a chain of steps adds up to.
-/
namespace Xorca
open Spec

variable {α β : Type} {cr : Crypto} {x : Ctx} {L : Ledger} {accs : List Meta}

/-! ### The result -/

theorem result_bind {p : Traced α} {f : α → Traced β} {r : Res α} {g : α → Res β} (h1 : p.result = r)
    (h2 : ∀ a, (f a).result = g a) : (p >>= f).result = r >>= g := by
  subst h1
  show (Traced.andThen p f).result = _
  unfold Traced.andThen
  cases h : p.result with
  | ok a => exact h2 a
  | error e => rfl

theorem result_signer (seeds : List Bytes) (b : UInt8) : (signer cr seeds b).result = signerPda cr seeds b := by
  unfold signer
  cases h : signerPda cr seeds b <;> rfl

theorem result_seeds (a : Meta) (p : Pubkey) (seeds : List Bytes) :
    (assertAccountSeedsT cr a p seeds).result = assertAccountSeeds cr a p seeds := by
  unfold assertAccountSeedsT assertAccountSeeds
  refine result_bind rfl fun ⟨_, _⟩ => ?_
  exact result_bind rfl fun _ => rfl

theorem result_create (c : Caller) (f n : Pubkey) (s : Nat) (o : Pubkey) :
    (createAccountSecureT x c L f n s o).result = createAccountSecure x c L f n s o := by
  unfold createAccountSecureT createAccountSecure
  split
  · rfl
  · dsimp only
    split
    · rfl
    · rw [apply_ite Traced.result]
      exact if_congr Iff.rfl (result_bind rfl fun _ => result_bind rfl fun _ => rfl)
        (result_bind rfl fun _ => result_bind rfl fun _ => rfl)

theorem result_createRecord (c : Caller) (f n : Pubkey) :
    (createPendingWithdrawSecureT x c L f n).result = createPendingWithdrawSecure x c L f n := by
  unfold createPendingWithdrawSecureT createPendingWithdrawSecure
  exact result_bind (result_create ..) fun _ => result_bind rfl fun _ => rfl

theorem result_createState (c : Caller) (f n : Pubkey) (s : State) :
    (createStateBorshT x c L f n s).result = createStateBorsh x c L f n s := by
  unfold createStateBorshT createStateBorsh
  exact result_bind (result_create ..) fun _ => result_bind rfl fun _ => rfl

/-- One step after the other. -/
macro "same_steps" : tactic =>
  `(tactic| repeat' first
    | refine result_bind (result_signer ..) fun _ => ?_
    | refine result_bind (result_seeds ..) fun _ => ?_
    | refine result_bind (result_createRecord ..) fun _ => ?_
    | refine result_bind (result_createState ..) fun _ => ?_
    | refine result_bind (p := searching ..) rfl fun ⟨_, _⟩ => ?_
    | refine result_bind rfl fun _ => ?_
    | rfl)

theorem result_stake (a : UInt64) : (processStakeT x L accs a).result = processStake x L accs a := by
  unfold processStakeT processStake
  same_steps

theorem result_unstake (a : UInt64) (i : UInt8) : (processUnstakeT x L accs a i).result = processUnstake x L accs a i := by
  unfold processUnstakeT processUnstake
  same_steps

theorem result_withdraw (i : UInt8) : (processWithdrawT x L accs i).result = processWithdraw x L accs i := by
  unfold processWithdrawT processWithdraw
  same_steps

theorem result_set (u : StateUpdateInstruction) : (processSetT x L accs u).result = processSet x L accs u := by
  unfold processSetT processSet
  cases u <;> same_steps

theorem result_initialize (c : Int64) : (processInitializeT x L accs c).result = processInitialize x L accs c := by
  unfold processInitializeT processInitialize
  iterate 12 refine result_bind rfl fun _ => ?_
  refine result_bind (result_seeds ..) fun _ => ?_
  iterate 21 refine result_bind rfl fun _ => ?_
  refine result_bind (p := searching ..) rfl fun ⟨_, _⟩ => ?_
  refine result_bind (result_seeds ..) fun _ => result_bind rfl fun _ => ?_
  generalize State.default = s0
  exact result_bind (result_signer ..) fun _ => result_bind (result_createState ..) fun _ => result_bind rfl fun _ => rfl

theorem result_dispatch (ix : Instruction) : (dispatchT x L accs ix).result = dispatch x L accs ix := by
  cases ix
  · exact result_stake _
  · exact result_unstake _ _
  · exact result_withdraw _
  · exact result_initialize _
  · exact result_set _

/-! ### At most -/

theorem hashes_append (s t : List Op) : hashes (s ++ t) = hashes s + hashes t := List.count_append
theorem callees_append (s t : List Op) : callees (s ++ t) = callees s ++ callees t := List.filterMap_append
theorem logged_append (s t : List Op) : logged (s ++ t) = logged s + logged t := List.count_append

/-- At most `n` hashes, and no calls but those of `l`, in this order. -/
def Within (p : Traced α) (n : Nat) (l : List Pubkey) : Prop := hashes p.trace ≤ n ∧ (callees p.trace).Sublist l

theorem Within.bind {p : Traced α} {f : α → Traced β} {n m : Nat} {l k : List Pubkey} (h1 : Within p n l)
    (h2 : ∀ a, Within (f a) m k) : Within (p >>= f) (n + m) (l ++ k) := by
  show Within (Traced.andThen p f) _ _
  unfold Traced.andThen Within
  cases p.result with
  | ok a =>
    obtain ⟨b1, b2⟩ := h2 a
    refine ⟨?_, ?_⟩
    · show hashes (_ ++ _) ≤ _
      rw [hashes_append]; have := h1.1; omega
    · show (callees (_ ++ _)).Sublist _
      rw [callees_append]; exact h1.2.append b2
  | error e => exact ⟨Nat.le_add_right_of_le h1.1, h1.2.trans (List.sublist_append_left _ _)⟩

theorem Within.plain {r : Res α} {f : α → Traced β} {m : Nat} {k : List Pubkey} (h : ∀ a, Within (f a) m k) :
    Within (plainly r >>= f) m k := by
  have := Within.bind (p := plainly r) (n := 0) (l := []) ⟨Nat.le_refl _, List.Sublist.refl _⟩ h
  rwa [Nat.zero_add] at this

theorem Within.hash {r : Res α} {f : α → Traced β} {m : Nat} {k : List Pubkey} (h : ∀ a, Within (f a) m k) :
    Within (hashing r >>= f) (1 + m) k :=
  Within.bind (p := hashing r) (n := 1) (l := []) ⟨Nat.le_refl _, List.Sublist.refl _⟩ h

theorem Within.call {P : Pubkey} {r : Res α} {f : α → Traced β} {m : Nat} {k : List Pubkey}
    (h : ∀ a, Within (f a) m k) : Within (calling P r >>= f) m (P :: k) := by
  have := Within.bind (p := calling P r) (n := 0) (l := [P]) ⟨Nat.le_refl _, List.Sublist.refl _⟩ h
  rwa [Nat.zero_add] at this

theorem Within.signed {P : Pubkey} {r : Res α} {f : α → Traced β} {m : Nat} {k : List Pubkey}
    (h : ∀ a, Within (f a) m k) : Within (callingSigned P r >>= f) (1 + m) (P :: k) :=
  Within.bind (p := callingSigned P r) (n := 1) (l := [P]) ⟨Nat.le_refl _, List.Sublist.refl _⟩ h

theorem Within.emit {e : Event} {f : List Bytes → Traced β} {m : Nat} {k : List Pubkey} (h : ∀ a, Within (f a) m k) :
    Within (emitting e >>= f) m k := by
  have := Within.bind (p := emitting e) (n := 0) (l := []) ⟨Nat.le_refl _, List.Sublist.refl _⟩ h
  rwa [Nat.zero_add] at this

theorem Within.done (a : α) : Within (pure a) 0 [] := ⟨Nat.le_refl _, List.Sublist.refl _⟩

/-- A signer that cannot be derived costs no more than the call that would have followed. -/
theorem Within.signer {seeds : List Bytes} {b : UInt8} {f : Pubkey → Traced β} {m : Nat} {k : List Pubkey}
    (h : ∀ a, Within (f a) (1 + m) k) : Within (signer cr seeds b >>= f) (1 + m) k := by
  unfold Xorca.signer
  cases signerPda cr seeds b with
  | ok a =>
    show Within (Traced.andThen _ f) _ _
    exact h a
  | error e => exact ⟨Nat.le_add_right 1 m, List.nil_sublist _⟩

theorem attempts_le (seeds : List Bytes) (p : Pubkey) : ∀ n, attempts cr seeds p n ≤ n
  | 0 => Nat.le_refl 0
  | n + 1 => by
    unfold attempts
    have := attempts_le seeds p n
    split <;> omega

theorem toNat_bump {n : Nat} (h : n < 256) : (UInt8.ofNat n).toNat = n := by
  rw [UInt8.toNat_ofNat']; exact Nat.mod_eq_of_lt h

theorem findFrom_le {seeds : List Bytes} {p k : Pubkey} {b : UInt8} :
    ∀ n, n < 256 → findFrom cr seeds p n = some (k, b) → b.toNat ≤ n
  | 0, _, h => by simp [findFrom] at h
  | n + 1, hn, h => by
    unfold findFrom at h
    split at h
    · next a hc =>
      simp only [Option.some.injEq, Prod.mk.injEq] at h
      rw [← h.2, toNat_bump hn]
    · exact (findFrom_le n (by omega) h).trans (Nat.le_succ n)

/-- The number of attempts is seen in the bump that was found. -/
theorem attempts_bump {seeds : List Bytes} {p k : Pubkey} {b : UInt8} :
    ∀ n, n < 256 → findFrom cr seeds p n = some (k, b) → attempts cr seeds p n = n + 1 - b.toNat
  | 0, _, h => by simp [findFrom] at h
  | n + 1, hn, h => by
    unfold findFrom at h
    unfold attempts
    split at h
    · next a hc =>
      simp only [Option.some.injEq, Prod.mk.injEq] at h
      rw [hc, ← h.2, toNat_bump hn]
      simp
    · next hc =>
      rw [hc]
      have ih := attempts_bump n (by omega) h
      have hb := findFrom_le n (by omega) h
      simp only
      omega

theorem hashes_replicate (n : Nat) : hashes (List.replicate n Op.hash) = n := List.count_replicate_self
theorem callees_replicate (n : Nat) : callees (List.replicate n Op.hash) = [] := by
  induction n with
  | zero => rfl
  | succ n ih => rw [List.replicate_succ]; exact ih

theorem within_searching (seeds : List Bytes) (p : Pubkey) : Within (searching cr seeds p) 255 [] := by
  refine ⟨?_, ?_⟩
  · show hashes (List.replicate _ _) ≤ _
    rw [hashes_replicate]; exact attempts_le ..
  · show (callees (List.replicate _ _)).Sublist _
    rw [callees_replicate]

theorem within_seeds (a : Meta) (p : Pubkey) (seeds : List Bytes) : Within (assertAccountSeedsT cr a p seeds) 255 [] := by
  unfold assertAccountSeedsT
  refine Within.bind (m := 0) (k := []) (within_searching ..) fun ⟨_, _⟩ => ?_
  exact .plain fun _ => .done _

theorem within_create (c : Caller) (f n : Pubkey) (s : Nat) (o : Pubkey) : Within (createAccountSecureT x c L f n s o) 3
    [SYSTEM_PROGRAM_ID, SYSTEM_PROGRAM_ID, SYSTEM_PROGRAM_ID] := by
  unfold createAccountSecureT
  dsimp only
  generalize (if (x.rentMin s).toNat ≤ (L n).lamports.toNat then (0 : UInt64) else x.rentMin s - (L n).lamports) = t
  split
  · exact ⟨Nat.zero_le _, List.nil_sublist _⟩
  split
  · exact ⟨(by decide : 1 ≤ 3), (by decide : [SYSTEM_PROGRAM_ID].Sublist _)⟩
  have last : ∀ (L : Ledger), Within (callingSigned SYSTEM_PROGRAM_ID (cpiAssign c L n o)) 1 [SYSTEM_PROGRAM_ID] :=
    fun _ => ⟨Nat.le_refl _, List.Sublist.refl _⟩
  split
  · exact .signed fun _ => .signed fun _ => last _
  · have := Within.plain (r := (.ok L : Res Ledger)) fun L1 =>
      Within.signed (r := cpiAllocate c L1 n s) (P := SYSTEM_PROGRAM_ID) fun L2 => last L2
    exact ⟨Nat.le_trans this.1 (by decide), List.Sublist.trans this.2 (by decide)⟩

theorem within_createRecord (c : Caller) (f n : Pubkey) : Within (createPendingWithdrawSecureT x c L f n) 3
    [SYSTEM_PROGRAM_ID, SYSTEM_PROGRAM_ID, SYSTEM_PROGRAM_ID] := by
  unfold createPendingWithdrawSecureT
  exact Within.bind (within_create ..) fun _ => .plain fun _ => .done _

theorem within_createState (c : Caller) (f n : Pubkey) (s : State) : Within (createStateBorshT x c L f n s) 3
    [SYSTEM_PROGRAM_ID, SYSTEM_PROGRAM_ID, SYSTEM_PROGRAM_ID] := by
  unfold createStateBorshT
  exact Within.bind (within_create ..) fun _ => .plain fun _ => .done _

theorem within_stake (a : UInt64) :
    Within (processStakeT x L accs a) 3 [SPL_TOKEN_PROGRAM_ID, SPL_TOKEN_PROGRAM_ID] := by
  unfold processStakeT
  iterate 21 refine .plain fun _ => ?_
  refine .hash (m := 2) fun _ => .hash (m := 1) fun _ => ?_
  iterate 4 refine .plain fun _ => ?_
  exact .call fun _ => .signer (m := 0) fun _ => .signed (m := 0) fun _ => .emit fun _ => .done _

theorem within_unstake (a : UInt64) (i : UInt8) : Within (processUnstakeT x L accs a i) 260
    [SPL_TOKEN_PROGRAM_ID, SYSTEM_PROGRAM_ID, SYSTEM_PROGRAM_ID, SYSTEM_PROGRAM_ID] := by
  unfold processUnstakeT
  iterate 19 refine .plain fun _ => ?_
  refine Within.bind (n := 255) (m := 5) (l := []) (within_seeds ..) fun _ => ?_
  iterate 10 refine .plain fun _ => ?_
  refine .hash (m := 4) fun _ => .hash (m := 3) fun _ => ?_
  iterate 3 refine .plain fun _ => ?_
  refine .call fun _ => .plain fun _ => .plain fun _ => .signer (m := 2) fun _ => ?_
  exact Within.bind (n := 3) (m := 0) (k := []) (within_createRecord ..) fun _ =>
    .plain fun _ => .emit fun _ => .done _

theorem within_withdraw (i : UInt8) : Within (processWithdrawT x L accs i) 4 [SPL_TOKEN_PROGRAM_ID] := by
  unfold processWithdrawT
  iterate 14 refine .plain fun _ => ?_
  refine .hash (m := 3) fun _ => .hash (m := 2) fun _ => ?_
  iterate 3 refine .plain fun _ => ?_
  refine .hash (m := 1) fun _ => ?_
  iterate 6 refine .plain fun _ => ?_
  exact .signer (m := 0) fun _ => .signed (m := 0) fun _ => .plain fun _ => .plain fun _ => .plain fun _ =>
    .emit fun _ => .done _

theorem within_set (u : StateUpdateInstruction) : Within (processSetT x L accs u) 1 [] := by
  unfold processSetT
  iterate 6 refine .plain fun _ => ?_
  refine .hash (m := 0) fun _ => .plain fun _ => ?_
  cases u
  · exact .plain fun _ => .done _
  · exact .emit fun _ => .done _

theorem within_initialize (c : Int64) : Within (processInitializeT x L accs c) 768
    [SYSTEM_PROGRAM_ID, SYSTEM_PROGRAM_ID, SYSTEM_PROGRAM_ID, ASSOCIATED_TOKEN_PROGRAM_ID] := by
  unfold processInitializeT
  generalize State.default = s0
  iterate 12 refine .plain fun _ => ?_
  refine Within.bind (n := 255) (m := 513) (l := []) (within_seeds ..) fun _ => ?_
  iterate 21 refine .plain fun _ => ?_
  refine Within.bind (n := 255) (m := 258) (l := []) (within_searching ..) fun ⟨_, _⟩ => ?_
  refine Within.bind (n := 255) (m := 3) (l := []) (within_seeds ..) fun _ => ?_
  refine .plain fun _ => .signer (m := 2) fun _ => ?_
  exact Within.bind (n := 3) (m := 0) (k := [_]) (within_createState ..) fun _ => .call fun _ => .done _

theorem within_dispatch (ix : Instruction) : Within (dispatchT x L accs ix) (maxHashes ix) (mayCall ix) := by
  cases ix
  · exact within_stake _
  · exact within_unstake _ _
  · exact within_withdraw _
  · exact within_initialize _
  · exact within_set _

end Xorca
