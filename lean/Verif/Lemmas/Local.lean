import Verif.Entrypoint
import Verif.Lemmas.System
/-
What the called programs and the program itself do depends only on the accounts they are given.
-/
namespace Xorca

/-- Two ledgers agree on the listed accounts. -/
def Agree (ks : List Pubkey) (L M : Ledger) : Prop := ∀ k ∈ ks, L k = M k

theorem Agree.mono {ks ks' : List Pubkey} {L M : Ledger} (h : Agree ks L M) (hs : ks' ⊆ ks) : Agree ks' L M :=
  fun k hk => h k (hs hk)

theorem Agree.set {ks : List Pubkey} {L M : Ledger} (h : Agree ks L M) (k : Pubkey) (a : Account) :
    Agree ks (L.set k a) (M.set k a) := fun k' hk => by
  simp only [Ledger.set]
  split
  · rfl
  · exact h k' hk

theorem Agree.setData {ks : List Pubkey} {L M : Ledger} (h : Agree ks L M) {k : Pubkey} (hk : k ∈ ks) (d : Bytes) :
    Agree ks (L.setData k d) (M.setData k d) := by
  rw [Ledger.setData, Ledger.setData, h k hk]; exact h.set k _

theorem Agree.setLamports {ks : List Pubkey} {L M : Ledger} (h : Agree ks L M) {k : Pubkey} (hk : k ∈ ks) (v : UInt64) :
    Agree ks (L.setLamports k v) (M.setLamports k v) := by
  rw [Ledger.setLamports, Ledger.setLamports, h k hk]; exact h.set k _

/-- Two results agree: the same error, or related values. -/
inductive RelR {α β : Type} (R : α → β → Prop) : Res α → Res β → Prop
  | err (e : Err) : RelR R (.error e) (.error e)
  | ok {a b} : R a b → RelR R (.ok a) (.ok b)

theorem RelR.bind_val {α β γ : Type} {R : β → γ → Prop} {p q : Res α} {f : α → Res β} {g : α → Res γ} (h : p = q)
    (hf : ∀ a, p = .ok a → RelR R (f a) (g a)) : RelR R (p >>= f) (q >>= g) := by
  subst h
  cases p with
  | error e => exact .err e
  | ok a => exact hf a rfl

theorem RelR.bind {α α' β β' : Type} {S : α → α' → Prop} {R : β → β' → Prop} {p : Res α} {q : Res α'} {f : α → Res β}
    {g : α' → Res β'} (h : RelR S p q)
    (hf : ∀ a a', p = .ok a → q = .ok a' → S a a' → RelR R (f a) (g a')) : RelR R (p >>= f) (q >>= g) := by
  cases h with
  | err e => exact .err e
  | ok h => exact hf _ _ rfl rfl h

theorem RelR.mono {α β : Type} {R S : α → β → Prop} {p : Res α} {q : Res β} (h : RelR R p q) (hs : ∀ a b, R a b → S a b) :
    RelR S p q := by
  cases h with
  | err e => exact .err e
  | ok h => exact .ok (hs _ _ h)

/-- Depends on, and changes, only the listed accounts. -/
structure LocalTo (ks : List Pubkey) (f : Ledger → Res Ledger) : Prop where
  frame : ∀ L L', f L = .ok L' → ∀ k, k ∉ ks → L' k = L k
  agree : ∀ ks' L M, ks ⊆ ks' → Agree ks' L M → RelR (Agree ks') (f L) (f M)

/-! ### The system program -/

section
variable {ks : List Pubkey} {L M : Ledger}

theorem systemTransfer_rel {src dst : Pubkey} {n : UInt64} (h : Agree ks L M) (hs : src ∈ ks) (hd : dst ∈ ks) :
    RelR (Agree ks) (systemTransfer L src dst n) (systemTransfer M src dst n) := by
  unfold systemTransfer
  refine .bind_val (by rw [h _ hs]) fun _ _ => .bind_val (by rw [h _ hs]) fun _ _ => .bind_val (by rw [h _ hs]) fun _ _ => ?_
  have h1 : Agree ks (L.setLamports src ((L src).lamports - n)) (M.setLamports src ((M src).lamports - n)) := by
    rw [h _ hs]; exact h.setLamports hs _
  exact .bind_val (by rw [h1 _ hd]) fun v _ => .ok (h1.setLamports hd v)

theorem systemAllocate_rel {k : Pubkey} {n : Nat} (h : Agree ks L M) (hs : k ∈ ks) :
    RelR (Agree ks) (systemAllocate L k n) (systemAllocate M k n) := by
  unfold systemAllocate
  exact .bind_val (by rw [h _ hs]) fun _ _ => .bind_val rfl fun _ _ => .ok (h.setData hs _)

theorem systemAssign_rel {k o : Pubkey} (h : Agree ks L M) (hs : k ∈ ks) :
    RelR (Agree ks) (systemAssign L k o) (systemAssign M k o) := by
  unfold systemAssign
  rw [h _ hs]
  split
  · exact .ok h
  · exact .bind_val rfl fun _ _ => .ok (h.set k _)

theorem systemCreateAccount_rel {src dst o : Pubkey} {n : UInt64} {sp : Nat} (h : Agree ks L M) (hs : src ∈ ks)
    (hd : dst ∈ ks) : RelR (Agree ks) (systemCreateAccount L src dst n sp o) (systemCreateAccount M src dst n sp o) := by
  unfold systemCreateAccount
  refine .bind_val (by rw [h _ hd]) fun _ _ => (systemAllocate_rel h hd).bind fun A B _ _ h1 =>
    (systemAssign_rel h1 hd).bind fun A B _ _ h2 => systemTransfer_rel h2 hs hd

theorem systemTransfer_frame {L' : Ledger} {src dst : Pubkey} {n : UInt64} (h : systemTransfer L src dst n = .ok L')
    {k : Pubkey} (h1 : k ≠ src) (h2 : k ≠ dst) : L' k = L k := by
  unfold systemTransfer at h
  simp only [bind_eq_ok, Except.ok.injEq] at h
  obtain ⟨_, _, _, _, _, _, v, _, rfl⟩ := h
  rw [Ledger.setLamports_other _ _ h2, Ledger.setLamports_other _ _ h1]

theorem systemAllocate_frame {L' : Ledger} {k j : Pubkey} {n : Nat} (h : systemAllocate L k n = .ok L') (h1 : j ≠ k) :
    L' j = L j := by
  unfold systemAllocate at h
  simp only [bind_eq_ok, Except.ok.injEq] at h
  obtain ⟨_, _, _, _, rfl⟩ := h
  exact Ledger.setData_other _ _ h1

theorem systemAssign_frame {L' : Ledger} {k j o : Pubkey} (h : systemAssign L k o = .ok L') (h1 : j ≠ k) :
    L' j = L j := by
  unfold systemAssign at h
  split at h
  · cases h; rfl
  · simp only [bind_eq_ok, Except.ok.injEq] at h
    obtain ⟨_, _, rfl⟩ := h
    exact Ledger.set_other _ _ h1

theorem systemCreateAccount_frame {L' : Ledger} {src dst o : Pubkey} {n : UInt64} {sp : Nat}
    (h : systemCreateAccount L src dst n sp o = .ok L') {k : Pubkey} (h1 : k ≠ src) (h2 : k ≠ dst) : L' k = L k := by
  unfold systemCreateAccount at h
  simp only [bind_eq_ok] at h
  obtain ⟨_, _, A, hA, B, hB, hC⟩ := h
  rw [systemTransfer_frame hC h1 h2, systemAssign_frame hB h2, systemAllocate_frame hA h2]

end

theorem local_createAccount (c : Caller) (src dst o : Pubkey) (n : UInt64) (sp : Nat) :
    LocalTo [src, dst] fun L => cpiCreateAccount c L src dst n sp o where
  frame L L' h k hk := by
    unfold cpiCreateAccount at h
    simp only [bind_eq_ok] at h
    obtain ⟨_, _, _, _, h⟩ := h
    simp at hk
    exact systemCreateAccount_frame h hk.1 hk.2
  agree ks L M hs h := by
    unfold cpiCreateAccount
    exact .bind_val rfl fun _ _ => .bind_val rfl fun _ _ => systemCreateAccount_rel h (hs (by simp)) (hs (by simp))

theorem local_systemTransfer (c : Caller) (src dst : Pubkey) (n : UInt64) :
    LocalTo [src, dst] fun L => cpiSystemTransfer c L src dst n where
  frame L L' h k hk := by
    unfold cpiSystemTransfer at h
    simp only [bind_eq_ok] at h
    obtain ⟨_, _, _, _, h⟩ := h
    simp at hk
    exact systemTransfer_frame h hk.1 hk.2
  agree ks L M hs h := by
    unfold cpiSystemTransfer
    exact .bind_val rfl fun _ _ => .bind_val rfl fun _ _ => systemTransfer_rel h (hs (by simp)) (hs (by simp))

theorem local_allocate (c : Caller) (k : Pubkey) (n : Nat) : LocalTo [k] fun L => cpiAllocate c L k n where
  frame L L' h k hk := by
    unfold cpiAllocate at h
    simp only [bind_eq_ok] at h
    obtain ⟨_, _, _, _, h⟩ := h
    simp at hk
    exact systemAllocate_frame h hk
  agree ks L M hs h := by
    unfold cpiAllocate
    exact .bind_val rfl fun _ _ => .bind_val rfl fun _ _ => systemAllocate_rel h (hs (by simp))

theorem local_assign (c : Caller) (k o : Pubkey) : LocalTo [k] fun L => cpiAssign c L k o where
  frame L L' h k hk := by
    unfold cpiAssign at h
    simp only [bind_eq_ok] at h
    obtain ⟨_, _, _, _, h⟩ := h
    simp at hk
    exact systemAssign_frame h hk
  agree ks L M hs h := by
    unfold cpiAssign
    exact .bind_val rfl fun _ _ => .bind_val rfl fun _ _ => systemAssign_rel h (hs (by simp))

/-! ### The token program -/

theorem validateOwner_congr {L M : Ledger} {e a : Pubkey} (h : L a = M a) : validateOwner L e a = validateOwner M e a := by
  unfold validateOwner; rw [h]

theorem authorizeDebit_congr {L M : Ledger} {t : TokenAccount} {d : Bytes} {a : Pubkey} {n : UInt64} {b : Bool}
    (h : L a = M a) : authorizeDebit L t d a n b = authorizeDebit M t d a n b := by
  unfold authorizeDebit; rw [validateOwner_congr h, validateOwner_congr h]

theorem local_tokenTransfer (c : Caller) (src dst auth : Pubkey) (n : UInt64) :
    LocalTo [src, dst, auth] fun L => cpiTokenTransfer c L src dst auth n where
  frame L L' h k hk := by
    unfold cpiTokenTransfer splTransfer at h
    simp only [bind_eq_ok] at h
    obtain ⟨_, _, _, _, _, _, s, _, t, _, _, _, _, _, _, _, _, _, sd, _, h⟩ := h
    simp at hk
    split at h
    · cases h; rfl
    · simp only [bind_eq_ok, Except.ok.injEq] at h
      obtain ⟨_, _, _, _, rfl⟩ := h
      rw [Ledger.setData_other _ _ hk.2.1, Ledger.setData_other _ _ hk.1]
  agree ks L M hs h := by
    have h1 := h src (hs (by simp))
    have h2 := h dst (hs (by simp))
    have h3 := h auth (hs (by simp))
    unfold cpiTokenTransfer splTransfer
    refine .bind_val rfl fun _ _ => .bind_val rfl fun _ _ => .bind_val (by rw [h1, h2]) fun _ _ => .bind_val (by rw [h1])
      fun s _ => .bind_val (by rw [h2]) fun t _ => .bind_val rfl fun _ _ => .bind_val rfl fun _ _ => .bind_val rfl fun _ _ =>
      .bind_val rfl fun _ _ => .bind_val (by rw [h1, authorizeDebit_congr h3]) fun sd _ => ?_
    split
    · exact .ok h
    · refine .bind_val rfl fun sa _ => .bind_val rfl fun ta _ => .ok ?_
      rw [h2]
      exact (h.setData (hs (by simp)) _).setData (hs (by simp)) _

theorem local_mintTo (c : Caller) (mint dst auth : Pubkey) (n : UInt64) :
    LocalTo [mint, dst, auth] fun L => cpiMintTo c L mint dst auth n where
  frame L L' h k hk := by
    unfold cpiMintTo splMintTo at h
    simp only [bind_eq_ok, Except.ok.injEq] at h
    obtain ⟨_, _, _, _, _, _, t, _, _, _, _, _, _, _, m, _, _, _, _, _, ta, _, ms, _, rfl⟩ := h
    simp at hk
    rw [Ledger.setData_other _ _ hk.1, Ledger.setData_other _ _ hk.2.1]
  agree ks L M hs h := by
    have h1 := h mint (hs (by simp))
    have h2 := h dst (hs (by simp))
    have h3 := h auth (hs (by simp))
    unfold cpiMintTo splMintTo
    refine .bind_val rfl fun _ _ => .bind_val rfl fun _ _ => .bind_val (by rw [h1, h2]) fun _ _ => .bind_val (by rw [h2])
      fun t _ => .bind_val rfl fun _ _ => .bind_val rfl fun _ _ => .bind_val rfl fun _ _ => .bind_val (by rw [h1])
      fun m _ => .bind_val rfl fun _ _ => .bind_val (validateOwner_congr h3) fun _ _ => .bind_val rfl fun ta _ =>
      .bind_val rfl fun ms _ => .ok ?_
    rw [h1, h2]
    exact (h.setData (hs (by simp)) _).setData (hs (by simp)) _

theorem local_burn (c : Caller) (src mint auth : Pubkey) (n : UInt64) :
    LocalTo [src, mint, auth] fun L => cpiBurn c L src mint auth n where
  frame L L' h k hk := by
    unfold cpiBurn splBurn at h
    simp only [bind_eq_ok] at h
    obtain ⟨_, _, _, _, _, _, s, _, m, _, _, _, _, _, _, _, _, _, h⟩ := h
    simp at hk
    split at h <;>
    · simp only [bind_eq_ok, Except.ok.injEq] at h
      obtain ⟨sd, _, sa, _, ms, _, rfl⟩ := h
      rw [Ledger.setData_other _ _ hk.2.1, Ledger.setData_other _ _ hk.1]
  agree ks L M hs h := by
    have h1 := h src (hs (by simp))
    have h2 := h mint (hs (by simp))
    have h3 := h auth (hs (by simp))
    unfold cpiBurn splBurn
    refine .bind_val rfl fun _ _ => .bind_val rfl fun _ _ => .bind_val (by rw [h1, h2]) fun _ _ => .bind_val (by rw [h1])
      fun s _ => .bind_val (by rw [h2]) fun m _ => .bind_val rfl fun _ _ => .bind_val rfl fun _ _ => .bind_val rfl fun _ _ =>
      .bind_val rfl fun _ _ => ?_
    rw [h1, h2, authorizeDebit_congr h3]
    split <;> exact .bind_val rfl fun sd _ => .bind_val rfl fun sa _ =>
      .bind_val rfl fun ms _ => .ok ((h.setData (hs (by simp)) _).setData (hs (by simp)) _)

/-! ### The associated token program -/

theorem ataCreatePda_rel {x : Ctx} {ks : List Pubkey} {L M : Ledger} {f a : Pubkey} (h : Agree ks L M) (hf : f ∈ ks)
    (ha : a ∈ ks) : RelR (Agree ks) (ataCreatePda x L f a) (ataCreatePda x M f a) := by
  unfold ataCreatePda
  simp only
  rw [h _ ha]
  generalize (if x.rentMin TOKEN_ACCOUNT_LEN = 0 then 1 else x.rentMin TOKEN_ACCOUNT_LEN) = need
  split
  · exact systemCreateAccount_rel h hf ha
  · split
    · exact (RelR.ok h).bind fun A B _ _ h1 => (systemAllocate_rel h1 ha).bind fun A B _ _ h2 => systemAssign_rel h2 ha
    · exact (systemTransfer_rel h hf ha).bind fun A B _ _ h1 => (systemAllocate_rel h1 ha).bind fun A B _ _ h2 =>
        systemAssign_rel h2 ha

theorem ataCreatePda_frame {x : Ctx} {L L' : Ledger} {f a : Pubkey} (h : ataCreatePda x L f a = .ok L') {k : Pubkey}
    (h1 : k ≠ f) (h2 : k ≠ a) : L' k = L k := by
  unfold ataCreatePda at h
  simp only at h
  generalize (if x.rentMin TOKEN_ACCOUNT_LEN = 0 then 1 else x.rentMin TOKEN_ACCOUNT_LEN) = need at h
  split at h
  · exact systemCreateAccount_frame h h1 h2
  · split at h
    · simp only [bind_eq_ok] at h
      obtain ⟨A, hA, B, hB, hC⟩ := h
      rw [systemAssign_frame hC h2, systemAllocate_frame hB h2]
      cases hA; rfl
    · simp only [bind_eq_ok] at h
      obtain ⟨A, hA, B, hB, hC⟩ := h
      rw [systemAssign_frame hC h2, systemAllocate_frame hB h2]
      exact systemTransfer_frame hA h1 h2

theorem local_createAta (x : Ctx) (c : Caller) (funder ata wallet mint : Pubkey) (rest : List Pubkey) :
    LocalTo (funder :: ata :: wallet :: mint :: rest) fun L => cpiCreateAtaIdempotent x c L funder ata wallet mint where
  frame L L' h k hk := by
    unfold cpiCreateAtaIdempotent at h
    simp only [bind_eq_ok] at h
    obtain ⟨_, _, _, _, _, _, _, _, h⟩ := h
    simp at hk
    split at h
    · simp only [bind_eq_ok, Except.ok.injEq] at h
      obtain ⟨_, _, _, _, _, _, rfl⟩ := h
      rfl
    · simp only [bind_eq_ok, Except.ok.injEq] at h
      obtain ⟨_, _, _, _, _, _, A, hA, rfl⟩ := h
      rw [Ledger.setData_other _ _ hk.2.1, ataCreatePda_frame hA hk.1 hk.2.1]
  agree ks L M hs h := by
    have h1 := h ata (hs (by simp))
    have h2 := h mint (hs (by simp))
    unfold cpiCreateAtaIdempotent
    refine .bind_val rfl fun _ _ => .bind_val rfl fun _ _ => .bind_val rfl fun _ _ => .bind_val rfl fun _ _ => ?_
    rw [h1]
    split
    · exact .bind_val rfl fun _ _ => .bind_val rfl fun _ _ => .bind_val rfl fun _ _ => .ok h
    · exact .bind_val rfl fun _ _ => .bind_val (by rw [h2]) fun _ _ => .bind_val (by rw [h2]) fun _ _ =>
        (ataCreatePda_rel h (hs (by simp)) (hs (by simp))).bind fun A B _ _ h3 => .ok (h3.setData (hs (by simp)) _)

end Xorca
