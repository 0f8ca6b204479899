import Verif.Machine
import Verif.Lemmas.LocalInstr
/-
The machine against the plain model: single steps.
-/
namespace Xorca

/-- A step of the machine does what a step of the plain model does: the same error, or related values. -/
inductive RelM {α β : Type} (R : α → β → Prop) : MRes α → Res β → Prop
  | err (e : Err) : RelM R (.error (.plain e)) (.error e)
  | ok {a b} : R a b → RelM R (.ok a) (.ok b)

theorem RelM.bind {α α' β β' : Type} {S : α → α' → Prop} {R : β → β' → Prop} {q : MRes α} {p : Res α'} {f : α → MRes β}
    {g : α' → Res β'} (h : RelM S q p) (hf : ∀ a a', p = .ok a' → S a a' → RelM R (f a) (g a')) :
    RelM R (q >>= f) (p >>= g) := by
  cases h with
  | err e => exact .err e
  | ok h => exact hf _ _ rfl h

theorem RelM.lift {α β γ : Type} {R : β → γ → Prop} {p : Res α} {f : α → MRes β} {g : α → Res γ}
    (hf : ∀ a, p = .ok a → RelM R (f a) (g a)) : RelM R (Xorca.lift p >>= f) (p >>= g) := by
  cases p with
  | error e => exact .err e
  | ok a => exact hf a rfl

theorem RelM.same {α β γ : Type} {R : β → γ → Prop} {q : MRes α} {p : Res α} {f : α → MRes β} {g : α → Res γ}
    (h : q = Xorca.lift p) (hf : ∀ a, p = .ok a → RelM R (f a) (g a)) : RelM R (q >>= f) (p >>= g) := by
  subst h; exact .lift hf

theorem RelM.skip {α β γ : Type} {R : β → γ → Prop} {q : MRes α} {a : α} {f : α → MRes β} {p : Res γ} (h : q = .ok a)
    (hf : RelM R (f a) p) : RelM R (q >>= f) p := by
  subst h; exact hf

theorem RelM.mono {α β : Type} {R S : α → β → Prop} {q : MRes α} {p : Res β} (h : RelM R q p) (hs : ∀ a b, R a b → S a b) :
    RelM S q p := by
  cases h with
  | err e => exact .err e
  | ok h => exact .ok (hs _ _ h)

theorem require_ok {c : Prop} [Decidable c] {e : MErr} (h : c) : require c e = .ok () := if_pos h

theorem res_assoc {α β γ : Type} (p : Res α) (f : α → Res β) (g : β → Res γ) :
    ((p >>= f) >>= g) = p >>= fun a => f a >>= g := by
  cases p <;> rfl

/-! ### Borrows -/

section
variable {s : Mach} {a b c : Meta}

theorem tryBorrow_ok {F : Flags} {k : Pubkey} (h : (F k).CanRead) :
    tryBorrow F k = .ok (F.set k ⟨(F k).readers + 1, false⟩) := by
  unfold tryBorrow; rw [require_ok h]; rfl

theorem tryBorrowMut_ok {F : Flags} {k : Pubkey} (h : (F k).CanWrite) : tryBorrowMut F k = .ok (F.set k ⟨0, true⟩) := by
  unfold tryBorrowMut; rw [require_ok h]; rfl

theorem Flag.CanWrite.read {f : Flag} (h : f.CanWrite) : f.CanRead := ⟨h.1, by rw [h.2]; decide⟩

theorem assertDataM_rel {n : Nat} {d : AccountDiscriminator} (h : (s.flags a.key).CanRead) :
    RelM (fun o b => o = (b, { s with flags := s.flags.set a.key ⟨(s.flags a.key).readers + 1, false⟩ }))
      (assertDataM s a n d) (assertAccountData s.led a n d) := by
  unfold assertDataM assertAccountData
  exact .lift fun _ _ => .skip (tryBorrow_ok h) (.lift fun _ _ => .skip (tryBorrow_ok h) (.ok rfl))

theorem assertDataMutM_rel {n : Nat} {d : AccountDiscriminator} (h : (s.flags a.key).CanWrite) :
    RelM (fun o b => o = (b, { s with flags := s.flags.set a.key ⟨0, true⟩ }))
      (assertDataMutM s a n d) (assertAccountData s.led a n d) := by
  unfold assertDataMutM assertAccountData
  exact .lift fun _ _ => .skip (tryBorrow_ok h.read) (.lift fun _ _ => .skip (tryBorrowMut_ok h) (.ok rfl))

theorem mintM_eq (h : (s.flags a.key).CanRead) : assertTokenMintDataM s a = lift (assertTokenMintData s.led a) := by
  unfold assertTokenMintDataM; rw [tryBorrow_ok h]; rfl

theorem relM_eq_lift {α : Type} {q : MRes α} {p : Res α} (h : RelM (fun a b => a = b) q p) : q = lift p := by
  cases h with
  | err e => rfl
  | ok h => rw [h]; rfl

theorem tokM_eq {v : Bool} (h : (s.flags a.key).CanRead) :
    makeOwnerTokenAccountAssertionsM s a b c v = lift (makeOwnerTokenAccountAssertions s.led a b c v) := by
  apply relM_eq_lift
  unfold makeOwnerTokenAccountAssertionsM makeOwnerTokenAccountAssertions
  cases v
  all_goals
    refine .lift fun _ _ => .lift fun _ _ => .skip (tryBorrow_ok h) (.lift fun _ _ => .lift fun _ _ => .lift fun _ _ =>
      .ok rfl)

end

/-! ### The runtime's view -/

/-- Accounts differ from what the runtime has seen at most in the data of writable accounts of the program. -/
def Clean (accs : List Meta) (s : Mach) : Prop :=
  ∀ k, s.base k = s.led k ∨ ((∃ m ∈ accs, m.key = k ∧ m.isWritable = true) ∧ (s.base k).owner = PROGRAM_ID ∧
    s.led k = { s.base k with data := (s.led k).data })

/-- No account has grown beyond 2048 bytes. -/
def Short (L0 L : Ledger) : Prop := ∀ k, (L k).data.length ≤ max (L0 k).data.length 2048

theorem clean_start (accs : List Meta) (L : Ledger) : Clean accs (.start L) := fun _ => .inl rfl

theorem short_refl (L : Ledger) : Short L L := fun _ => le_max_left _ _

theorem Short.trans {A B C : Ledger} (h : Short A B) (h' : Short B C) : Short A C := fun k => by
  have h1 := h k
  have h2 := h' k
  omega

theorem Short.bound {A B : Ledger} (h : Short A B) (k : Pubkey) :
    (B k).data.length ≤ (A k).data.length + MAX_DATA_INCREASE := by
  have := h k
  unfold MAX_DATA_INCREASE
  omega

section
variable {accs : List Meta} {s : Mach}

theorem Clean.lamports (h : Clean accs s) (k : Pubkey) : (s.led k).lamports = (s.base k).lamports := by
  rcases h k with h | ⟨_, _, h⟩
  · rw [h]
  · rw [h]

theorem Clean.owner (h : Clean accs s) (k : Pubkey) : (s.led k).owner = (s.base k).owner := by
  rcases h k with h | ⟨_, _, h⟩
  · rw [h]
  · rw [h]

theorem Clean.allowed (h : Clean accs s) (k : Pubkey) : ChangeAllowed accs k (s.base k) (s.led k) := by
  rcases h k with h' | ⟨h1, h2, h3⟩
  · exact .inl h'.symm
  · exact .inr ⟨h1, fun _ => h2, fun _ => h2, fun hn => absurd (h.owner k) hn⟩

theorem Clean.sum (h : Clean accs s) : lamportSum accs s.led = lamportSum accs s.base := by
  unfold lamportSum
  congr 1
  exact List.map_congr_left fun k _ => by rw [h.lamports k]

theorem Clean.finish {L0 : Ledger} (h : Clean accs s) (hl : Short L0 s.led) : s.finish accs L0 = .ok s.led := by
  unfold Mach.finish
  have h1 : ∀ m ∈ accs, ChangeAllowed accs m.key (s.base m.key) (s.led m.key) := fun m _ => h.allowed m.key
  have h2 : ∀ m ∈ accs, (s.led m.key).data.length ≤ (L0 m.key).data.length + MAX_DATA_INCREASE := fun m _ => hl.bound m.key
  rw [require_ok h1, require_ok h2, require_ok h.sum]
  rfl

theorem Clean.setData (h : Clean accs s) {m : Meta} (hm : m ∈ accs) (hw : m.isWritable = true)
    (ho : (s.led m.key).owner = PROGRAM_ID) (d : Bytes) : Clean accs (s.setData m.key d) := by
  intro k
  by_cases hk : k = m.key
  · subst hk
    refine .inr ⟨⟨m, hm, rfl, hw⟩, ?_, ?_⟩
    · show (s.base m.key).owner = _
      rw [← h.owner]; exact ho
    · show s.led.setData m.key d m.key = { s.base m.key with data := (s.led.setData m.key d m.key).data }
      rw [Ledger.setData_same]
      exact account_ext (h.lamports _) (h.owner _) rfl
  · have e : s.led.setData m.key d k = s.led k := Ledger.setData_other _ _ hk
    show s.base k = s.led.setData m.key d k ∨ _
    have h' := h k
    rw [e]
    rcases h' with h' | ⟨h1, h2, h3⟩
    · exact .inl h'
    · exact .inr ⟨h1, h2, by show s.led.setData m.key d k = { s.base k with data := (s.led.setData m.key d k).data }; rw [e]; exact h3⟩

/-- What holds between a machine and the plain ledger at every moment of a run (but the end of a Withdraw). -/
structure Good (accs : List Meta) (L0 : Ledger) (s : Mach) (F : Flags) (L : Ledger) : Prop where
  flags : s.flags = F
  led : s.led = L
  clean : Clean accs s
  short : Short L0 L

theorem cpi_rel {L0 L : Ledger} {F : Flags} {infos : List (Pubkey × Bool)} {f : Ledger → Res Ledger}
    (g : Good accs L0 s F L) (hf : ∀ p ∈ infos, (F p.1).writer = false ∧ (p.2 = true → (F p.1).readers = 0))
    (hloc : LocalTo (infos.map (·.1)) f) (hg : ∀ L', f L = .ok L' → Short L L') :
    RelM (fun s' L' => Good accs L0 s' F L') (s.cpi accs L0 infos f) (f L) := by
  obtain ⟨rfl, rfl, hc, hs⟩ := g
  unfold Mach.cpi
  have h1 : ∀ p ∈ infos, ChangeAllowed accs p.1 (s.base p.1) (s.led p.1) := fun p _ => hc.allowed p.1
  rw [require_ok hf, require_ok h1, require_ok hc.sum]
  simp only [bind, Except.bind]
  have ha : Agree (infos.map (·.1)) s.led (merge (infos.map (·.1)) s.led s.base) := fun k hk => by
    unfold merge; rw [if_pos hk]
  have hr := hloc.agree _ _ _ (fun _ h => h) ha
  generalize hp : f s.led = p at hr ⊢
  generalize f (merge (infos.map (·.1)) s.led s.base) = q at hr ⊢
  cases hr with
  | err e => exact .err e
  | @ok L' M' hr =>
    have hsh := hg L' hp
    simp only [lift]
    have h2 : ∀ p ∈ infos, (M' p.1).data.length ≤ (L0 p.1).data.length + MAX_DATA_INCREASE := fun p hp => by
      rw [← hr p.1 (List.mem_map_of_mem hp)]; exact (hs.trans hsh).bound p.1
    rw [require_ok h2]
    have e : merge (infos.map (·.1)) M' s.led = L' := by
      funext k
      unfold merge
      split
      · next hk => exact (hr k hk).symm
      · next hk => exact (hloc.frame _ _ hp k hk).symm
    refine .ok ⟨rfl, e, ?_, hs.trans hsh⟩
    intro k
    show merge (infos.map (·.1)) M' s.base k = merge (infos.map (·.1)) M' s.led k ∨ _ ∧
      (merge (infos.map (·.1)) M' s.base k).owner = PROGRAM_ID ∧
      merge (infos.map (·.1)) M' s.led k = { merge (infos.map (·.1)) M' s.base k with
        data := (merge (infos.map (·.1)) M' s.led k).data }
    by_cases hk : k ∈ infos.map (·.1)
    · left; unfold merge; rw [if_pos hk, if_pos hk]
    · unfold merge; rw [if_neg hk, if_neg hk]; exact hc k

end

/-! ### Growth -/

theorem writeAt_le {d b : Bytes} {o n : Nat} (h : o + b.length ≤ n) : (writeAt d o b).length ≤ max d.length n := by
  unfold writeAt
  simp only [List.length_append, List.length_take, List.length_drop]
  omega

theorem short_setData {L : Ledger} {k : Pubkey} {d : Bytes} (h : d.length ≤ max (L k).data.length 2048) :
    Short L (L.setData k d) := fun j => by
  by_cases hj : j = k
  · subst hj; simpa using h
  · rw [Ledger.setData_other _ _ hj]; exact le_max_left _ _

theorem short_of_data {L L' : Ledger} (h : ∀ k, (L' k).data = (L k).data) : Short L L' := fun k => by
  rw [h k]; exact le_max_left _ _

theorem short_set2 {L : Ledger} {a b : Pubkey} {d e : Bytes} (ha : d.length ≤ max (L a).data.length 2048)
    (hb : e.length ≤ max (L b).data.length 2048) : Short L ((L.setData a d).setData b e) := fun j => by
  by_cases hj : j = b
  · subst hj; simpa using hb
  · rw [Ledger.setData_other _ _ hj]; exact short_setData ha j

theorem authorizeDebit_len {L : Ledger} {t : TokenAccount} {d sd : Bytes} {auth : Pubkey} {n : UInt64} {b : Bool}
    (h : authorizeDebit L t d auth n b = .ok sd) : sd.length ≤ max d.length 2048 := by
  unfold authorizeDebit at h
  split at h
  · simp only [bind_eq_ok] at h
    obtain ⟨_, _, _, _, h⟩ := h
    split at h
    · cases h; exact le_max_left _ _
    · have h1 := writeAt_le (d := d) (b := u64le (t.delegateAmount - n)) (o := TA_DELEGATE_AMOUNT) (n := 2048)
        (by simp [TA_DELEGATE_AMOUNT])
      have h2 := writeAt_le (d := writeAt d TA_DELEGATE_AMOUNT (u64le (t.delegateAmount - n))) (b := u32le 0)
        (o := TA_DELEGATE_FLAG) (n := 2048) (by simp [TA_DELEGATE_FLAG])
      cases h
      split <;> omega
  · simp only [bind_eq_ok, Except.ok.injEq] at h
    obtain ⟨_, _, rfl⟩ := h
    exact le_max_left _ _

theorem amount_len (d : Bytes) (v : UInt64) : (writeAt d TA_AMOUNT (u64le v)).length ≤ max d.length 2048 :=
  writeAt_le (by simp [TA_AMOUNT])

theorem supply_len (d : Bytes) (v : UInt64) : (writeAt d MINT_SUPPLY (u64le v)).length ≤ max d.length 2048 :=
  writeAt_le (by simp [MINT_SUPPLY])

theorem short_tokenTransfer {c : Caller} {L L' : Ledger} {src dst auth : Pubkey} {n : UInt64}
    (h : cpiTokenTransfer c L src dst auth n = .ok L') : Short L L' := by
  unfold cpiTokenTransfer splTransfer at h
  simp only [bind_eq_ok] at h
  obtain ⟨_, _, _, _, _, _, s, h1, t, _, _, _, _, _, _, _, _, _, sd, hsd, h⟩ := h
  have hl := authorizeDebit_len hsd
  split at h
  · cases h; exact short_refl _
  · simp only [bind_eq_ok, Except.ok.injEq] at h
    obtain ⟨sa, _, ta, _, rfl⟩ := h
    have := amount_len sd sa
    exact short_set2 (by omega) (amount_len _ _)

theorem short_mintTo {c : Caller} {L L' : Ledger} {mint dst auth : Pubkey} {n : UInt64}
    (h : cpiMintTo c L mint dst auth n = .ok L') : Short L L' := by
  unfold cpiMintTo splMintTo at h
  simp only [bind_eq_ok, Except.ok.injEq] at h
  obtain ⟨_, _, _, _, _, _, t, _, _, _, _, _, _, _, m, _, _, _, _, _, ta, _, ms, _, rfl⟩ := h
  exact short_set2 (amount_len _ _) (supply_len _ _)

theorem short_burn {c : Caller} {L L' : Ledger} {src mint auth : Pubkey} {n : UInt64}
    (h : cpiBurn c L src mint auth n = .ok L') : Short L L' := by
  unfold cpiBurn splBurn at h
  simp only [bind_eq_ok] at h
  obtain ⟨_, _, _, _, _, _, s, _, m, _, _, _, _, _, _, _, _, _, h⟩ := h
  split at h <;>
  · simp only [bind_eq_ok, Except.ok.injEq] at h
    obtain ⟨sd, hsd, sa, _, ms, _, rfl⟩ := h
    have hl : sd.length ≤ max (L src).data.length 2048 := by
      first
      | exact authorizeDebit_len hsd
      | (cases hsd; exact le_max_left _ _)
    have := amount_len sd sa
    exact short_set2 (by omega) (supply_len _ _)

theorem short_transfer {L L' : Ledger} {src dst : Pubkey} {n : UInt64} (h : systemTransfer L src dst n = .ok L') :
    Short L L' := by
  unfold systemTransfer at h
  simp only [bind_eq_ok, Except.ok.injEq] at h
  obtain ⟨_, _, _, _, _, _, v, _, rfl⟩ := h
  exact short_of_data fun k => by simp

theorem short_alloc {L L' : Ledger} {k : Pubkey} {n : Nat} (hn : n ≤ 2048) (h : systemAllocate L k n = .ok L') :
    Short L L' := by
  unfold systemAllocate at h
  simp only [bind_eq_ok, Except.ok.injEq] at h
  obtain ⟨_, _, _, _, rfl⟩ := h
  exact short_setData (by simp; omega)

theorem short_sysAssign {L L' : Ledger} {k o : Pubkey} (h : systemAssign L k o = .ok L') : Short L L' := by
  unfold systemAssign at h
  split at h
  · cases h; exact short_refl _
  · simp only [bind_eq_ok, Except.ok.injEq] at h
    obtain ⟨_, _, rfl⟩ := h
    refine short_of_data fun j => ?_
    by_cases hj : j = k
    · subst hj; simp
    · rw [Ledger.set_other _ _ hj]

theorem short_create {L L' : Ledger} {src dst o : Pubkey} {n : UInt64} {sp : Nat} (hn : sp ≤ 2048)
    (h : systemCreateAccount L src dst n sp o = .ok L') : Short L L' := by
  unfold systemCreateAccount at h
  simp only [bind_eq_ok] at h
  obtain ⟨_, _, A, hA, B, hB, hC⟩ := h
  exact ((short_alloc hn hA).trans (short_sysAssign hB)).trans (short_transfer hC)

theorem short_createAccount {c : Caller} {L L' : Ledger} {src dst o : Pubkey} {n : UInt64} {sp : Nat} (hn : sp ≤ 2048)
    (h : cpiCreateAccount c L src dst n sp o = .ok L') : Short L L' := by
  unfold cpiCreateAccount at h
  simp only [bind_eq_ok] at h
  obtain ⟨_, _, _, _, h⟩ := h
  exact short_create hn h

theorem short_systemTransfer {c : Caller} {L L' : Ledger} {src dst : Pubkey} {n : UInt64}
    (h : cpiSystemTransfer c L src dst n = .ok L') : Short L L' := by
  unfold cpiSystemTransfer at h
  simp only [bind_eq_ok] at h
  obtain ⟨_, _, _, _, h⟩ := h
  exact short_transfer h

theorem short_allocate {c : Caller} {L L' : Ledger} {k : Pubkey} {n : Nat} (hn : n ≤ 2048)
    (h : cpiAllocate c L k n = .ok L') : Short L L' := by
  unfold cpiAllocate at h
  simp only [bind_eq_ok] at h
  obtain ⟨_, _, _, _, h⟩ := h
  exact short_alloc hn h

theorem short_assign {c : Caller} {L L' : Ledger} {k o : Pubkey} (h : cpiAssign c L k o = .ok L') : Short L L' := by
  unfold cpiAssign at h
  simp only [bind_eq_ok] at h
  obtain ⟨_, _, _, _, h⟩ := h
  exact short_sysAssign h

theorem short_ataPda {x : Ctx} {L L' : Ledger} {f a : Pubkey} (h : ataCreatePda x L f a = .ok L') : Short L L' := by
  unfold ataCreatePda at h
  simp only at h
  generalize (if x.rentMin TOKEN_ACCOUNT_LEN = 0 then 1 else x.rentMin TOKEN_ACCOUNT_LEN) = need at h
  split at h
  · exact short_create (by decide) h
  · split at h
    all_goals
      simp only [bind_eq_ok] at h
      obtain ⟨A, hA, B, hB, hC⟩ := h
    · cases hA
      exact (short_alloc (by decide) hB).trans (short_sysAssign hC)
    · exact ((short_transfer hA).trans (short_alloc (by decide) hB)).trans (short_sysAssign hC)

theorem short_createAta {x : Ctx} {c : Caller} {L L' : Ledger} {funder ata wallet mint : Pubkey}
    (h : cpiCreateAtaIdempotent x c L funder ata wallet mint = .ok L') : Short L L' := by
  unfold cpiCreateAtaIdempotent at h
  simp only [bind_eq_ok] at h
  obtain ⟨_, _, _, _, _, _, _, _, h⟩ := h
  split at h
  · simp only [bind_eq_ok, Except.ok.injEq] at h
    obtain ⟨_, _, _, _, _, _, rfl⟩ := h
    exact short_refl _
  · simp only [bind_eq_ok, Except.ok.injEq] at h
    obtain ⟨_, _, _, _, _, _, A, hA, rfl⟩ := h
    exact (short_ataPda hA).trans (short_setData (by simp [freshTokenAccountData, mint.len, wallet.len]))

/-! ### Creating an account -/

theorem createM_rel {x : Ctx} {accs : List Meta} {L0 L : Ledger} {s : Mach} {F : Flags} {pda f k o : Pubkey} {n : Nat}
    (g : Good accs L0 s F L) (hn : n ≤ 2048) (hf : (F f).CanWrite) (hk : (F k).CanWrite) :
    RelM (fun s' L' => Good accs L0 s' F L') (createAccountSecureM x accs L0 pda s f k n o)
      (createAccountSecure x ⟨accs, [pda]⟩ L f k n o) := by
  unfold createAccountSecureM createAccountSecure
  have two : ∀ p ∈ [(f, true), (k, true)], (F p.1).writer = false ∧ (p.2 = true → (F p.1).readers = 0) := by
    simp only [List.mem_cons, List.not_mem_nil, or_false, forall_eq_or_imp, forall_eq]
    exact ⟨⟨hf.1, fun _ => hf.2⟩, ⟨hk.1, fun _ => hk.2⟩⟩
  have one : ∀ p ∈ [(k, true)], (F p.1).writer = false ∧ (p.2 = true → (F p.1).readers = 0) := by
    simp only [List.mem_cons, List.not_mem_nil, or_false, forall_eq]
    exact ⟨hk.1, fun _ => hk.2⟩
  have tail : ∀ s' L', Good accs L0 s' F L' → RelM (fun s' L' => Good accs L0 s' F L')
      (do
        let s2 ← s'.cpi accs L0 [(k, true)] fun L => cpiAllocate ⟨accs, [pda]⟩ L k n
        s2.cpi accs L0 [(k, true)] fun L => cpiAssign ⟨accs, [pda]⟩ L k o)
      (do
        let L2 ← cpiAllocate ⟨accs, [pda]⟩ L' k n
        cpiAssign ⟨accs, [pda]⟩ L2 k o) := fun s' L' g' =>
    (cpi_rel (f := fun L => cpiAllocate ⟨accs, [pda]⟩ L k n) g' one (local_allocate _ _ _)
      fun _ h => short_allocate hn h).bind fun s2 L2 _ g2 =>
    cpi_rel (f := fun L => cpiAssign ⟨accs, [pda]⟩ L k o) g2 one (local_assign _ _ _) fun _ h => short_assign h
  rw [g.led]
  split
  · exact .ok g
  · simp only
    split
    · exact cpi_rel (f := fun L => cpiCreateAccount ⟨accs, [pda]⟩ L f k (x.rentMin n) n o) g two
        (local_createAccount _ _ _ _ _ _) fun _ h => short_createAccount hn h
    · generalize (if (x.rentMin n).toNat ≤ (L k).lamports.toNat then (0 : UInt64) else x.rentMin n - (L k).lamports) = v
      unfold topUpM
      split
      · exact (cpi_rel (f := fun L => cpiSystemTransfer ⟨accs, [pda]⟩ L f k v) g two (local_systemTransfer _ _ _ _)
          fun _ h => short_systemTransfer h).bind fun s' L' _ g' => tail s' L' g'
      · exact tail s L g

end Xorca
