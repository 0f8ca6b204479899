import Verif.Lemmas.Work
import Verif.Lemmas.IxCodec
/-
Lemmas about traces: what a successful call does exactly, where the log stands, and which errors can come late.
-/
namespace Xorca
open Spec

variable {α β : Type} {cr : Crypto} {x : Ctx} {L : Ledger} {accs : List Meta}

/-! ### Exactly -/

/-- If it succeeds: exactly `n` hashes, and exactly the calls `l`. -/
def Uses (p : Traced α) (n : Nat) (l : List Pubkey) : Prop :=
  ∀ a, p.result = .ok a → hashes p.trace = n ∧ callees p.trace = l

theorem Uses.bind {p : Traced α} {f : α → Traced β} {n m : Nat} {l k : List Pubkey} (h1 : Uses p n l)
    (h2 : ∀ a, p.result = .ok a → Uses (f a) m k) : Uses (p >>= f) (n + m) (l ++ k) := by
  show Uses (Traced.andThen p f) _ _
  intro b hb
  unfold Traced.andThen at hb ⊢
  cases hp : p.result with
  | error e => rw [hp] at hb; cases hb
  | ok a =>
    rw [hp] at hb
    obtain ⟨c1, c2⟩ := h1 a hp
    obtain ⟨d1, d2⟩ := h2 a hp b hb
    exact ⟨by rw [hashes_append, c1, d1], by rw [callees_append, c2, d2]⟩

theorem Uses.plain {r : Res α} {f : α → Traced β} {m : Nat} {k : List Pubkey} (h : ∀ a, r = .ok a → Uses (f a) m k) :
    Uses (plainly r >>= f) m k := by
  have := Uses.bind (p := plainly r) (n := 0) (l := []) (fun _ _ => ⟨rfl, rfl⟩) h
  rwa [Nat.zero_add] at this

theorem Uses.hash {r : Res α} {f : α → Traced β} {m : Nat} {k : List Pubkey} (h : ∀ a, r = .ok a → Uses (f a) m k) :
    Uses (hashing r >>= f) (1 + m) k :=
  Uses.bind (p := hashing r) (n := 1) (l := []) (fun _ _ => ⟨rfl, rfl⟩) h

theorem Uses.call {P : Pubkey} {r : Res α} {f : α → Traced β} {m : Nat} {k : List Pubkey}
    (h : ∀ a, r = .ok a → Uses (f a) m k) : Uses (calling P r >>= f) m (P :: k) := by
  have := Uses.bind (p := calling P r) (n := 0) (l := [P]) (fun _ _ => ⟨rfl, rfl⟩) h
  rwa [Nat.zero_add] at this

theorem Uses.signed {P : Pubkey} {r : Res α} {f : α → Traced β} {m : Nat} {k : List Pubkey}
    (h : ∀ a, r = .ok a → Uses (f a) m k) : Uses (callingSigned P r >>= f) (1 + m) (P :: k) :=
  Uses.bind (p := callingSigned P r) (n := 1) (l := [P]) (fun _ _ => ⟨rfl, rfl⟩) h

theorem Uses.emit {e : Event} {f : List Bytes → Traced β} {m : Nat} {k : List Pubkey} (h : ∀ a, Uses (f a) m k) :
    Uses (emitting e >>= f) m k := by
  have := Uses.bind (p := emitting e) (n := 0) (l := []) (fun _ _ => ⟨rfl, rfl⟩) fun a _ => h a
  rwa [Nat.zero_add] at this

theorem Uses.done (a : α) : Uses (pure a) 0 [] := fun _ _ => ⟨rfl, rfl⟩

theorem Uses.signer {seeds : List Bytes} {b : UInt8} {f : Pubkey → Traced β} {m : Nat} {k : List Pubkey}
    (h : ∀ a, Uses (f a) m k) : Uses (signer cr seeds b >>= f) m k := by
  unfold Xorca.signer
  cases signerPda cr seeds b with
  | ok a =>
    show Uses (Traced.andThen _ f) _ _
    exact h a
  | error e => intro b hb; cases hb

theorem uses_searching (seeds : List Bytes) (p : Pubkey) : Uses (searching cr seeds p) (tries cr seeds p) [] := by
  intro ⟨k, b⟩ h
  have hf : findProgramAddress cr seeds p = some (k, b) := okOr_eq_ok.1 h
  refine ⟨?_, callees_replicate _⟩
  show hashes (List.replicate _ _) = _
  rw [hashes_replicate, attempts_bump 255 (by decide) hf]
  unfold tries
  rw [hf]

theorem uses_seeds (a : Meta) (p : Pubkey) (seeds : List Bytes) :
    Uses (assertAccountSeedsT cr a p seeds) (tries cr seeds p) [] := by
  unfold assertAccountSeedsT
  refine Uses.bind (m := 0) (k := []) (uses_searching _ _) fun ⟨_, _⟩ _ => ?_
  exact .plain fun _ _ => .done _

theorem uses_create (c : Caller) (f n : Pubkey) (s : Nat) (o : Pubkey) (hs : (L n).owner = SYSTEM_PROGRAM_ID) :
    Uses (createAccountSecureT x c L f n s o) (creationCalls (L n).lamports (x.rentMin s))
      (List.replicate (creationCalls (L n).lamports (x.rentMin s)) SYSTEM_PROGRAM_ID) := by
  have last : ∀ (L : Ledger), Uses (callingSigned SYSTEM_PROGRAM_ID (cpiAssign c L n o)) 1 [SYSTEM_PROGRAM_ID] :=
    fun _ _ _ => ⟨rfl, rfl⟩
  unfold createAccountSecureT creationCalls
  rw [if_neg (not_not_intro hs)]
  dsimp only
  by_cases h0 : (L n).lamports = 0
  · rw [if_pos h0, if_pos h0]
    exact fun _ _ => ⟨rfl, rfl⟩
  rw [if_neg h0, if_neg h0]
  by_cases h1 : (x.rentMin s).toNat ≤ (L n).lamports.toNat
  · rw [if_pos h1, if_pos h1, if_neg (by decide)]
    exact .plain fun _ _ => .signed fun _ _ => last _
  · rw [if_neg h1, if_neg h1, if_pos]
    · exact .signed fun _ _ => .signed fun _ _ => last _
    · rw [UInt64.toNat_sub_of_le _ _ (UInt64.le_iff_toNat_le.2 (by omega))]
      omega

theorem uses_createRecord (c : Caller) (f n : Pubkey) (hs : (L n).owner = SYSTEM_PROGRAM_ID) :
    Uses (createPendingWithdrawSecureT x c L f n) (creationCalls (L n).lamports (x.rentMin 1024))
      (List.replicate (creationCalls (L n).lamports (x.rentMin 1024)) SYSTEM_PROGRAM_ID) := by
  unfold createPendingWithdrawSecureT
  have := Uses.bind (uses_create (x := x) c f n PENDING_WITHDRAW_LEN PROGRAM_ID hs) (fun L1 _ =>
    Uses.plain (r := setByte0 (L1 n).data AccountDiscriminator.PendingWithdraw.toU8) fun d _ =>
      Uses.done (L1.setData n d))
  rwa [List.append_nil] at this

theorem uses_createState (c : Caller) (f n : Pubkey) (st : State) (hs : (L n).owner = SYSTEM_PROGRAM_ID) :
    Uses (createStateBorshT x c L f n st) (creationCalls (L n).lamports (x.rentMin 2048))
      (List.replicate (creationCalls (L n).lamports (x.rentMin 2048)) SYSTEM_PROGRAM_ID) := by
  unfold createStateBorshT
  have := Uses.bind (uses_create (x := x) c f n STATE_LEN PROGRAM_ID hs) (fun L1 _ =>
    Uses.plain (r := ensure (st.serialize.length ≤ (L1 n).data.length) .invalidAccountData) fun _ _ =>
      Uses.done (L1.setData n (writeAt (L1 n).data 0 st.serialize)))
  rwa [List.append_nil] at this

theorem uses_stake (a : UInt64) :
    Uses (processStakeT x L accs a) 3 [SPL_TOKEN_PROGRAM_ID, SPL_TOKEN_PROGRAM_ID] := by
  unfold processStakeT
  iterate 21 refine .plain fun _ _ => ?_
  refine .hash (m := 2) fun _ _ => .hash (m := 1) fun _ _ => ?_
  iterate 4 refine .plain fun _ _ => ?_
  exact .call fun _ _ => .signer fun _ => .signed (m := 0) fun _ _ => .emit fun _ => .done _

theorem uses_unstake (a : UInt64) (i : UInt8) {u w : Meta} (hu : accs[0]? = some u) (hw : accs[2]? = some w) :
    Uses (processUnstakeT x L accs a i)
      (tries x.cr (pendingWithdrawSeedsRaw u.key [i]) PROGRAM_ID +
        (2 + creationCalls (L w.key).lamports (x.rentMin 1024)))
      (SPL_TOKEN_PROGRAM_ID ::
        List.replicate (creationCalls (L w.key).lamports (x.rentMin 1024)) SYSTEM_PROGRAM_ID) := by
  unfold processUnstakeT
  refine .plain fun u' h0 => .plain fun s _ => .plain fun w' h2 => ?_
  cases hu.symm.trans (getAccountInfo_ok.1 h0)
  cases hw.symm.trans (getAccountInfo_ok.1 h2)
  iterate 15 refine .plain fun _ _ => ?_
  refine .plain fun _ ho => ?_
  refine Uses.bind (l := []) (uses_seeds _ _ _) fun _ _ => ?_
  iterate 10 refine .plain fun _ _ => ?_
  rw [show 2 + creationCalls (L w.key).lamports (x.rentMin 1024) =
    1 + (1 + creationCalls (L w.key).lamports (x.rentMin 1024)) by omega]
  refine .hash fun _ _ => .hash fun _ _ => ?_
  iterate 3 refine .plain fun _ _ => ?_
  refine .call fun L1 hb => .plain fun st _ => .plain fun e _ => .signer fun pda => ?_
  have fr := (splBurn_eff (cpiBurn_ok.1 hb).2.2).frame
  have e1 : ((L1.setData s.key (setStEscrow st e)) w.key).owner = SYSTEM_PROGRAM_ID := by
    rw [Ledger.setData_owner, fr.owner]; exact assertAccountOwner_ok.1 ho
  have e2 : ((L1.setData s.key (setStEscrow st e)) w.key).lamports = (L w.key).lamports := by
    rw [Ledger.setData_lamports, fr.lamports]
  have := uses_createRecord (x := x) ⟨accs, [pda]⟩ u.key w.key e1
  rw [e2] at this
  rw [← List.append_nil (List.replicate _ _)]
  exact Uses.bind (m := 0) this fun _ _ => .plain fun _ _ => .emit fun _ => .done _

theorem uses_withdraw (i : UInt8) : Uses (processWithdrawT x L accs i) 4 [SPL_TOKEN_PROGRAM_ID] := by
  unfold processWithdrawT
  iterate 14 refine .plain fun _ _ => ?_
  refine .hash (m := 3) fun _ _ => .hash (m := 2) fun _ _ => ?_
  iterate 3 refine .plain fun _ _ => ?_
  refine .hash (m := 1) fun _ _ => ?_
  iterate 6 refine .plain fun _ _ => ?_
  exact .signer fun _ => .signed (m := 0) fun _ _ => .plain fun _ _ => .plain fun _ _ => .plain fun _ _ =>
    .emit fun _ => .done _

theorem uses_set (u : StateUpdateInstruction) : Uses (processSetT x L accs u) 1 [] := by
  unfold processSetT
  iterate 6 refine .plain fun _ _ => ?_
  refine .hash (m := 0) fun _ _ => .plain fun _ _ => ?_
  cases u
  · exact .plain fun _ _ => .done _
  · exact .emit fun _ => .done _

theorem uses_initialize (c : Int64) {s : Meta} (hs : accs[2]? = some s) : Uses (processInitializeT x L accs c)
    (tries x.cr stateSeedsRaw PROGRAM_ID +
      (2 * tries x.cr (vaultSeedsRaw s.key SPL_TOKEN_PROGRAM_ID ORCA_MINT_ID) ASSOCIATED_TOKEN_PROGRAM_ID +
        creationCalls (L s.key).lamports (x.rentMin 2048)))
    (List.replicate (creationCalls (L s.key).lamports (x.rentMin 2048)) SYSTEM_PROGRAM_ID ++
      [ASSOCIATED_TOKEN_PROGRAM_ID]) := by
  unfold processInitializeT
  generalize State.default = s0
  refine .plain fun _ _ => .plain fun _ _ => .plain fun s' h2 => ?_
  cases hs.symm.trans (getAccountInfo_ok.1 h2)
  refine .plain fun _ _ => .plain fun _ _ => .plain fun om _ => ?_
  iterate 6 refine .plain fun _ _ => ?_
  refine Uses.bind (l := []) (uses_seeds _ _ _) fun _ _ => .plain fun _ _ => .plain fun _ ho => ?_
  iterate 11 refine .plain fun _ _ => ?_
  refine .plain fun _ hom => ?_
  rw [← assertAccountAddress_ok.1 hom]
  iterate 7 refine .plain fun _ _ => ?_
  rw [Nat.two_mul, Nat.add_assoc]
  refine Uses.bind (l := []) (uses_searching _ _) fun ⟨_, _⟩ _ => ?_
  refine Uses.bind (l := []) (uses_seeds _ _ _) fun _ _ => .plain fun _ _ => .signer fun _ => ?_
  exact Uses.bind (m := 0) (uses_createState _ _ _ _ (assertAccountOwner_ok.1 ho)) fun _ _ =>
    .call fun _ _ => .done _

/-! ### The log comes last -/

/-- Nothing is logged. -/
def NoLog (p : Traced α) : Prop := logged p.trace = 0

/-- A failure logs nothing; a success logs, at the very end, as many times as it reports events. -/
def EndsLogged (p : Traced Outcome) : Prop :=
  (∀ e, p.result = .error e → logged p.trace = 0) ∧
  ∀ o, p.result = .ok o → ∃ t, p.trace = t ++ List.replicate o.2.length Op.log ∧ logged t = 0

theorem nolog_plain (r : Res α) : NoLog (plainly r) := rfl
theorem nolog_hash (r : Res α) : NoLog (hashing r) := rfl
theorem nolog_call (P : Pubkey) (r : Res α) : NoLog (calling P r) := rfl
theorem nolog_signed (P : Pubkey) (r : Res α) : NoLog (callingSigned P r) := rfl
theorem nolog_signer (s : List Bytes) (b : UInt8) : NoLog (signer cr s b) := by
  unfold signer; cases signerPda cr s b <;> rfl
theorem nolog_searching (s : List Bytes) (p : Pubkey) : NoLog (searching cr s p) := by
  show List.count _ (List.replicate _ _) = 0
  exact List.count_eq_zero.2 fun h => by cases List.eq_of_mem_replicate h

theorem NoLog.bind {p : Traced α} {f : α → Traced β} (h1 : NoLog p) (h2 : ∀ a, NoLog (f a)) : NoLog (p >>= f) := by
  show NoLog (Traced.andThen p f)
  unfold Traced.andThen NoLog
  cases p.result with
  | ok a =>
    show logged (_ ++ _) = 0
    rw [logged_append, h1, h2 a]
  | error e => exact h1

theorem nolog_seeds (a : Meta) (p : Pubkey) (s : List Bytes) : NoLog (assertAccountSeedsT cr a p s) := by
  unfold assertAccountSeedsT
  exact (nolog_searching ..).bind fun ⟨_, _⟩ => (nolog_plain _).bind fun _ => rfl

theorem nolog_create (c : Caller) (f n : Pubkey) (s : Nat) (o : Pubkey) : NoLog (createAccountSecureT x c L f n s o) := by
  unfold createAccountSecureT
  dsimp only
  generalize (if (x.rentMin s).toNat ≤ (L n).lamports.toNat then (0 : UInt64) else x.rentMin s - (L n).lamports) = t
  split
  · rfl
  split
  · rfl
  split
  · exact (nolog_signed ..).bind fun _ => (nolog_signed ..).bind fun _ => rfl
  · exact (nolog_plain _).bind fun _ => (nolog_signed ..).bind fun _ => rfl

theorem nolog_createRecord (c : Caller) (f n : Pubkey) : NoLog (createPendingWithdrawSecureT x c L f n) := by
  unfold createPendingWithdrawSecureT
  exact (nolog_create ..).bind fun _ => (nolog_plain _).bind fun _ => rfl

theorem nolog_createState (c : Caller) (f n : Pubkey) (s : State) : NoLog (createStateBorshT x c L f n s) := by
  unfold createStateBorshT
  exact (nolog_create ..).bind fun _ => (nolog_plain _).bind fun _ => rfl

theorem EndsLogged.bind {p : Traced α} {f : α → Traced Outcome} (h1 : NoLog p) (h2 : ∀ a, EndsLogged (f a)) :
    EndsLogged (p >>= f) := by
  show EndsLogged (Traced.andThen p f)
  unfold Traced.andThen
  cases p.result with
  | ok a =>
    refine ⟨fun e he => ?_, fun o ho => ?_⟩
    · show logged (_ ++ _) = 0
      rw [logged_append, h1, (h2 a).1 e he]
    · obtain ⟨t, e1, e2⟩ := (h2 a).2 o ho
      refine ⟨p.trace ++ t, ?_, ?_⟩
      · show _ ++ _ = _
        rw [e1, List.append_assoc]
      · rw [logged_append, h1, e2]
  | error e => exact ⟨fun _ _ => h1, fun o ho => by cases ho⟩

theorem EndsLogged.emit (e : Event) (L : Ledger) : EndsLogged (emitting e >>= fun logs => pure (L, logs)) :=
  ⟨fun _ h => (by cases h), fun o ho => (by cases ho; exact ⟨[], rfl, rfl⟩)⟩

theorem EndsLogged.done (L : Ledger) : EndsLogged (pure (L, [])) :=
  ⟨fun _ h => (by cases h), fun o ho => (by cases ho; exact ⟨[], rfl, rfl⟩)⟩

/-- One step after the other. -/
macro "nolog_steps" : tactic =>
  `(tactic| repeat' first
    | exact EndsLogged.emit _ _
    | exact EndsLogged.done _
    | refine EndsLogged.bind (nolog_plain _) fun _ => ?_
    | refine EndsLogged.bind (nolog_hash _) fun _ => ?_
    | refine EndsLogged.bind (nolog_call _ _) fun _ => ?_
    | refine EndsLogged.bind (nolog_signed _ _) fun _ => ?_
    | refine EndsLogged.bind (nolog_signer _ _) fun _ => ?_
    | refine EndsLogged.bind (nolog_seeds _ _ _) fun _ => ?_
    | refine EndsLogged.bind (nolog_createRecord _ _ _) fun _ => ?_
    | refine EndsLogged.bind (nolog_createState _ _ _ _) fun _ => ?_
    | refine EndsLogged.bind (nolog_searching _ _) fun ⟨_, _⟩ => ?_)

theorem endsLogged_dispatch (ix : Instruction) : EndsLogged (dispatchT x L accs ix) := by
  cases ix <;> simp only [dispatchT]
  · unfold processStakeT; nolog_steps
  · unfold processUnstakeT; nolog_steps
  · unfold processWithdrawT; nolog_steps
  · unfold processInitializeT
    generalize State.default = s0
    iterate 12 refine EndsLogged.bind (nolog_plain _) fun _ => ?_
    refine EndsLogged.bind (nolog_seeds _ _ _) fun _ => ?_
    iterate 21 refine EndsLogged.bind (nolog_plain _) fun _ => ?_
    refine EndsLogged.bind (nolog_searching _ _) fun ⟨_, _⟩ => ?_
    refine EndsLogged.bind (nolog_seeds _ _ _) fun _ => EndsLogged.bind (nolog_plain _) fun _ => ?_
    exact EndsLogged.bind (nolog_signer _ _) fun _ => EndsLogged.bind (nolog_createState _ _ _ _) fun _ =>
      EndsLogged.bind (nolog_call _ _) fun _ => EndsLogged.done _
  · next u => unfold processSetT; cases u <;> nolog_steps

/-! ### Late errors -/

/-- Not one of the program's own errors, unless in `l`. -/
def Foreign (l : List ErrorCode) (e : Err) : Prop := ∀ c, e = .custom c → c ∈ l

/-- Every error is in `l` or not the program's own. -/
def Only (p : Traced α) (l : List ErrorCode) : Prop := ∀ e, p.result = .error e → Foreign l e

/-- Every error that comes after a call is in `l` or not the program's own. -/
def Late (p : Traced α) (l : List ErrorCode) : Prop := ∀ e, p.result = .error e → callees p.trace ≠ [] → Foreign l e

theorem Only.bind {p : Traced α} {f : α → Traced β} {l : List ErrorCode} (h1 : Only p l)
    (h2 : ∀ a, p.result = .ok a → Only (f a) l) :
    Only (p >>= f) l := by
  show Only (Traced.andThen p f) l
  intro e he
  unfold Traced.andThen at he
  cases hp : p.result with
  | ok a => rw [hp] at he; exact h2 a hp e he
  | error e' => rw [hp] at he; cases he; exact h1 e hp

theorem Late.bind {p : Traced α} {f : α → Traced β} {l : List ErrorCode} (h1 : callees p.trace = [])
    (h2 : ∀ a, p.result = .ok a → Late (f a) l) : Late (p >>= f) l := by
  show Late (Traced.andThen p f) l
  intro e he hc
  unfold Traced.andThen at he hc
  cases hp : p.result with
  | ok a =>
    rw [hp] at he hc
    refine h2 a hp e he fun h => hc ?_
    show callees (_ ++ _) = []
    rw [callees_append, h1, h]; rfl
  | error e' => rw [hp] at hc; exact absurd h1 hc

theorem Only.late {p : Traced α} {l : List ErrorCode} (h : Only p l) : Late p l := fun e he _ => h e he

theorem foreign_cpi {r : Res α} (h : CpiOnly r) {l : List ErrorCode} : ∀ e, r = .error e → Foreign l e := by
  intro e he c hc
  obtain ⟨k, hk⟩ := h e he
  rw [hk] at hc; cases hc

theorem callees_signer (s : List Bytes) (b : UInt8) : callees (signer cr s b).trace = [] := by
  unfold signer; cases signerPda cr s b <;> rfl

theorem callees_seeds (a : Meta) (p : Pubkey) (s : List Bytes) : callees (assertAccountSeedsT cr a p s).trace = [] :=
  List.sublist_nil.1 (within_seeds a p s).2

theorem only_signer (s : List Bytes) (b : UInt8) (l : List ErrorCode) : Only (signer cr s b) l := by
  intro e he c hc
  rw [result_signer, signerPda_err] at he
  rw [← he.2] at hc; cases hc

theorem only_done (a : α) (l : List ErrorCode) : Only (pure a) l := fun _ h => by cases h

/-- A step without calls. -/
theorem Late.plain {r : Res α} {f : α → Traced β} {l : List ErrorCode} (h : ∀ a, r = .ok a → Late (f a) l) :
    Late (plainly r >>= f) l := .bind rfl h

/-- A step that cannot fail. -/
theorem Only.pass {r : Res α} {f : α → Traced β} {l : List ErrorCode} {a : α} (h1 : r = .ok a) (h2 : Only (f a) l) :
    Only (plainly r >>= f) l := by
  refine .bind (p := plainly r) (fun e he => ?_) fun b hb => ?_
  · have he : r = .error e := he
    rw [h1] at he; cases he
  · have hb : r = .ok b := hb
    rw [h1] at hb; cases hb; exact h2

/-- A step that reports a missing value. -/
theorem Only.okOr {o : Option α} {f : α → Traced β} {l : List ErrorCode} {c : ErrorCode} (hc : c ∈ l)
    (h2 : ∀ a, Only (f a) l) : Only (plainly (okOr o (.custom c)) >>= f) l := by
  refine .bind (p := plainly _) (fun e he d hd => ?_) fun b _ => h2 b
  have he : Xorca.okOr o (.custom c) = .error e := he
  rw [okOr_eq_err] at he
  rw [← he.2] at hd
  cases hd
  exact hc

theorem Only.call {P : Pubkey} {r : Res α} {f : α → Traced β} {l : List ErrorCode} (h1 : CpiOnly r)
    (h2 : ∀ a, r = .ok a → Only (f a) l) : Only (calling P r >>= f) l :=
  .bind (p := calling P r) (foreign_cpi h1) h2

theorem Only.signed {P : Pubkey} {r : Res α} {f : α → Traced β} {l : List ErrorCode} (h1 : CpiOnly r)
    (h2 : ∀ a, r = .ok a → Only (f a) l) : Only (callingSigned P r >>= f) l :=
  .bind (p := callingSigned P r) (foreign_cpi h1) h2

theorem Only.emit {e : Event} {f : List Bytes → Traced β} {l : List ErrorCode} (h : ∀ a, Only (f a) l) :
    Only (emitting e >>= f) l :=
  .bind (p := emitting e) (fun _ h => by cases h) fun a _ => h a

theorem late_stake (a : UInt64) : Late (processStakeT x L accs a) [] := by
  unfold processStakeT
  iterate 27 refine Late.bind rfl fun _ _ => ?_
  exact (Only.call cpiTokenTransfer_cpi fun _ _ => .bind (only_signer _ _ _) fun _ _ => .signed cpiMintTo_cpi fun _ _ =>
    .emit fun _ => only_done _ _).late

theorem late_unstake (a : UInt64) (i : UInt8) :
    Late (processUnstakeT x L accs a i) [.ArithmeticError, .CoolDownOverflow] := by
  unfold processUnstakeT
  refine .plain fun u _ => .plain fun st _ => .plain fun pw _ => .plain fun xa _ => .plain fun xm _ => ?_
  iterate 10 refine Late.plain fun _ _ => ?_
  refine .plain fun _ stp => .plain fun _ _ => .plain fun _ _ => .plain fun _ _ => ?_
  refine Late.bind (callees_seeds _ _ _) fun _ _ => .plain fun _ xat => .plain fun _ _ => .plain fun _ xmp => ?_
  iterate 6 refine Late.plain fun _ _ => ?_
  refine .plain fun _ hst => ?_
  iterate 5 refine Late.bind rfl fun _ _ => ?_
  rw [assertAccountOwner_ok] at stp xmp
  obtain ⟨e1, hst⟩ := assertStateData_ok.1 hst
  subst e1
  have xap := (makeOwnerTokenAccountAssertions_ok.1 xat).2.1
  refine (Only.call cpiBurn_cpi fun L1 hL1 => ?_).late
  have fr := (splBurn_eff (cpiBurn_ok.1 hL1).2.2).frame
  have n1 : st.key ≠ xa.key := fun h => token_ne_program (by rw [← stp, h, xap])
  have n2 : st.key ≠ xm.key := fun h => token_ne_program (by rw [← stp, h, xmp])
  have hd : (L1 st.key).data = (L st.key).data := fr.data_other (by simp [n1, n2])
  refine .pass (assertStateData_ok.2 ⟨rfl, by rw [hd]; exact hst⟩) (.okOr (by simp) fun _ => ?_)
  refine .bind (only_signer _ _ _) fun _ _ => .bind (fun e h c hc => ?_) fun _ _ => .okOr (by simp) fun _ =>
    .emit fun _ => only_done _ _
  rw [result_createRecord] at h
  subst hc
  rw [createPendingWithdrawSecure_no (fun _ h => by cases h) (fun h => by cases h)] at h
  exact h.elim

theorem late_withdraw (i : UInt8) : Late (processWithdrawT x L accs i) [] := by
  unfold processWithdrawT
  refine .plain fun u _ => .plain fun st _ => .plain fun pw _ => .plain fun oa _ => .plain fun v _ => ?_
  iterate 7 refine Late.plain fun _ _ => ?_
  refine .plain fun _ stp => .plain fun _ hst => Late.bind rfl fun _ _ => Late.bind rfl fun _ _ => .plain fun _ _ => ?_
  refine .plain fun _ pwp => .plain fun _ hpw => Late.bind rfl fun _ _ => .plain fun _ oat => .plain fun _ vat => ?_
  refine .plain fun _ _ => .plain fun _ _ => .plain fun _ _ => .plain fun _ hen => ?_
  rw [assertAccountOwner_ok] at stp pwp
  obtain ⟨e1, stl, std⟩ := assertStateData_ok.1 hst
  obtain ⟨e2, pwl, pwd⟩ := assertPendingWithdrawData_ok.1 hpw
  subst e1 e2
  have op := (makeOwnerTokenAccountAssertions_ok.1 oat).2.1
  have vp := (makeOwnerTokenAccountAssertions_ok.1 vat).2.1
  have n1 : st.key ≠ pw.key := fun h => by rw [h, pwd] at std; exact absurd std (by decide)
  have n2 : st.key ≠ oa.key := fun h => token_ne_program (by rw [← stp, h, op])
  have n3 : st.key ≠ v.key := fun h => token_ne_program (by rw [← stp, h, vp])
  refine Late.bind (callees_signer _ _) fun _ _ => (Only.signed cpiTokenTransfer_cpi fun L1 h1 => ?_).late
  have fr := splTransfer_frame (cpiTokenTransfer_ok.1 h1).2.2
  refine .bind (p := plainly _) (fun e h c hc => ?_) fun L2 hL2 => ?_
  · subst hc
    have h : closeProgramAccount _ _ _ = _ := h
    rw [closeProgramAccount_err] at h
    cases h.2
  have hL2 : closeProgramAccount _ _ _ = _ := hL2
  have hd : (L2 st.key).data = (L st.key).data := by
    rw [closeProgramAccount_data hL2 n1, fr.data_other (by simp [n2, n3])]
  refine .pass (assertStateData_ok.2 ⟨rfl, by rw [hd]; exact ⟨stl, std⟩⟩) ?_
  cases hs : checkedSubU64 (stEscrow (L2 st.key).data) (pwAmount (L pw.key).data) with
  | none =>
    rw [hd, checkedSubU64_none] at hs
    exact absurd hs (ensure_eq_ok.1 hen)
  | some e => exact .pass rfl (.emit fun _ => only_done _ _)

theorem late_set (u : StateUpdateInstruction) : Late (processSetT x L accs u) [] :=
  fun _ _ hc => absurd (List.sublist_nil.1 (within_set u).2) hc

theorem late_initialize (c : Int64) : Late (processInitializeT x L accs c) [] := by
  unfold processInitializeT
  generalize State.default = s0
  iterate 12 refine Late.plain fun _ _ => ?_
  refine Late.bind (callees_seeds _ _ _) fun _ _ => ?_
  iterate 21 refine Late.plain fun _ _ => ?_
  refine Late.bind (callees_replicate _) fun ⟨_, _⟩ _ => ?_
  refine Late.bind (callees_seeds _ _ _) fun _ _ => .plain fun _ _ => Late.bind (callees_signer _ _) fun _ _ => ?_
  refine (Only.bind (fun e h c hc => ?_) fun _ _ => .bind (p := calling _ _) (fun e h c hc => ?_) fun _ _ => ?_).late
  · rw [result_createState] at h
    subst hc
    rw [createStateBorsh_no (fun _ h => by cases h) (fun h => by cases h)] at h
    exact h.elim
  · subst hc
    have h : cpiCreateAtaIdempotent _ _ _ _ _ _ _ = _ := h
    rw [cpiCreateAtaIdempotent_no (fun _ h => by cases h) (fun h => by cases h)] at h
    exact h.elim
  · exact only_done _ _

theorem late_dispatch (ix : Instruction) : Late (dispatchT x L accs ix) (lateErrors ix) := by
  cases ix
  · exact late_stake _
  · exact late_unstake _ _
  · exact late_withdraw _
  · exact late_initialize _
  · exact late_set _

/-! ### The entry point -/

variable {data : Bytes} {ix : Instruction}

theorem entryT_eq (hd : decodeIx data = some ix) : entryT x PROGRAM_ID L accs data = dispatchT x L accs ix := by
  obtain ⟨r, h⟩ := deserialize_of_decodeIx hd
  unfold entryT
  rw [h]
  show Traced.andThen _ _ = _
  rw [show ensure (PROGRAM_ID = PROGRAM_ID) (.custom .IncorrectProgramId) = .ok () from if_pos rfl]
  rfl

theorem entryT_none (hd : decodeIx data = none) :
    entryT x PROGRAM_ID L accs data = ⟨.error (.custom .UnknownInstructionDiscriminator), []⟩ := by
  unfold entryT
  rw [deserialize_of_decodeIx_none hd]
  show Traced.andThen _ _ = _
  rw [show ensure (PROGRAM_ID = PROGRAM_ID) (.custom .IncorrectProgramId) = .ok () from if_pos rfl]
  rfl

end Xorca
