import Verif.Lemmas.Builders
import Verif.Props.Accept
/-
C89, C90: the instruction builders and parsers of the clients.
-/
namespace Xorca
open Spec

variable {cr : Crypto} {x : Ctx} {L L' : Ledger} {accs : List Meta} {logs : List Bytes}

/-! ### C89: building and reading instructions in JS -/

/-- Identifying an instruction and parsing it in JS gives what the program decodes, from any bytes, and throws
exactly when the program could not decode it or would be short of accounts. -/
theorem C89_js_reads_as_program (d : Bytes) (as : List Meta) (ix : Instruction) :
    Client.jsRead accs d = some (as, ix) ↔
      decodeIx d = some ix ∧ (declared ix).length ≤ accs.length ∧ as = accs.take (declared ix).length := by
  rw [← Client.jsData_eq, Client.jsRead]
  cases hk : Client.jsKind d with
  | none => simp
  | some k =>
    simp only [Option.bind_some, Client.jsParse]
    constructor
    · intro h
      split at h
      · cases h
      rename_i hl
      obtain ⟨ix', hd, he⟩ := Option.map_eq_some_iff.1 h
      simp only [Prod.mk.injEq] at he
      obtain ⟨rfl, rfl⟩ := he
      rw [← Client.jsCount_eq, Client.jsDecodeData_kind hd]
      exact ⟨hd, Nat.not_lt.1 hl, rfl⟩
    · rintro ⟨hd, hl, rfl⟩
      rw [← Client.jsCount_eq, Client.jsDecodeData_kind hd] at hl ⊢
      rw [if_neg (Nat.not_lt.2 hl), hd]; rfl

/-- Every call the program accepts can be read, and shows the accounts and arguments the program used. -/
theorem C89_js_reads_accepted_calls {d : Bytes} (h : entry x PROGRAM_ID L accs d = .ok (L', logs)) :
    ∃ ix, decodeIx d = some ix ∧ Runs x L accs ix L' logs ∧
      Client.jsRead accs d = some (accs.take (declared ix).length, ix) := by
  cases hd : decodeIx d with
  | none =>
    unfold entry at h
    simp [deserialize_of_decodeIx_none hd, ensure, okOr, bind, Except.bind] at h
  | some ix =>
    have hr : Runs x L accs ix L' logs := ⟨d, hd, h⟩
    refine ⟨ix, rfl, hr, (C89_js_reads_as_program ..).2 ⟨hd, ?_, rfl⟩⟩
    by_contra hl
    obtain ⟨m, hm, -⟩ := (C57_account_table_enforced hr).1 ((declared ix).length - 1) _ _
      (List.getElem?_eq_getElem (show (declared ix).length - 1 < (declared ix).length from by omega))
    have := (List.getElem?_eq_some_iff.1 hm).1
    omega

/-- Instructions built in JS are read back as they were built. -/
theorem C89_js_reads_own (p : Pubkey) (ix : Instruction) (r : Bytes) {input : List (Option Client.JsAccount)}
    (hl : input.length = (declared ix).length) :
    Client.jsRead (Client.jsAccounts p (Client.Kind.of ix) input) (Client.encode ix ++ r) =
      some (Client.jsAccounts p (Client.Kind.of ix) input, ix) := by
  have hn : (Client.jsAccounts p (Client.Kind.of ix) input).length = (declared ix).length := by
    simp [Client.jsAccounts, Client.jsWritable_eq, hl]
  refine (C89_js_reads_as_program ..).2 ⟨decodeIx_encode ix r, hn.ge, ?_⟩
  rw [← hn, List.take_length]

/-- When every account is given, and given as a signer where the table asks for one, the list built in JS is the
published table. -/
theorem C89_js_accounts {p : Pubkey} {ix : Instruction} {input : List (Option Client.JsAccount)}
    (hl : input.length = (declared ix).length)
    (hi : ∀ (i : Nat) w s, (declared ix)[i]? = some (w, s) → ∃ v, input[i]? = some (some v) ∧ v.isSigner = s) :
    (Client.jsAccounts p (Client.Kind.of ix) input).length = (declared ix).length ∧
    ∀ (i : Nat) w s, (declared ix)[i]? = some (w, s) → ∃ v, input[i]? = some (some v) ∧
      (Client.jsAccounts p (Client.Kind.of ix) input)[i]? = some ⟨v.key, s, w⟩ := by
  refine ⟨by simp [Client.jsAccounts, Client.jsWritable_eq, hl], fun i w s h => ?_⟩
  obtain ⟨v, hv, hs⟩ := hi i w s h
  refine ⟨v, hv, ?_⟩
  rw [Client.jsAccounts, List.getElem?_zipWith, hv, Client.jsWritable_eq, List.getElem?_map, h]
  simp only [Option.map_some, Client.jsMeta, hs]

/-- A missing account is replaced by the address of the program, without rights; the program refuses every
instruction built that way. -/
theorem C89_missing_account_refused {ix : Instruction} {input : List (Option Client.JsAccount)} {i : Nat}
    (hm : input[i]? = some none) (hi : i < (declared ix).length)
    (ho : (L PROGRAM_ID).owner ≠ PROGRAM_ID) (ht : (L PROGRAM_ID).owner ≠ SPL_TOKEN_PROGRAM_ID) (r : Bytes) :
    (Client.jsAccounts PROGRAM_ID (Client.Kind.of ix) input)[i]? = some ⟨PROGRAM_ID, false, false⟩ ∧
    ∃ e, entry x PROGRAM_ID L (Client.jsAccounts PROGRAM_ID (Client.Kind.of ix) input) (Client.encode ix ++ r) =
      .error e := by
  have hb : (Client.jsAccounts PROGRAM_ID (Client.Kind.of ix) input)[i]? = some ⟨PROGRAM_ID, false, false⟩ := by
    rw [Client.jsAccounts, List.getElem?_zipWith, hm, Client.jsWritable_eq, List.getElem?_map,
      List.getElem?_eq_getElem hi]
    rfl
  refine ⟨hb, ?_⟩
  cases h : entry x PROGRAM_ID L (Client.jsAccounts PROGRAM_ID (Client.Kind.of ix) input) (Client.encode ix ++ r) with
  | error e => exact ⟨e, rfl⟩
  | ok o =>
    exfalso
    have hr : Runs x L _ ix o.1 o.2 := ⟨_, decodeIx_encode ix r, h⟩
    obtain ⟨hf, hk, hp⟩ := C57_account_table_enforced hr
    have h1 : ∀ w s, (declared ix)[i]? = some (w, s) → w = false ∧ s = false := by
      intro w s hd
      obtain ⟨m, hm', hw, hs⟩ := hf i w s hd
      rw [hb] at hm'
      cases hm'
      constructor
      · cases w
        · rfl
        · exact absurd (hw rfl) (by decide)
      · cases s
        · rfl
        · exact absurd (hs rfl) (by decide)
    have h2 : ∀ k, (fixedKeys ix)[i]? = some (some k) → k = PROGRAM_ID := by
      intro k hd
      obtain ⟨m, hm', he⟩ := hk i k hd
      rw [hb] at hm'
      cases hm'
      exact he.symm
    have h3 : ∀ k, (owningProgram ix)[i]? = some (some k) → (L PROGRAM_ID).owner = k := by
      intro k hd
      obtain ⟨m, hm', he⟩ := hp i k hd
      rw [hb] at hm'
      cases hm'
      exact he
    cases ix with
    | Stake a =>
      rcases i with _|_|_|_|_|_|_|_|i
      iterate 5 exact absurd (h1 _ _ rfl).1 (by decide)
      · exact ho (h3 _ rfl)
      iterate 2 exact absurd (h2 _ rfl) (by decide)
      · simp only [declared, List.length_cons, List.length_nil] at hi; omega
    | Unstake a j =>
      rcases i with _|_|_|_|_|_|_|_|_|i
      iterate 5 exact absurd (h1 _ _ rfl).1 (by decide)
      · exact absurd (h2 _ rfl) (by decide)
      · exact ht (h3 _ rfl)
      iterate 2 exact absurd (h2 _ rfl) (by decide)
      · simp only [declared, List.length_cons, List.length_nil] at hi; omega
    | Withdraw j =>
      rcases i with _|_|_|_|_|_|_|_|i
      iterate 5 exact absurd (h1 _ _ rfl).1 (by decide)
      iterate 3 exact absurd (h2 _ rfl) (by decide)
      · simp only [declared, List.length_cons, List.length_nil] at hi; omega
    | Initialize c =>
      rcases i with _|_|_|_|_|_|_|_|_|i
      iterate 4 exact absurd (h1 _ _ rfl).1 (by decide)
      iterate 5 exact absurd (h2 _ rfl) (by decide)
      · simp only [declared, List.length_cons, List.length_nil] at hi; omega
    | Set u =>
      rcases i with _|_|i
      iterate 2 exact absurd (h1 _ _ rfl).1 (by decide)
      · simp only [declared, List.length_cons, List.length_nil] at hi; omega

/-- A parser on its own does not notice that the data is another instruction: the bytes of a stake of 7 read as a
withdrawal of record 7. -/
theorem C89_parser_does_not_check_kind (h : 8 ≤ accs.length) :
    Client.jsParse .Withdraw accs (Client.encode (.Stake 7)) = some (accs.take 8, .Withdraw 7) ∧
    decodeIx (Client.encode (.Stake 7)) = some (.Stake 7) := by
  refine ⟨?_, by decide +kernel⟩
  rw [Client.jsParse, if_neg (show ¬ accs.length < Client.jsCount .Withdraw from Nat.not_lt.2 h)]
  rfl

/-- The demo chain's stake, built in JS from a signer and seven addresses. -/
def Demo.jsStake : List (Option Client.JsAccount) :=
  [some (.signer Demo.US), some (.address Demo.VA), some (.address Demo.UO), some (.address Demo.UX),
   some (.address XORCA_MINT_ID), some (.address Demo.ST), some (.address ORCA_MINT_ID),
   some (.address SPL_TOKEN_PROGRAM_ID)]

example : Client.jsAccounts PROGRAM_ID .Stake Demo.jsStake = Demo.stakeAccs ∧
    Client.jsRead Demo.stakeAccs (Client.encode (.Stake 1000000)) = some (Demo.stakeAccs, .Stake 1000000) :=
  ⟨rfl, C89_js_reads_own PROGRAM_ID (.Stake 1000000) [] (input := Demo.jsStake) rfl ▸ by
    rw [List.append_nil]; rfl⟩
/-- Leaving out the vault. -/
example (x : Ctx) (r : Bytes) : ∃ e, entry x PROGRAM_ID (fun _ => ⟨1, SYSTEM_PROGRAM_ID, []⟩)
    (Client.jsAccounts PROGRAM_ID .Stake (Demo.jsStake.set 1 none)) (Client.encode (.Stake 5) ++ r) = .error e :=
  (C89_missing_account_refused (ix := .Stake 5) (input := Demo.jsStake.set 1 none) (i := 1) rfl (by decide)
    (by decide) (by decide) r).2
/-- With the staker given as an address instead of a signer the list is not the published one. -/
example : Client.jsAccounts PROGRAM_ID .Stake (some (.address Demo.US) :: Demo.jsStake.tail) ≠ Demo.stakeAccs := by
  decide +kernel

/-! ### C90: the Rust builders -/

/-- What a chain of setter calls builds: for each account and argument the last value given, in the published
order with the published flags, then the remaining accounts in the order they were added. -/
theorem C90_builder_result (k : Client.Kind) (calls : List (Client.Setter Meta)) (metas : List Meta) (data : Bytes) :
    (Client.Builder.new.run calls).instruction k = some (metas, data) ↔
      ∃ (ix : Instruction) (keys : List Pubkey), Client.Kind.of ix = k ∧ Client.Given calls ix ∧
        keys.length = (declared ix).length ∧
        (∀ i, i < keys.length → Client.lastOf (Client.Setter.key? i) calls = keys[i]?) ∧
        metas = List.zipWith (fun key f => ⟨key, f.2, f.1⟩) keys (declared ix) ++
          calls.flatMap Client.Setter.extras ∧
        data = Client.encode ix := by
  unfold Client.Builder.instruction
  simp only [Option.bind_eq_bind, Option.bind_eq_some_iff, Client.namedMetas_some, Client.run_args,
    Client.run_account, Client.run_remaining, Option.some.injEq, Prod.mk.injEq, Nat.zero_add]
  constructor
  · rintro ⟨ms, ⟨keys, hl, hf, rfl⟩, ix, ⟨rfl, hg⟩, rfl, rfl⟩
    rw [Client.rustPushes_eq] at hl hf ⊢
    rw [List.length_map] at hl hf
    exact ⟨ix, keys, rfl, hg, hl, fun i hi => hf i (hl ▸ hi), by rw [Client.zipWith_rustMeta], rfl⟩
  · rintro ⟨ix, keys, rfl, hg, hl, hf, rfl, rfl⟩
    refine ⟨_, ⟨keys, by rw [Client.rustPushes_eq, List.length_map, hl], fun i hi => hf i ?_, rfl⟩, ix, ⟨rfl, hg⟩, ?_, rfl⟩
    · rw [Client.rustPushes_eq, List.length_map] at hi; omega
    · rw [Client.rustPushes_eq, Client.zipWith_rustMeta]

/-- The same for a call from another program, except that the two flags of the remaining accounts are read in the
wrong order: see `C90_cpi_flags_swapped`. -/
theorem C90_cpi_result (k : Client.Kind) (calls : List (Client.Setter Client.Extra)) (metas : List Meta)
    (data : Bytes) :
    (Client.Builder.new.run calls).invoke k = some (metas, data) ↔
      ∃ (ix : Instruction) (keys : List Pubkey), Client.Kind.of ix = k ∧ Client.Given calls ix ∧
        keys.length = (declared ix).length ∧
        (∀ i, i < keys.length → Client.lastOf (Client.Setter.key? i) calls = keys[i]?) ∧
        metas = List.zipWith (fun key f => ⟨key, f.2, f.1⟩) keys (declared ix) ++
          (calls.flatMap Client.Setter.extras).map (fun r => ⟨r.1, r.2.1, r.2.2⟩) ∧
        data = Client.encode ix := by
  unfold Client.Builder.invoke
  simp only [Option.bind_eq_bind, Option.bind_eq_some_iff, Client.namedMetas_some, Client.run_args,
    Client.run_account, Client.run_remaining, Option.some.injEq, Prod.mk.injEq, Nat.zero_add]
  constructor
  · rintro ⟨ms, ⟨keys, hl, hf, rfl⟩, ix, ⟨rfl, hg⟩, rfl, rfl⟩
    rw [Client.rustPushes_eq] at hl hf ⊢
    rw [List.length_map] at hl hf
    exact ⟨ix, keys, rfl, hg, hl, fun i hi => hf i (hl ▸ hi), by rw [Client.zipWith_rustMeta]; rfl, rfl⟩
  · rintro ⟨ix, keys, rfl, hg, hl, hf, rfl, rfl⟩
    refine ⟨_, ⟨keys, by rw [Client.rustPushes_eq, List.length_map, hl], fun i hi => hf i ?_, rfl⟩, ix, ⟨rfl, hg⟩, ?_, rfl⟩
    · rw [Client.rustPushes_eq, List.length_map] at hi; omega
    · rw [Client.rustPushes_eq, Client.zipWith_rustMeta]; rfl

/-- A builder panics exactly when an account or an argument was never given. -/
theorem C90_builder_panics (ix : Instruction) (calls : List (Client.Setter Meta)) :
    (Client.Builder.new.run calls).instruction (Client.Kind.of ix) = none ↔
      (∃ i, i < (declared ix).length ∧ Client.lastOf (Client.Setter.key? i) calls = none) ∨
      (∀ ix', Client.Kind.of ix' = Client.Kind.of ix → ¬ Client.Given calls ix') := by
  have hlen : ∀ ix', Client.Kind.of ix' = Client.Kind.of ix → (declared ix').length = (declared ix).length := by
    intro ix' h; rw [← Client.jsCount_eq, ← Client.jsCount_eq, h]
  constructor
  · intro h
    by_contra hn
    simp only [not_or, not_exists, not_and, not_forall, not_not] at hn
    obtain ⟨hk, ix', hix, hg⟩ := hn
    let keys := (List.range (declared ix).length).map fun i =>
      (Client.lastOf (Client.Setter.key? i) calls).getD PROGRAM_ID
    have h' := (C90_builder_result (Client.Kind.of ix) calls _ _).2 ⟨ix', keys, hix, hg,
      by rw [hlen ix' hix]; simp [keys], fun i hi => by
        have hi' : i < (declared ix).length := by simpa [keys] using hi
        obtain ⟨key, hkey⟩ := Option.ne_none_iff_exists'.1 (hk i hi')
        simp [keys, hi', hkey], rfl, rfl⟩
    rw [h] at h'
    cases h'
  · intro h
    by_contra hn
    obtain ⟨⟨metas, data⟩, hs⟩ := Option.ne_none_iff_exists'.1 hn
    obtain ⟨ix', keys, hix, hg, hl, hf, -⟩ := (C90_builder_result _ _ _ _).1 hs
    rcases h with ⟨i, hi, h⟩ | h
    · have hi' : i < keys.length := by rw [hl, hlen ix' hix]; exact hi
      rw [hf i hi', List.getElem?_eq_getElem hi'] at h
      cases h
    · exact h ix' hix hg

/-- `add_remaining_account(account, is_writable, is_signer)` of the CPI builders asks the runtime for a signature
where write access was meant, and for write access where a signature was meant. -/
theorem C90_cpi_flags_swapped (account : Pubkey) (isWritable isSigner : Bool) :
    (Client.addRemainingAccount account isWritable isSigner).extras.map Client.extraMeta =
      [⟨account, isWritable, isSigner⟩] ∧
    ((Client.addRemainingAccount account isWritable isSigner).extras.map Client.extraMeta =
      [{ key := account, isSigner := isSigner, isWritable := isWritable }] ↔ isWritable = isSigner) := by
  refine ⟨rfl, ?_⟩
  cases isWritable <;> cases isSigner <;>
    simp [Client.addRemainingAccount, Client.Setter.extras, Client.extraMeta]

/-- So a call with a writable remaining account that the caller cannot sign for is refused by the runtime before
the program starts, whatever rights the caller has to write it. -/
theorem C90_cpi_writable_refused {k : Client.Kind} {before after : List (Client.Setter Client.Extra)}
    {account : Pubkey} {isSigner : Bool} {metas : List Meta} {data : Bytes} {c : Caller}
    (h : (Client.Builder.new.run (before ++ Client.addRemainingAccount account true isSigner :: after)).invoke k =
      some (metas, data)) (hs : c.signs account = false) : ¬ Client.CpiAllowed c metas := by
  obtain ⟨ix, keys, -, -, -, -, rfl, -⟩ := (C90_cpi_result ..).1 h
  intro ha
  have hm : (⟨account, true, isSigner⟩ : Meta) ∈ List.zipWith (fun key f => ⟨key, f.2, f.1⟩) keys (declared ix) ++
      ((before ++ Client.addRemainingAccount account true isSigner :: after).flatMap Client.Setter.extras).map
        (fun r => (⟨r.1, r.2.1, r.2.2⟩ : Meta)) := by
    simp [Client.addRemainingAccount, Client.Setter.extras]
  have := (ha _ hm).2.1 rfl
  rw [hs] at this
  cases this

/-- Without remaining accounts the call needs just the rights of the published table. -/
theorem C90_cpi_allowed {ix : Instruction} {calls : List (Client.Setter Client.Extra)} {keys : List Pubkey}
    (hg : Client.Given calls ix) (hl : keys.length = (declared ix).length)
    (hf : ∀ i, i < keys.length → Client.lastOf (Client.Setter.key? i) calls = keys[i]?)
    (he : calls.flatMap Client.Setter.extras = []) (c : Caller) :
    ∃ metas, (Client.Builder.new.run calls).invoke (Client.Kind.of ix) = some (metas, Client.encode ix) ∧
      metas.map Meta.key = keys ∧
      (Client.CpiAllowed c metas ↔ ∀ (i : Nat) key w s, keys[i]? = some key → (declared ix)[i]? = some (w, s) →
        c.has key = true ∧ (s = true → c.signs key = true) ∧ (w = true → c.writes key = true)) := by
  refine ⟨_, (C90_cpi_result ..).2 ⟨ix, keys, rfl, hg, hl, hf, rfl, rfl⟩, ?_, ?_⟩
  · rw [he, List.map_nil, List.append_nil]
    apply List.ext_getElem?
    intro i
    rw [List.getElem?_map, List.getElem?_zipWith]
    by_cases hi : i < keys.length
    · rw [List.getElem?_eq_getElem hi, List.getElem?_eq_getElem (hl ▸ hi)]; rfl
    · rw [List.getElem?_eq_none (Nat.not_lt.1 hi)]; rfl
  · rw [he, List.map_nil, List.append_nil]
    constructor
    · intro ha i key w s hk hd
      refine ha ⟨key, s, w⟩ (List.mem_of_getElem? (i := i) ?_)
      rw [List.getElem?_zipWith, hk, hd]
    · intro ha m hm
      obtain ⟨i, hi⟩ := List.getElem?_of_mem hm
      rw [List.getElem?_zipWith] at hi
      cases hk : keys[i]? with
      | none => rw [hk] at hi; cases hi
      | some key =>
        cases hd : (declared ix)[i]? with
        | none => rw [hk, hd] at hi; cases hi
        | some f =>
          rw [hk, hd] at hi
          obtain rfl := Option.some.inj hi
          exact ha i key f.1 f.2 hk hd

/-- Setter calls for the demo chain's update of the cool-down period: the authority is set twice, the second
value counts; one remaining account. -/
def Demo.setCalls {ρ : Type} (r : ρ) : List (Client.Setter ρ) :=
  [.account 0 Demo.VA, .update (.UpdateCoolDownPeriod 7), .remaining [r], .account 1 Demo.ST, .account 0 Demo.US]

example : (Client.Builder.new.run (Demo.setCalls ⟨Demo.UO, false, true⟩)).instruction .Set =
    some ([⟨Demo.US, true, true⟩, ⟨Demo.ST, false, true⟩, ⟨Demo.UO, false, true⟩],
      Client.encode (.Set (.UpdateCoolDownPeriod 7))) := by rfl
/-- The call from another program, meant to pass the same account as writable. -/
example : (Client.Builder.new.run (Demo.setCalls (Demo.UO, true, false))).invoke .Set =
    some ([⟨Demo.US, true, true⟩, ⟨Demo.ST, false, true⟩, ⟨Demo.UO, true, false⟩],
      Client.encode (.Set (.UpdateCoolDownPeriod 7))) := by rfl
example : (Client.Builder.new.run ((Demo.setCalls ⟨Demo.UO, false, true⟩).take 4)).instruction .Set ≠ none ∧
    (Client.Builder.new.run ((Demo.setCalls ⟨Demo.UO, false, true⟩).take 3)).instruction .Set = none :=
  ⟨nofun, rfl⟩
/-- The caller has write access to the account and is still refused. -/
example : ¬ Client.CpiAllowed ⟨[⟨Demo.US, true, true⟩, ⟨Demo.ST, false, true⟩, ⟨Demo.UO, false, true⟩], []⟩
    [⟨Demo.US, true, true⟩, ⟨Demo.ST, false, true⟩, ⟨Demo.UO, true, false⟩] :=
  C90_cpi_writable_refused (k := .Set) (account := Demo.UO) (isSigner := false)
    (before := [.account 0 Demo.US, .account 1 Demo.ST, .update (.UpdateCoolDownPeriod 7)]) (after := []) rfl
    (by decide +kernel)

end Xorca
