# Formal model of the xORCA staking program: design

Source: `/repo` (orca-so/xorca at the pinned commit), read as text. Paths below are relative to `/repo`. Each Lean definition of the
model cites its lines.

## What is modelled

| Lean module (under `lean/Verif`) | Code |
|---|---|
| `Basic` | bytes, little-endian integers, checked arithmetic, `error.rs`, result type |
| `Constants` | `lib.rs`, `cpi/*`, `state/*`: program ids, mints, sizes, seeds |
| `Math` | `util/math.rs` |
| `Layout` | `state/state.rs`, `state/pending_withdraw.rs`, `cpi/token/state.rs` (byte layouts, Borsh readers) |
| `Pda` | `pda.rs`, address checks of `state/*.rs` |
| `Runtime` | ledger, account metas, System, SPL Token and Associated Token programs (trusted transcription, not code of `/repo`) |
| `Assertions` | `assertions/account.rs`, `util/account.rs` |
| `Instr/{Initialize,Stake,Unstake,Withdraw,Set}` | `instructions/*.rs`, statement by statement |
| `Event`, `Entrypoint` | `event.rs`, `instructions/mod.rs`, `entrypoint.rs` |
| `Client/Conversion` | `rust-client/src/conversion.rs`, `js-client/src/utils/conversion.ts` |
| `Client/Fetch` | `rust-client/src/{pda,utils}`, `js-client/src/utils/index.ts`, generated `fetch*` |
| `Client/Codec`, `Client/Instructions` | generated encoders, decoders, instruction builders of both clients |
| `Client/Builders` | `js-client/src/generated/shared/index.ts`, JS `get…Instruction`, `parse…Instruction`; Rust `…Builder`, `…Cpi`, `…CpiBuilder` |
| `Client/Accounts` | generated account encoders, decoders and `fetch*` of both clients; nodes with a limit of keys per call |
| `Client/Types` | generated type modules: mints, token accounts, events and instruction data, with the JS encoders on integers of any size |
| `Client/Errors` | error texts and numbers of both clients; the JS test whether a transaction failed with an error of the program |
| `Client/Base58` | base58 text of the addresses used by the clients |
| `Client/Scripts` | `ts-scripts/{constants,stake,unstake,withdraw,set,initialize,status,pending-withdraws}.ts` |
| `Client/TokenScripts` | `ts-scripts/{update-xorca-mint-authority,transfer-orca-to-vault,transfer-orca,generate-keypair}.ts` |

Vocabulary of the statements, independent of the program's helpers:

| Module | Contents |
|---|---|
| `Spec` | mint and redemption formulas on `Nat`, balances and fields at fixed byte offsets, address predicates, `SignersOk` |
| `Exec` | `decodeIx` (instruction bytes at fixed offsets), `Runs`, `Fails` |
| `History` | `EnvStep`, `Genesis`, `Path`, `Hist`, `Reachable`, creation and payment of records, hash clashes, flows |
| `Calls` | what a user must supply: account lists, usable token accounts and mints, error lists |
| `Declared` | the account tables of the interface description |
| `Sealed` | histories in which nobody else creates an account at an address of the program |
| `Trades` | kinds of steps: trade, stake, quiet |
| `View` | an abstract pool machine with its step rules, and the map from ledgers to it |
| `Outside` | the whole instruction set of the SPL token program, the runtime rule for other programs, `Outside`, `Steady`, `World` (trusted transcription) |
| `Chain` | transactions with fees that take full effect or none |
| `Parallel` | jobs with account locks, run at the same time or one after the other (trusted transcription of the runtime's scheduling rule) |
| `Freeze` | frozen token accounts and mints without freeze authority, by byte offsets (vocabulary of C109) |
| `Surroundings` | agreement of two hash functions on a list of byte strings; the strings of a search (vocabulary of C110) |
| `Input` | the memory block between runtime and program: the runtime's serialisation and pinocchio's `deserialize` (entrypoint.rs:10-14, layout from their documentation) |
| `Work` | the instructions once more, with a record of hashes, calls of other programs and logs in their order (all of instructions/, util/account.rs:30-118, event.rs:46-51) |
| `Plan` | what one user can plan with the figures of the pool alone: seven acts and when they are possible (the figures of `View`, the accounts of `Demo`) |
| `Leave` | the acts of a plan that take something out, with their times |
| `Machine` | the instructions once more with borrow flags, the runtime's rules for writes, partial views in CPIs, and the limit on growth |
| `RentRule` | the runtime's rule on the rent state of accounts after a transaction (trusted transcription) |
| `BankRun` | a group of users that leave, the list of their calls, runs of calls |
| `Replay` | an indexer that sees only the event log |
| `Readme` | the formulas of `solana-program/README.md` |
| `Audited` | functions of the audited commit 8affaea, as quoted in `.audits/2025-09-24.pdf`; the redeem conversion is not quoted there and follows from the rate given |
| `Totals` | sums over finite sets of accounts, `Accounted`, `KeepsBooks`, `Took` |

Proofs and checks:

| Module | Contents |
|---|---|
| `Lemmas/*` | helper lemmas; `Lemmas/Inv` has the inductive invariant, `Lemmas/EnvOk` shows that real token and system operations are `EnvStep`s |
| `Props/*` | the property theorems `Cnn_…`, one file per group, each with a concrete example beside it |
| `Real` | SHA-256 and the ed25519 point test, computable by the kernel |
| `Demo`, `Lemmas/Demo*` | a concrete chain with the real addresses and real hashes, used by the examples |
| `ProgramTests` | all program tests of the repository (`solana-program-test/src/tests`, each named) and its conversion tests, transcribed as kernel-evaluated examples on concrete ledgers |
| `ClientTests` | the address and fetching tests of the Rust client, transcribed as kernel-evaluated examples with the real hash functions |
| `Audit` | fails the build if a property theorem uses an axiom other than the three below |

### Level of the model

* Accounts are raw: lamports (`UInt64`), owner key, data bytes. The program's in-place struct views are reads and writes at byte
  offsets. A ledger is a total function from keys to accounts. A missing account is `⟨0, system, []⟩`.
* Integers are `UInt64`, `Int64`; plain `+`/`-` wrap as in a release build (`Cargo.toml` has no `overflow-checks`); checked
  operations return `Option`.
* An instruction is a total function `entry : … → Except Err (Ledger × logs)` on raw instruction bytes, account metas, ledger, clock
  and rent. Checks are in source order with the source error codes. `Err` has the program's codes, errors of called programs, and
  `panicked`.
* CPIs (calls of other programs) to System, SPL Token and Associated Token are functions on the ledger, with privilege checks,
  frozen accounts, delegates, self transfers, the incinerator rule, and the exact unpacking rules of those programs.
* SHA-256 and the curve test are abstract (`Crypto`). No theorem assumes a collision-free hash. Where an identity of users follows
  from an identity of addresses, the theorem either names the two byte strings that would collide (`Clash`) or says "unless these clash".
* `SignersOk` lists what the runtime guarantees about signers of a call: nobody signs for an address derived from seeds of
  this program, and no account in which this program stored something signs.
* Between calls an arbitrary environment acts (`EnvStep`): donations, burns by holders, freezing, lamport transfers, other programs.
  It may change every account in any way, except for what the runtime and the token program forbid.
* Failed calls change nothing and are not part of a history. Calls run one after the other; C108 shows that the runtime's parallel
  execution under account locks gives nothing else.
* A client reads from ledgers: each RPC (remote read) call answers from one ledger, and two calls may see different ledgers.

### Simplifications and parts not modelled

* Compute units, stack and heap limits, CPI depth. `Work` counts hashes, calls of other programs and logs; it is not a cost model.
* The runtime's rent rule is not part of a history: a call that breaks it counts as executed although the runtime would refuse the transaction.
  C99 shows that only the paying or receiving wallet can break it, and when.
* Borrow flags and the runtime's rules on the program's own writes are left out of `Instr`. `Machine` has them, and C93 shows that they never
  make a difference. Over CPIs only the state stays borrowed: for reading in Stake, where the callee does not write it, and for writing
  in Unstake, where the callee gets the user and the record only. Borrows of lamports last for one statement and are not in `Machine` either.
* Native (wrapped SOL) token accounts: treated as failing. The program requires the ORCA and xORCA mints, so they cannot occur in a
  successful call. A multisig authority always fails because the program passes no further signers. Token-2022 is not accepted.
* The memory block of the entry point is modelled in `Input`, before and after the call. Between, the call runs on the ledger: that called programs
  work on the same block is not modelled. An account listed twice has the same flags both times, as the runtime makes it.
* The clock is any `Int64` in each call; theorems that need time to advance say so.
* Lamport arithmetic in `close_program_account` is unchecked in the source. The liveness theorems of Withdraw assume that the
  receiver's balance does not wrap (total lamports are far below 2^64).
* Liveness of Withdraw (C21) assumes that the vault is not frozen; C109 proves that it never is if the ORCA mint has no freeze authority.
* JS decoders (from `@solana/kit`) are treated as prefix Borsh readers that throw where Borsh fails, but for booleans in `Client/Types` (C102).
  JS `number` and `bigint` are `Int`; a `number` with a fraction is not modelled.
* The generated client types are identified with the program's types of the same fields.
* `Client/Fetch` reads from a node without a limit on the number of keys per call. `Client/Accounts` has the limit, and C97 relates the two.
* `rust-client/src/math/mod.rs` (four functions on `f64` to try out the WASM build), building and sending of transactions, image upload, Docker files, and the test programs are not modelled. `Client/TokenScripts` models what
  the token scripts read, send and report; the bytes of a token instruction are made by `@solana/spl-token` and are not modelled, and an amount that
  is no `u64` becomes whatever the library makes of it (a parameter). Key generation: the hexadecimal text only, not the curve arithmetic.
* `Client/Scripts`: `Buffer`, `BigInt` and `parseInt` of Node are modelled from their documentation (white space: ASCII only; a
  number is an integer rounded to 53 bits; `NaN` is written as byte 0). The parsed token balances of the RPC node are modelled
  by the unpacking of the token program. `BigInt` of the amount argument is an integer parameter.

## Trusted base

* The Lean 4 kernel. All property theorems depend only on `propext`, `Classical.choice`, `Quot.sound` (checked by `Verif/Audit.lean`
  at build time; `Classical.choice` and `propext` come in through Mathlib and `simp`). No `native_decide`, `bv_decide`, `sorry`, or own axioms.
* The transcription of the Rust and TypeScript code into Lean.
* The models of the called programs in `Runtime`, `SignersOk`, `EnvStep`, and `Genesis`. The layout of the block in `Input`.
* `EnvStep` and `KeepsBooks` need not be trusted on their own: C77 derives them from `Outside.lean`, which transcribes the instruction set
  of the token program and the runtime rule (a program writes and debits only its own accounts). Remaining assumptions there: nobody but the
  program signs for the state address (`NotPool`), rent is positive, no two accounts hold 2^64 lamports, and at the start the token
  program's accounts obey its own rules and the xORCA mint exists (`Steady`). Where versions of the token program differ, the more
  permissive behaviour is taken. C79 shows that `Outside` and `Runtime` agree on the operations both have.
* Runtime facts: a failing instruction leaves the ledger unchanged; before deployment no account owned by the program has non-zero data.

## How each property is proved

| id | modelled | proof |
|---|---|---|
| C01, C02 | instruction model + independent formula on `Nat` | inversion of the success path |
| C03 | `Math` | arithmetic, with witnesses for the failing corner |
| C04–C07 | formulas, then two calls in a row with arbitrary steps between where allowed | nonlinear integer arithmetic, `Moves` |
| C08 | formulas lifted to the code conversions | arithmetic |
| C09 | histories | price invariant by induction |
| C10 | formulas, then the actual calls of the attack | nonlinear arithmetic |
| C11–C13 | histories | inductive invariant `Inv` |
| C14–C16 | instruction model | full post-state by inversion |
| C17–C20 | histories | invariant tying each open record to the Unstake that made it |
| C21, C47, C48 | instruction model + `Inv` | forward evaluation of the success path |
| C22 | `create_account_secure` and system program | case analysis on the balance |
| C23–C27 | instruction model, histories | inversion, induction |
| C28 | instruction model | decision logic in both directions |
| C29 | events vs. post-ledger | inversion, no wrap by CPI checks |
| C30–C32 | codecs | round trips |
| C33, C35 | sums over finite sets of accounts | effect lemmas |
| C34 | all instructions | effect lemmas |
| C36, C37 | histories | uniqueness of the state account in `Inv` |
| C38 | preimages | list injectivity |
| C39, C40, C42 | client functions | equality of functions |
| C41 | client enumeration | partial: true below 255, refuted at index 255 by a witness |
| C43 | finite table | case split |
| C44, C45 | histories | induction |
| C46 | builder metas | evaluation |
| C49 | `Inv` + instruction model | contradiction |
| C50–C53 | instruction model, histories | decision logic |
| C54 | all instructions | every failing path classified |
| C55, C56 | Initialize | forward evaluation; invariant "the vault address is a token account" over histories |
| C57 | `Declared` tables | inversion of each instruction |
| C58 | all instructions | both directions: a call succeeds exactly if the listed conditions hold |
| C59 | client quotes vs. later calls | equality in the same ledger, price monotonicity in later ones |
| C60 | `SealedHist` | second inductive invariant over record addresses |
| C61 | Rust listing | exact failure condition; environment step that triggers it |
| C62 | exchange-rate helpers over three ledgers | bounds, with a witness that mixes them |
| C63 | all holders' claims at once | `Accounted` invariant, sum of floors |
| C64 | any set of accounts | value of a coalition never rises except by donations |
| C65 | stake followed by unstake | loss bound from both roundings |
| C66 | every check of every instruction, in any ledger | inversion without reachability |
| C67 | what the scripts send, and that it is accepted | inversion of the script, then C47, C48, C21, C58 |
| C68 | rates of `status.ts` | figures equal C01's inputs; labels right iff equal; witness |
| C69 | rows of `pending-withdraws.ts` | C60 and the origin of a record in its history; witness |
| C70 | number arguments | decimal text lemmas, rounding to 53 bits; witness |
| C71 | price over paths | bound per move, product over the path |
| C72 | donation attack, many victims | telescoping bound over the stakes; witness that the condition is needed |
| C73 | refinement to `View` | each step simulated, induction over the path |
| C74 | accounts of successful calls | effect lemmas |
| C75 | Set to a very long cool-down | C58 for the Set, C44 for the path, inversion of Unstake |
| C76 | requests per user | injectivity of indices; origin of a record in its history |
| C77 | `Outside` | each token instruction shown to change accounts only in allowed ways; `Steady` invariant |
| C78 | `World` | C77 turns a sequence of real steps into a path; then C09 and C63 |
| C79 | `Runtime` vs. `Outside` | inversion and re-evaluation |
| C80, C81 | mint hand-over script, executed by `Outside`'s token program | inversion; invariant that the mint stays with the pool; C56 |
| C82, C83 | scripts that send ORCA | inversion of script and token program; witnesses for wrong reports |
| C84 | hexadecimal text | induction over pairs of digits |
| C85 | event log and ledger | events of each kind of step, induction over the history; witness for what is not logged |
| C86 | documentation vs. program | C01, C02, nonlinear arithmetic; C58 for the account claims; witness |
| C87 | lamports of records and state | effect lemmas, origin of a record in its history |
| C88 | an Unstake and everything after it | C20, C18, C21 and the first payment on the path |
| C89 | JS builders and parsers | readers as length test plus offset read; C57 |
| C90 | Rust builders | induction over the calls; witness for exchanged flags |
| C91 | `Chain` | a chain unfolds to a `World`; then C77, C78, C64 |
| C92 | two ledgers that agree on the listed accounts | relational lemma for every step of every instruction |
| C93 | `Machine` vs. `Instr` | simulation, statement by statement; witness for the bound on lamports |
| C94 | quotes before and after gifts | exact flow of the backing (`gifts_only`), then division bounds; witness for a stake around a gift |
| C95 | quotes along a path | C71 (bound on the price over a path) turned into a bound on quotes |
| C96 | table of checks (`ErrorTable.lean`) | `Tab`: a run follows its list of checks, one rule per kind of check, one pass over each instruction |
| C97 | listing with a limit | case split on the limit, then C41's lemmas; witness by kernel evaluation of all 255 record addresses of a user |
| C98 | account codecs and fetchers | Borsh round trip by unfolding; `mapM` inversion |
| C99 | `RentOk` before and after a call | exact effects of each instruction on lamports and sizes |
| C100 | runs of Unstakes and Withdraws (`BankRun`) | induction over the group: C48 or C21 for the first call, frame of the others, the price does not fall |
| C101 | two calls in both orders (`Leaver` lists) | effects of the four runs compared account by account; a debit depends only on the debited account; kernel-run witness for two Stakes |
| C102 | JS encoders on `Int`, Borsh structs | inversion of the range checks; field offsets; the two mint decoders compared by their byte 45 |
| C103 | error tables, `isProgramError` of the kit | case analysis; the last step is C96 |
| C104 | permutations of Withdraws; two paths from one state | induction over the permutation: two neighbours are exchanged by their effects; C95 and C59 for the trades |
| C105 | reachable states, `Took`, paths without `OrphanStake`; the whole token program for the burn | rational bounds on the residue; C09 for the path; a kernel-run attack of ten steps |
| C106 | `Audited` functions beside the present ones | closed forms of the old conversions; inversion of creation and closing; the invariant for the address check |
| C107 | paths, `World` with `Steady` and `Accounted`; a `PoolToken` account of xORCA | what each call touches; the books give supply ≥ balance; C09 and C64 |
| C108 | `Job`s with locks, batches without conflicts, permutations | C92 and C34 for one call; induction over the batch; the state account or the mint is shared by any two calls |
| C109 | `World`, `Unfreezable`, `FrozenToken` | every token instruction, other program and call keeps a mint without freeze authority so and freezes nothing of it; the freezing step is analysed; demo chain with a freeze authority |
| C110 | `entry` in two contexts, `SameOn`, `tried` | the handlers step by step in both contexts; converse from the checks passed in both |
| C111 | `getInput (putInput …)`, `entryByBlock` against `entry` | one induction over the account list for the positions found by program and runtime; stores stay inside the room of their account; C92 |
| C112 | `Spec.Took` of a Stake and two Unstakes around a gift | C65 (what the victim loses) and C71 (how far a Stake moves the price), put together by arithmetic |
| C113 | `entryT` against `entry`; `Spec.hashes`, `Spec.callees`, `Spec.logged` of its trace | one rule per kind of step for each of five judgements (same result, at most, exactly, log last, late errors) |
| C114 | `World`, `Reachable`, `Initialised`, `supply`, `backing`, `escrow` with `Real.crypto` | forward from C13; conversely a history of real steps (`World`) for each triple: ORCA minted, staked at par, unstaked in one or two parts, the rest transferred to the vault |
| C115 | `Plan`, `World`, `Does`, `view`, `Succeeds` with `Real.crypto` | induction over the plan with a ledger in which the user holds all xORCA, all ORCA outside the vault and all requests: success from C47, C48, C21 and C58, the new figures from C73, refusals from C58. A withdrawal by a wrong index with the same hash is left out (`NoClash`) |
| C116 | `Plan`, `World`, `Does`, figures of the last ledger, `Act.takesOut` | on plans: withdraw by induction over the list of open requests, then unstake the supply at once or in two parts; then the further acts are carried out from the ledger of C115 |
| C117 | `Runs`, `FailsWith`, `Took`, supply and escrow | the first failed check of the second call (C96), read off the effects of the first; for trades, the conversions applied to the figures that the first leaves |
| C118 | `Path`, `Quiet`, `isStake`, `isTrade`, `staked`, `setAside`, `mintFor`, `redeemFor` | induction over the path: what is missing against the price of the beginning is scaled with the pool and grows by less than one unit per call |
| C119 | `Reachable`, `Initialised`, `IsRecord`, the bytes of the account | invariant over histories that the bytes 1 to 5 and from 56 on of an account of the program are zero; the rest are the fields |
| C120 | `Path`, `coolDown`, `authority`, `SignersOk` | induction over the path; a Set that succeeds is signed by the authority, and no signer is the state or the vault |

## Findings about the code

1. **Initialize can be blocked for good (C56).** `initialize.rs:96` requires the vault to be owned by the System program, yet the vault is an
   associated token account that anyone may create beforehand (the state address is predictable). After that Initialize always fails with
   `IncorrectOwner`, although the creation at the end is the *idempotent* variant.
2. **Index 255 is invisible to clients (C41).** `Unstake` accepts `withdraw_index = 255`; both clients search `0..max` with `max ≤ 255`.
3. **The Rust listing can be broken by dust (C61).** A lamport transfer to an unused record address below the search bound makes
   `fetch_all_maybe_pending_withdraw` fail on decoding empty data. The JS client tolerates it.
4. **A pool with zero supply and a non-empty vault gives the residue to the next staker** (1:1 branch of `util/math.rs:17`).
   The comment there says supply cannot return to zero because one unit was sent to the incinerator; the SPL token program lets
   anyone burn tokens of an incinerator-owned account, so this does not hold. The price theorems exclude such a stake (`OrphanStake`).
5. The virtual offset makes the donation attack unprofitable against one victim (C10) and against `k` victims if
   `k·(stake + donation) ≤ 100·donation` (C72). With a small donation a profit of dust remains possible (witness in C72).
6. The README conversion formulas omit the virtual offset of 100 (C86).
7. Instruction data with trailing bytes is accepted (`Instruction::deserialize` reads a prefix).
8. `util/math.rs` multiplies in u128: `amount * (supply + 100)` can exceed 2^128 when both are near 2^64, so a conversion can fail with
   `ArithmeticError` although its exact result fits in a u64. Impossible for backed pools with total ORCA below 2^64 (C03).
9. The exchange-rate helper of both clients makes three reads that may see three ledgers (C62). The Rust one can then fail, the JS one
   can return a negative numerator.
10. The clients do not check the owner of a listed record account. In sealed histories (C60) none but the program's records occur there.
11. Initialize does not check `is_initialized` of the xORCA mint itself (the later token calls do).
12. `status.ts` prints the two rates under each other's label (C68). Once the pool has earned, both are wrong.
13. `pending-withdraws.ts` looks at indices 0 to 14 only, heads the ORCA amount "xORCA", and computes the creation time from
    the present cool-down (C69).
14. `unstake.ts` and `withdraw.ts` take an index argument that is not a number for 0 (C70). `set.ts` and `initialize.ts` round a
    cool-down above 2^53 without notice.
15. `update-xorca-mint-authority.ts` must run before `initialize.ts` and cannot be undone (C80). If anyone creates the vault account in between, the
    mint is lost: xORCA can never be minted and the mint has no usable authority (C81).
16. `transfer-orca-to-vault.ts` prints twice the amount as "Vault received" (line 136 has a wrong sign, C82), reads `1e6` and `1,000,000` as 1, and
    rounds above 2^53. A negative amount passes its balance check.
17. `transfer-orca.ts` reports a transfer to oneself as failed (C83). It cannot pay a program-derived address.
18. `generate-keypair.ts` ignores everything after the first character that is no hexadecimal digit (C84), and refuses its own usage example.
19. The Rust CPI builders exchange the flags of remaining accounts (C90): `add_remaining_account(account, is_writable, is_signer)` stores
    `(account, is_writable, is_signer)`, but `invoke_signed_with_remaining_accounts` reads `.1` as `is_signer` and `.2` as `is_writable`
    (`rust-client/src/generated/instructions/set.rs:213-219`, `:290-300`, likewise in the other four).
20. The JS `parse…Instruction` functions do not compare the discriminator (C89). JS builders replace a missing account by the program address.
21. `solana-program/README.md`: the conversion formulas omit the offset, the built-in initialize authority does not exist (the payer must be the deployer),
    the account lists of Initialize and Unstake are not those of the program (C86). The client READMEs name error codes and functions that do not exist.
22. Initialize and a change of the cool-down emit no event; the Unstake and Withdraw events do not name the user, and the Withdraw event does not
    report the vault (C85). The field `vault_xorca_amount` of the README's Unstake event carries the vault's ORCA.
23. Several checks are redundant in reachable ledgers, e.g. the mint authority and freeze checks of Unstake and the escrow check of Withdraw.
    They are pinned by C66, which speaks about arbitrary ledgers.
24. A stake that lasts only for the moment of a gift gets the full proportional share of it; the cool-down delays the payment but fixes no minimum time (C94).
25. **A standard RPC node hides indices from 100 on (C97).** Both clients pass up to 255 addresses to one `getMultipleAccounts` call; the Solana RPC API
    admits 100. A bound above 100 makes the listing fail, and a smaller one does not reach those indices.
26. The generated decoders and fetchers of both clients do not check what kind of account they read (C98): the state account is accepted as a
    pending withdrawal.
27. Without a code, `isXorcaStakingProgramError` of the JS client also answers yes for errors of the token and system program, and it never
    recognises an error that comes up through another program (C103). The two clients disagree on an account with an odd initialisation byte
    of a mint (C102).
28. **The virtual offset protects only while the supply does not return to zero (C105, extends 4 and 5).** If the victim of a donation attack leaves
    too, the next staker into the empty pool takes what the offset held back, and that can be the attacker. The incinerated unit named in
    `util/math.rs:12-14` does not prevent this, if it lies in a token account owned by the incinerator (the chain itself was not looked at). A unit in a token
    account owned by the state address would: nobody can move or burn it (C107).
29. Initialize requires that the xORCA mint has no freeze authority (`initialize.rs:65-71`) but not that of the ORCA mint, which is a fixed address. If
    ORCA has one (the chain itself was not looked at), it can freeze the vault: Stake and Withdraw stop while Unstake goes on burning xORCA (C109).

### The audit report

| Finding of the report | Here |
|---|---|
| H-01 inflation attack | works against the old conversions (C106); present: C10, C72; what remains: C105 |
| L-01 pre-created accounts | acknowledged, not corrected: C56, C81 |
| L-02 state address in Unstake | implied by the other checks (C106), as the report says |
| L-03 update authority of Initialize | C25, C57 |
| L-04 lamports at a record address | old creation fails (C106); present: C22 |
| I-01 vault writable in Unstake | C57 |
| I-02 event values | C29 |
| I-03 closing | old closing leaves the contents (C106); present: nothing is left |
| I-04 tag 0 | tags are 1, 2, 3 in every layout theorem; zeroed accounts are neither (`Inv.owned`) |

## Mutation tests

`tools/mutate.py` applies an edit to a copy of all modules outside `/verif`, elaborates it, and reports which declarations fail and which
property theorems depend on them. For a dropped check the inversion lemma is repaired in the mutant, so only theorems that really need the check
fail (`"method": "full"`). `tools/mutquick.py` applies the edit to a built copy and runs `lake build` until the first modules have failed; its list of
theorems is everything that depends on a failing declaration, so it says that the edit is noticed and where, not that each of the listed theorems is
false (`"method": "quick"`). The edits are in `tools/mutants/`. Results are in `seeded/LOG.jsonl`.
