import Verif.Client.Instructions
/-
The instruction builders and parsers of the generated clients.

JS: `js-client/src/generated/shared/index.ts`, `js-client/src/generated/instructions/*.ts`.
Rust: the `…Builder`, `…Cpi` and `…CpiBuilder` types of `rust-client/src/generated/instructions/*.rs`.  The five
files of each client are the same code up to the list of fields; here one definition takes the list as a table.
-/
namespace Xorca.Client

/-- The five instructions, `js-client/src/generated/programs/xorcaStakingProgram.ts:46-52`. -/
inductive Kind
  | Stake | Unstake | Withdraw | Initialize | Set
deriving DecidableEq, Repr

/-- The value of the enum. -/
def Kind.number : Kind → Nat
  | .Stake => 0
  | .Unstake => 1
  | .Withdraw => 2
  | .Initialize => 3
  | .Set => 4

/-- The kind of an instruction. -/
def Kind.of : Instruction → Kind
  | .Stake _ => .Stake
  | .Unstake .. => .Unstake
  | .Withdraw _ => .Withdraw
  | .Initialize _ => .Initialize
  | .Set _ => .Set

/-! ### JS -/

/-- What the caller may give for an account: an address (or derived address), or a signer. -/
inductive JsAccount
  | address (k : Pubkey)
  | signer (k : Pubkey)
deriving DecidableEq

/-- `expectAddress`, `js-client/src/generated/shared/index.ts:36-49`. -/
def JsAccount.key : JsAccount → Pubkey
  | .address k => k
  | .signer k => k

/-- `isTransactionSigner`, `js-client/src/generated/shared/index.ts:127-133`. -/
def JsAccount.isSigner : JsAccount → Bool
  | .address _ => false
  | .signer _ => true

/-- `getAccountMetaFactory(programAddress, 'programId')`, `js-client/src/generated/shared/index.ts:105-125`. -/
def jsMeta (programAddress : Pubkey) (value : Option JsAccount) (isWritable : Bool) : Meta :=
  match value with
  | none => ⟨programAddress, false, false⟩
  | some v => ⟨v.key, v.isSigner, isWritable⟩

/-- `isWritable` of the fields, in the order of the metas: `js-client/src/generated/instructions/stake.ts:174-208`,
`unstake.ts:191-236`, `withdraw.ts:173-210`, `initialize.ts:186-231`, `set.ts:116-132`. -/
def jsWritable : Kind → List Bool
  | .Stake => [true, true, true, true, true, false, false, false]
  | .Unstake => [true, true, true, true, true, false, false, false, false]
  | .Withdraw => [true, true, true, true, true, false, false, false]
  | .Initialize => [true, true, true, true, false, false, false, false, false]
  | .Set => [true, true]

/-- The metas of `getStakeInstruction` and the like; `input` gives the value of each field, in the order of the
metas (`input.f ?? null`). -/
def jsAccounts (programAddress : Pubkey) (k : Kind) (input : List (Option JsAccount)) : List Meta :=
  List.zipWith (jsMeta programAddress) input (jsWritable k)

/-- `getStateUpdateInstructionDecoder`, `js-client/src/generated/types/stateUpdateInstruction.ts:42-47`. -/
def jsDecodeStateUpdate (d : Bytes) : Option StateUpdateInstruction := do
  let (variant, d) ← getU8 d
  if variant = 0 then do
    let (newCoolDownPeriodS, _) ← getI64 d
    some (.UpdateCoolDownPeriod newCoolDownPeriodS)
  else if variant = 1 then do
    let (newAuthority, _) ← getKey d
    some (.UpdateUpdateAuthority newAuthority)
  else none

/-- `getStakeInstructionDataDecoder` … `getSetInstructionDataDecoder`: the first byte is read and not compared.
`stake.ts:102-107`, `unstake.ts:112-118`, `withdraw.ts:101-106`, `initialize.ts:109-114`, `set.ts:84-89`. -/
def jsDecodeData (k : Kind) (d : Bytes) : Option Instruction := do
  let (_, d) ← getU8 d
  match k with
  | .Stake => do
    let (orcaStakeAmount, _) ← getU64 d
    some (.Stake orcaStakeAmount)
  | .Unstake => do
    let (xorcaUnstakeAmount, d) ← getU64 d
    let (withdrawIndex, _) ← getU8 d
    some (.Unstake xorcaUnstakeAmount withdrawIndex)
  | .Withdraw => do
    let (withdrawIndex, _) ← getU8 d
    some (.Withdraw withdrawIndex)
  | .Initialize => do
    let (coolDownPeriodS, _) ← getI64 d
    some (.Initialize coolDownPeriodS)
  | .Set => do
    let u ← jsDecodeStateUpdate d
    some (.Set u)

/-- The number the parsers compare `accounts.length` with: `stake.ts:251`, `unstake.ts:281`, `withdraw.ts:253`,
`initialize.ts:276`, `set.ts:159`. -/
def jsCount : Kind → Nat
  | .Stake => 8
  | .Unstake => 9
  | .Withdraw => 8
  | .Initialize => 9
  | .Set => 2

/-- `parseStakeInstruction` … `parseSetInstruction`; `none` is a thrown error. The accounts are taken in order. -/
def jsParse (k : Kind) (accounts : List Meta) (data : Bytes) : Option (List Meta × Instruction) :=
  if accounts.length < jsCount k then none
  else (jsDecodeData k data).map fun ix => (accounts.take (jsCount k), ix)

/-- The enum value `identifyXorcaStakingProgramInstruction` returns. -/
def jsKind (data : Bytes) : Option Kind :=
  match jsIdentify data with
  | some 0 => some .Stake
  | some 1 => some .Unstake
  | some 2 => some .Withdraw
  | some 3 => some .Initialize
  | some 4 => some .Set
  | _ => none

/-- Identify an instruction, then parse it with the parser of its kind. -/
def jsRead (accounts : List Meta) (data : Bytes) : Option (List Meta × Instruction) :=
  (jsKind data).bind fun k => jsParse k accounts data

/-! ### Rust -/

/-- `(is_signer, AccountMeta::new)` of the pushes, in order: `rust-client/src/generated/instructions/stake.rs:45-76`,
`unstake.rs:47-82`, `withdraw.rs:45-76`, `initialize.rs:47-82`, `set.rs:34-41`; the `Cpi` variants push the same
(`stake.rs:322-353`, `unstake.rs:364-399`, `withdraw.rs:332-363`, `initialize.rs:356-391`, `set.rs:205-212`). -/
def rustPushes : Kind → List (Bool × Bool)
  | .Stake => [(true, true), (false, true), (false, true), (false, true), (false, true), (false, false),
      (false, false), (false, false)]
  | .Unstake => [(true, true), (false, true), (false, true), (false, true), (false, true), (false, false),
      (false, false), (false, false), (false, false)]
  | .Withdraw => [(true, true), (false, true), (false, true), (false, true), (false, true), (false, false),
      (false, false), (false, false)]
  | .Initialize => [(true, true), (true, true), (false, true), (false, true), (false, false), (false, false),
      (false, false), (false, false), (false, false)]
  | .Set => [(true, true), (false, true)]

/-- `AccountMeta::new` or `AccountMeta::new_readonly`. -/
def rustMeta (key : Pubkey) (p : Bool × Bool) : Meta :=
  if p.2 then AccountMeta.new key p.1 else AccountMeta.newReadonly key p.1

/-- The fields of a builder: accounts by position, arguments, remaining accounts.  `ρ` is the type of a remaining
account: a meta for `…Builder`, a tuple for `…CpiBuilder`. -/
structure Builder (ρ : Type) where
  account : Nat → Option Pubkey
  amount : Option UInt64
  index : Option UInt8
  coolDown : Option Int64
  update : Option StateUpdateInstruction
  remaining : List ρ

/-- `…Builder::new()` and `…CpiBuilder::new(program)`. -/
def Builder.new {ρ : Type} : Builder ρ := ⟨fun _ => none, none, none, none, none, []⟩

/-- A call of one of the setters. -/
inductive Setter (ρ : Type)
  | account (position : Nat) (key : Pubkey)
  | amount (a : UInt64)
  | index (i : UInt8)
  | coolDown (c : Int64)
  | update (u : StateUpdateInstruction)
  | remaining (r : List ρ)

/-- The setters: `self.f = Some(v)`; `add_remaining_account(s)` appends.  `set.rs:97-130`, `:251-313`. -/
def Builder.apply {ρ : Type} (b : Builder ρ) : Setter ρ → Builder ρ
  | .account p key => { b with account := fun q => if q = p then some key else b.account q }
  | .amount a => { b with amount := some a }
  | .index i => { b with index := some i }
  | .coolDown c => { b with coolDown := some c }
  | .update u => { b with update := some u }
  | .remaining r => { b with remaining := b.remaining ++ r }

/-- A chain of setter calls. -/
def Builder.run {ρ : Type} (b : Builder ρ) (calls : List (Setter ρ)) : Builder ρ := calls.foldl Builder.apply b

/-- The `…InstructionArgs` from the builder; `none` is the panic of `expect`. -/
def Builder.args {ρ : Type} (k : Kind) (b : Builder ρ) : Option Instruction :=
  match k with
  | .Stake => b.amount.map Instruction.Stake
  | .Unstake => b.amount.bind fun a => b.index.map (Instruction.Unstake a)
  | .Withdraw => b.index.map Instruction.Withdraw
  | .Initialize => b.coolDown.map Instruction.Initialize
  | .Set => b.update.map Instruction.Set

/-- The metas of the named accounts, from position `p` on; `none` is the panic of `expect`. -/
def namedMetas (account : Nat → Option Pubkey) : Nat → List (Bool × Bool) → Option (List Meta)
  | _, [] => some []
  | p, f :: fs => do
    let key ← account p
    let rest ← namedMetas account (p + 1) fs
    some (rustMeta key f :: rest)

/-- `…Builder::instruction`: accounts and data of the instruction, or a panic.  `set.rs:131-146`. -/
def Builder.instruction (k : Kind) (b : Builder Meta) : Option (List Meta × Bytes) := do
  let named ← namedMetas b.account 0 (rustPushes k)
  let ix ← b.args k
  some (named ++ b.remaining, encode ix)

/-- A remaining account of a `…CpiBuilder`: the account's address and two flags. -/
abbrev Extra := Pubkey × Bool × Bool

/-- `…CpiBuilder::add_remaining_account(account, is_writable, is_signer)`, `set.rs:287-300`. -/
def addRemainingAccount (account : Pubkey) (isWritable isSigner : Bool) : Setter Extra :=
  .remaining [(account, isWritable, isSigner)]

/-- `…Cpi::invoke_signed_with_remaining_accounts`: `is_signer: remaining_account.1,
is_writable: remaining_account.2`, `set.rs:213-219`. -/
def extraMeta (r : Extra) : Meta := ⟨r.1, r.2.1, r.2.2⟩

/-- `…CpiBuilder::invoke_signed`: accounts and data of the instruction handed to `solana_cpi`, or a panic.
`set.rs:321-348`, `:198-231`. -/
def Builder.invoke (k : Kind) (b : Builder Extra) : Option (List Meta × Bytes) := do
  let named ← namedMetas b.account 0 (rustPushes k)
  let ix ← b.args k
  some (named ++ b.remaining.map extraMeta, encode ix)

/-! ### Reading a chain of setter calls -/

section
variable {ρ : Type}

/-- What the call says about the account at a position. -/
def Setter.key? (p : Nat) : Setter ρ → Option Pubkey
  | .account q key => if p = q then some key else none
  | _ => none
/-- The amount the call gives. -/
def Setter.amount? : Setter ρ → Option UInt64
  | .amount a => some a
  | _ => none
/-- The index the call gives. -/
def Setter.index? : Setter ρ → Option UInt8
  | .index i => some i
  | _ => none
/-- The cool-down period the call gives. -/
def Setter.coolDown? : Setter ρ → Option Int64
  | .coolDown c => some c
  | _ => none
/-- The update the call gives. -/
def Setter.update? : Setter ρ → Option StateUpdateInstruction
  | .update u => some u
  | _ => none
/-- The remaining accounts the call adds. -/
def Setter.extras : Setter ρ → List ρ
  | .remaining r => r
  | _ => []

/-- The last thing the calls say. -/
def lastOf {α β : Type} (f : α → Option β) (calls : List α) : Option β := (calls.filterMap f).getLast?

/-- The last values given for the arguments are those of `ix`. -/
def Given (calls : List (Setter ρ)) : Instruction → Prop
  | .Stake a => lastOf Setter.amount? calls = some a
  | .Unstake a i => lastOf Setter.amount? calls = some a ∧ lastOf Setter.index? calls = some i
  | .Withdraw i => lastOf Setter.index? calls = some i
  | .Initialize c => lastOf Setter.coolDown? calls = some c
  | .Set u => lastOf Setter.update? calls = some u

end

/-- The runtime lets a program invoke another only with rights it has itself, plus the signatures of its own
derived addresses. -/
def CpiAllowed (c : Caller) (metas : List Meta) : Prop :=
  ∀ m ∈ metas, c.has m.key ∧ (m.isSigner = true → c.signs m.key) ∧ (m.isWritable = true → c.writes m.key)

end Xorca.Client
