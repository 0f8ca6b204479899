import Verif.Pda
/-
The Solana runtime as seen by the program: accounts, ledger, instruction accounts, and the three
programs it calls (System, SPL Token, Associated Token).  This file is part of the trusted base:
it transcribes the documented behaviour of those programs, not code of `/repo`.
-/
namespace Xorca

/-- An account: lamports, owning program, data. A non-existing account is `⟨0, system, []⟩`. -/
structure Account where
  lamports : UInt64
  owner : Pubkey
  data : Bytes
deriving DecidableEq

/-- All accounts of the chain. -/
abbrev Ledger := Pubkey → Account

/-- Replace one account. -/
def Ledger.set (L : Ledger) (k : Pubkey) (a : Account) : Ledger := fun k' => if k' = k then a else L k'

/-- Replace the data of one account. -/
def Ledger.setData (L : Ledger) (k : Pubkey) (d : Bytes) : Ledger := L.set k { L k with data := d }

/-- Replace the lamports of one account. -/
def Ledger.setLamports (L : Ledger) (k : Pubkey) (v : UInt64) : Ledger :=
  L.set k { L k with lamports := v }

/-- One entry of an instruction's account list (`AccountInfo` minus its contents, which are looked
up in the current ledger). -/
structure Meta where
  key : Pubkey
  isSigner : Bool
  isWritable : Bool
deriving DecidableEq

/-- What the program obtains from sysvars, plus the hash functions. -/
structure Ctx where
  cr : Crypto
  /-- `Clock::get()?.unix_timestamp`. -/
  now : Int64
  /-- `Rent::get()?.minimum_balance(len)`. -/
  rentMin : Nat → UInt64

/-! ### Privileges of a CPI -/

/-- The caller's accounts and the addresses it signs for with seeds. -/
structure Caller where
  metas : List Meta
  pdas : List Pubkey

/-- The key is a signer in the caller's accounts or a PDA signed for. -/
def Caller.signs (c : Caller) (k : Pubkey) : Bool :=
  c.metas.any (fun m => m.key == k && m.isSigner) || c.pdas.contains k
/-- The key is writable in the caller's accounts. -/
def Caller.writes (c : Caller) (k : Pubkey) : Bool :=
  c.metas.any (fun m => m.key == k && m.isWritable)
/-- The key is among the caller's accounts. -/
def Caller.has (c : Caller) (k : Pubkey) : Bool := c.metas.any (fun m => m.key == k)

/-- `invoke_signed(&[seeds ++ [bump]])`: the runtime derives the signer address and fails on the curve. -/
def signerPda (cr : Crypto) (seeds : List Bytes) (bump : UInt8) : Res Pubkey :=
  okOr (createProgramAddress cr seeds bump PROGRAM_ID) (.cpi .invalidSeeds)

/-! ### System program -/

/-- `system_processor::transfer` once `from` has signed. -/
def systemTransfer (L : Ledger) (src dst : Pubkey) (lamports : UInt64) : Res Ledger := do
  ensure ((L src).data = []) (.cpi .invalidArgument)
  ensure ((L src).owner = SYSTEM_PROGRAM_ID) (.cpi .externalLamportSpend)
  ensure (lamports.toNat ≤ (L src).lamports.toNat) (.cpi .negativeLamports)
  let L1 := L.setLamports src ((L src).lamports - lamports)
  let v ← okOr (checkedAddU64 (L1 dst).lamports lamports) (.cpi .overflow)
  .ok (L1.setLamports dst v)

/-- `MAX_PERMITTED_DATA_LENGTH`. -/
def MAX_DATA_LEN : Nat := 10485760

/-- `system_processor::allocate` once the account has signed. -/
def systemAllocate (L : Ledger) (k : Pubkey) (space : Nat) : Res Ledger := do
  ensure ((L k).data = [] ∧ (L k).owner = SYSTEM_PROGRAM_ID) (.cpi .accountInUse)
  ensure (space ≤ MAX_DATA_LEN) (.cpi .invalidArgument)
  .ok (L.setData k (List.replicate space 0))

/-- `system_processor::assign` once the account has signed (a no-op if already owned by `owner`). -/
def systemAssign (L : Ledger) (k owner : Pubkey) : Res Ledger :=
  if (L k).owner = owner then .ok L
  else do
    ensure ((L k).owner = SYSTEM_PROGRAM_ID) (.cpi .invalidOwner)
    .ok (L.set k { L k with owner := owner })

/-- `system_processor::create_account` once both accounts have signed. -/
def systemCreateAccount (L : Ledger) (src dst : Pubkey) (lamports : UInt64) (space : Nat)
    (owner : Pubkey) : Res Ledger := do
  ensure ((L dst).lamports = 0) (.cpi .accountInUse)
  let L1 ← systemAllocate L dst space
  let L2 ← systemAssign L1 dst owner
  systemTransfer L2 src dst lamports

/-- CPI `CreateAccount`. -/
def cpiCreateAccount (c : Caller) (L : Ledger) (src dst : Pubkey) (lamports : UInt64) (space : Nat)
    (owner : Pubkey) : Res Ledger := do
  ensure (c.has SYSTEM_PROGRAM_ID) (.cpi .missingAccount)
  ensure (c.writes src ∧ c.writes dst ∧ c.signs src ∧ c.signs dst) (.cpi .privilegeEscalation)
  systemCreateAccount L src dst lamports space owner

/-- CPI `Transfer` of the system program. -/
def cpiSystemTransfer (c : Caller) (L : Ledger) (src dst : Pubkey) (lamports : UInt64) : Res Ledger := do
  ensure (c.has SYSTEM_PROGRAM_ID) (.cpi .missingAccount)
  ensure (c.writes src ∧ c.writes dst ∧ c.signs src) (.cpi .privilegeEscalation)
  systemTransfer L src dst lamports

/-- CPI `Allocate`. -/
def cpiAllocate (c : Caller) (L : Ledger) (k : Pubkey) (space : Nat) : Res Ledger := do
  ensure (c.has SYSTEM_PROGRAM_ID) (.cpi .missingAccount)
  ensure (c.writes k ∧ c.signs k) (.cpi .privilegeEscalation)
  systemAllocate L k space

/-- CPI `Assign`. -/
def cpiAssign (c : Caller) (L : Ledger) (k owner : Pubkey) : Res Ledger := do
  ensure (c.has SYSTEM_PROGRAM_ID) (.cpi .missingAccount)
  ensure (c.writes k ∧ c.signs k) (.cpi .privilegeEscalation)
  systemAssign L k owner

/-! ### SPL Token program

The Borsh struct of the repository and the SPL `Pack` format coincide; `Pack` additionally requires
the exact length, valid option tags and an initialised account. -/

/-- `COption` tag check of `spl_token`. -/
def coptionOk (f : UInt32) : Prop := f = 0 ∨ f = 1

instance (f : UInt32) : Decidable (coptionOk f) := by unfold coptionOk; infer_instance

/-- `spl_token::state::Account::unpack`. -/
def unpackTokenAccount (d : Bytes) : Res TokenAccount := do
  ensure (d.length = TOKEN_ACCOUNT_LEN) (.cpi .invalidAccountData)
  let t ← okOr (decodeTokenAccount d) (.cpi .invalidAccountData)
  ensure (coptionOk t.delegateFlag ∧ coptionOk t.isNativeFlag ∧ coptionOk t.closeAuthorityFlag)
    (.cpi .invalidAccountData)
  ensure (t.state ≠ .Uninitialized) (.cpi .uninitialized)
  .ok t

/-- `spl_token::state::Mint::unpack`. -/
def unpackMint (d : Bytes) : Res TokenMint := do
  ensure (d.length = TOKEN_MINT_LEN) (.cpi .invalidAccountData)
  let m ← okOr (decodeTokenMint d) (.cpi .invalidAccountData)
  ensure (coptionOk m.mintAuthorityFlag ∧ coptionOk m.freezeAuthorityFlag) (.cpi .invalidAccountData)
  ensure (m.isInitialized = true) (.cpi .uninitialized)
  .ok m

/-- `Processor::validate_owner` for an authority that has signed and passes no multisig signers:
a multisig authority account fails. -/
def validateOwner (L : Ledger) (expected auth : Pubkey) : Res Unit := do
  ensure (expected = auth) (.cpi .ownerMismatch)
  ensure (¬ ((L auth).owner = SPL_TOKEN_PROGRAM_ID ∧ (L auth).data.length = TOKEN_MULTISIG_LEN))
    (.cpi .notEnoughSigners)

/-- Authority check of transfer and burn: delegate or owner.  Returns the account data after the
delegate bookkeeping.  `keepDelegate` is the self-transfer case, where nothing is deducted. -/
def authorizeDebit (L : Ledger) (t : TokenAccount) (d : Bytes) (auth : Pubkey) (amount : UInt64)
    (keepDelegate : Bool) : Res Bytes :=
  if t.delegateFlag = 1 ∧ t.delegate = auth then do
    validateOwner L t.delegate auth
    ensure (amount.toNat ≤ t.delegateAmount.toNat) (.cpi .insufficientFunds)
    if keepDelegate then .ok d
    else
      let rest := t.delegateAmount - amount
      let d1 := writeAt d TA_DELEGATE_AMOUNT (u64le rest)
      .ok (if rest = 0 then writeAt d1 TA_DELEGATE_FLAG (u32le 0) else d1)
  else do
    validateOwner L t.owner auth
    .ok d

/-- `Processor::process_transfer` (without decimals check) once `auth` has signed.  Accounts must
belong to the token program (checked by it, or enforced by the runtime on write).
Simplification: native (wrapped SOL) accounts are rejected. -/
def splTransfer (L : Ledger) (src dst auth : Pubkey) (amount : UInt64) : Res Ledger := do
  ensure ((L src).owner = SPL_TOKEN_PROGRAM_ID ∧ (L dst).owner = SPL_TOKEN_PROGRAM_ID) (.cpi .invalidOwner)
  let s ← unpackTokenAccount (L src).data
  let t ← unpackTokenAccount (L dst).data
  ensure (s.state ≠ .Frozen ∧ t.state ≠ .Frozen) (.cpi .frozen)
  ensure (amount.toNat ≤ s.amount.toNat) (.cpi .insufficientFunds)
  ensure (s.mint = t.mint) (.cpi .mintMismatch)
  ensure (s.isNativeFlag = 0 ∧ t.isNativeFlag = 0) (.cpi .nativeNotSupported)
  let sd ← authorizeDebit L s (L src).data auth amount (src = dst)
  if src = dst then .ok L
  else do
    let sa ← okOr (checkedSubU64 s.amount amount) (.cpi .overflow)
    let ta ← okOr (checkedAddU64 t.amount amount) (.cpi .overflow)
    .ok ((L.setData src (writeAt sd TA_AMOUNT (u64le sa))).setData dst
      (writeAt (L dst).data TA_AMOUNT (u64le ta)))

/-- `Processor::process_mint_to` once `auth` has signed. -/
def splMintTo (L : Ledger) (mint dst auth : Pubkey) (amount : UInt64) : Res Ledger := do
  ensure ((L mint).owner = SPL_TOKEN_PROGRAM_ID ∧ (L dst).owner = SPL_TOKEN_PROGRAM_ID) (.cpi .invalidOwner)
  let t ← unpackTokenAccount (L dst).data
  ensure (t.state ≠ .Frozen) (.cpi .frozen)
  ensure (t.isNativeFlag = 0) (.cpi .nativeNotSupported)
  ensure (t.mint = mint) (.cpi .mintMismatch)
  let m ← unpackMint (L mint).data
  ensure (m.mintAuthorityFlag = 1) (.cpi .fixedSupply)
  validateOwner L m.mintAuthority auth
  let ta ← okOr (checkedAddU64 t.amount amount) (.cpi .overflow)
  let ms ← okOr (checkedAddU64 m.supply amount) (.cpi .overflow)
  .ok ((L.setData dst (writeAt (L dst).data TA_AMOUNT (u64le ta))).setData mint
    (writeAt (L mint).data MINT_SUPPLY (u64le ms)))

/-- `Processor::process_burn` once `auth` has signed.  Tokens of an account owned by the system
program or the incinerator can be burnt by anyone. -/
def splBurn (L : Ledger) (src mint auth : Pubkey) (amount : UInt64) : Res Ledger := do
  ensure ((L mint).owner = SPL_TOKEN_PROGRAM_ID ∧ (L src).owner = SPL_TOKEN_PROGRAM_ID) (.cpi .invalidOwner)
  let s ← unpackTokenAccount (L src).data
  let m ← unpackMint (L mint).data
  ensure (s.state ≠ .Frozen) (.cpi .frozen)
  ensure (s.isNativeFlag = 0) (.cpi .nativeNotSupported)
  ensure (amount.toNat ≤ s.amount.toNat) (.cpi .insufficientFunds)
  ensure (s.mint = mint) (.cpi .mintMismatch)
  let sd ← if s.owner = SYSTEM_PROGRAM_ID ∨ s.owner = INCINERATOR_ID then .ok (L src).data
    else authorizeDebit L s (L src).data auth amount false
  let sa ← okOr (checkedSubU64 s.amount amount) (.cpi .overflow)
  let ms ← okOr (checkedSubU64 m.supply amount) (.cpi .overflow)
  .ok ((L.setData src (writeAt sd TA_AMOUNT (u64le sa))).setData mint
    (writeAt (L mint).data MINT_SUPPLY (u64le ms)))

/-- CPI `Transfer` of the token program (`pinocchio_token::instructions::Transfer`). -/
def cpiTokenTransfer (c : Caller) (L : Ledger) (src dst auth : Pubkey) (amount : UInt64) : Res Ledger := do
  ensure (c.has SPL_TOKEN_PROGRAM_ID) (.cpi .missingAccount)
  ensure (c.writes src ∧ c.writes dst ∧ c.signs auth) (.cpi .privilegeEscalation)
  splTransfer L src dst auth amount

/-- CPI `MintTo`. -/
def cpiMintTo (c : Caller) (L : Ledger) (mint dst auth : Pubkey) (amount : UInt64) : Res Ledger := do
  ensure (c.has SPL_TOKEN_PROGRAM_ID) (.cpi .missingAccount)
  ensure (c.writes mint ∧ c.writes dst ∧ c.signs auth) (.cpi .privilegeEscalation)
  splMintTo L mint dst auth amount

/-- CPI `Burn`. -/
def cpiBurn (c : Caller) (L : Ledger) (src mint auth : Pubkey) (amount : UInt64) : Res Ledger := do
  ensure (c.has SPL_TOKEN_PROGRAM_ID) (.cpi .missingAccount)
  ensure (c.writes src ∧ c.writes mint ∧ c.signs auth) (.cpi .privilegeEscalation)
  splBurn L src mint auth amount

/-! ### Associated token program -/

/-- The 165 bytes of a freshly initialised token account (`InitializeAccount3`). -/
def freshTokenAccountData (mint owner : Pubkey) : Bytes :=
  mint.bytes ++ owner.bytes ++ List.replicate 44 0 ++ [1] ++ List.replicate 56 0

/-- `create_pda_account` of the associated token program, for the associated account `ata`. -/
def ataCreatePda (x : Ctx) (L : Ledger) (funder ata : Pubkey) : Res Ledger :=
  let need := if x.rentMin TOKEN_ACCOUNT_LEN = 0 then 1 else x.rentMin TOKEN_ACCOUNT_LEN
  if (L ata).lamports = 0 then
    systemCreateAccount L funder ata need TOKEN_ACCOUNT_LEN SPL_TOKEN_PROGRAM_ID
  else do
    let L1 ← if need.toNat ≤ (L ata).lamports.toNat then .ok L
      else systemTransfer L funder ata (need - (L ata).lamports)
    let L2 ← systemAllocate L1 ata TOKEN_ACCOUNT_LEN
    systemAssign L2 ata SPL_TOKEN_PROGRAM_ID

/-- CPI `CreateIdempotent` of the associated token program. -/
def cpiCreateAtaIdempotent (x : Ctx) (c : Caller) (L : Ledger) (funder ata wallet mint : Pubkey) :
    Res Ledger := do
  ensure (c.has ASSOCIATED_TOKEN_PROGRAM_ID ∧ c.has SPL_TOKEN_PROGRAM_ID ∧ c.has SYSTEM_PROGRAM_ID ∧
    c.has wallet ∧ c.has mint) (.cpi .missingAccount)
  ensure (c.writes funder ∧ c.writes ata ∧ c.signs funder) (.cpi .privilegeEscalation)
  let (addr, _) ← okOr (findProgramAddress x.cr (vaultSeedsRaw wallet SPL_TOKEN_PROGRAM_ID mint)
    ASSOCIATED_TOKEN_PROGRAM_ID) .panicked
  ensure (addr = ata) (.cpi .invalidSeeds)
  if (L ata).owner = SPL_TOKEN_PROGRAM_ID then do
    let t ← unpackTokenAccount (L ata).data
    ensure (t.owner = wallet) (.cpi .invalidOwner)
    ensure (t.mint = mint) (.cpi .invalidAccountData)
    .ok L
  else do
    ensure ((L ata).owner = SYSTEM_PROGRAM_ID) (.cpi .invalidOwner)
    ensure ((L mint).owner = SPL_TOKEN_PROGRAM_ID) (.cpi .invalidOwner)
    let _ ← unpackMint (L mint).data
    let L1 ← ataCreatePda x L funder ata
    .ok (L1.setData ata (freshTokenAccountData mint wallet))

end Xorca
