import Verif.Client.Base58
import Verif.Runtime
/-
What the clients read from the chain.  An RPC call answers from one ledger; `none` is a returned or thrown
error.
-/
namespace Xorca.Client

/-- `rpc.get_account` and one entry of `rpc.get_multiple_accounts`: an account without lamports does not
exist. -/
def getAccount (L : Ledger) (k : Pubkey) : Option Account :=
  if (L k).lamports = 0 then none else some (L k)

/-- A key written in base58; `none` if the text is not a key. -/
def key58 (s : String) : Option Pubkey := (base58Key s).map Pubkey.ofBytes

/-! ### Addresses -/

/-- `rust-client/src/generated/programs.rs` and
`js-client/src/generated/programs/xorcaStakingProgram.ts:19-20`. -/
def PROGRAM_ADDRESS : String := "StaKE6XNKVVhG8Qu9hDJBqCW3eRe7MDGLz17nJZetLT"
/-- `rust-client/src/utils/mod.rs:15`, `js-client/src/utils/index.ts:23`. -/
def ORCA_MINT_ADDRESS : String := "orcaEKTdK7LKz57vaAYr9QeNsVEPfiu6QeMU1kektZE"
/-- `rust-client/src/utils/mod.rs:16`, `js-client/src/utils/index.ts:24`. -/
def XORCA_MINT_ADDRESS : String := "xorcaYqbXUNz3474ubUMJAdu2xgPsew3rUCe5ughT3N"
/-- `rust-client/src/utils/mod.rs:17`, `js-client/src/utils/index.ts:21`. -/
def TOKEN_PROGRAM_ADDRESS : String := "TokenkegQfeZyiNwAJbNbGKPFXCWuBvf9Ss623VQ5DA"
/-- `rust-client/src/pda/mod.rs:5-6`, `js-client/src/utils/index.ts:22`. -/
def ATA_PROGRAM_ADDRESS : String := "ATokenGPvbdGVxr1b2hvZbsiqW5xWH25efTNsLJA8knL"

/-- `rust-client/src/pda/mod.rs:8-11`, `js-client/src/utils/index.ts:29-34`. -/
def findStateAddress (cr : Crypto) : Option (Pubkey × UInt8) := do
  let p ← key58 PROGRAM_ADDRESS
  findProgramAddress cr [ascii "state"] p

/-- `rust-client/src/pda/mod.rs:13-20`, `js-client/src/utils/index.ts:52-66`. -/
def findOrcaVaultAddress (cr : Crypto) (state tokenProgram orcaMint : Pubkey) : Option (Pubkey × UInt8) := do
  let p ← key58 ATA_PROGRAM_ADDRESS
  findProgramAddress cr [state.bytes, tokenProgram.bytes, orcaMint.bytes] p

/-- `rust-client/src/pda/mod.rs:22-29`, `js-client/src/utils/index.ts:36-50`. -/
def findPendingWithdrawPda (cr : Crypto) (unstaker : Pubkey) (withdrawIndex : UInt8) :
    Option (Pubkey × UInt8) := do
  let p ← key58 PROGRAM_ADDRESS
  findProgramAddress cr [ascii "pending_withdraw", unstaker.bytes, [withdrawIndex]] p

/-! ### Rust client: `rust-client/src/utils/mod.rs` -/

/-- `rust-client/src/utils/mod.rs:43-47`, `rust-client/src/generated/accounts/state.rs:fetch_state`;
`js-client/src/utils/index.ts:68-79`. -/
def fetchState (cr : Crypto) (L : Ledger) : Option State := do
  let (address, _) ← findStateAddress cr
  let account ← getAccount L address
  State.deserialize account.data

/-- `rust-client/src/utils/mod.rs:59-62`. -/
def fetchCoolDown (cr : Crypto) (L : Ledger) : Option Int64 := (fetchState cr L).map (·.coolDownPeriodS)

/-- `rust-client/src/utils/mod.rs:14`. -/
def DEFAULT_MAX_WITHDRAWALS_TO_SEARCH : UInt8 := 15

/-- The addresses searched: indices `0 … n-1`. -/
def withdrawAddresses (cr : Crypto) (staker : Pubkey) (n : Nat) : Option (List Pubkey) :=
  (List.range n).mapM fun i => (findPendingWithdrawPda cr staker (UInt8.ofNat i)).map Prod.fst

/-- `rust-client/src/generated/accounts/pending_withdraw.rs:fetch_all_maybe_pending_withdraw`: an account
that exists but cannot be decoded is an error. -/
def fetchAllMaybe (L : Ledger) (addresses : List Pubkey) : Option (List (Option PendingWithdraw)) :=
  addresses.mapM fun k =>
    match getAccount L k with
    | none => some none
    | some a => (PendingWithdraw.deserialize a.data).map some

/-- `rust-client/src/utils/mod.rs:77-105`. -/
def fetchPendingWithdraws (cr : Crypto) (L : Ledger) (staker : Pubkey) (max : Option UInt8) :
    Option (List PendingWithdraw) := do
  let addresses ← withdrawAddresses cr staker (max.getD DEFAULT_MAX_WITHDRAWALS_TO_SEARCH).toNat
  let accounts ← fetchAllMaybe L addresses
  some (accounts.filterMap id)

/-- `rust-client/src/utils/mod.rs:19-25`. -/
structure VaultState where
  address : Pubkey
  owner : Pubkey
  mint : Pubkey
  amount : UInt64
deriving DecidableEq

/-- `spl_token_interface::state::Account::unpack(&account.data)?`. -/
def orNone {α : Type} : Res α → Option α
  | .ok a => some a
  | .error _ => none

/-- `rust-client/src/utils/mod.rs:117-138`. -/
def fetchVaultState (cr : Crypto) (L : Ledger) : Option VaultState := do
  let (stateAddress, _) ← findStateAddress cr
  let tokenProgram ← key58 TOKEN_PROGRAM_ADDRESS
  let orcaMint ← key58 ORCA_MINT_ADDRESS
  let (address, _) ← findOrcaVaultAddress cr stateAddress tokenProgram orcaMint
  let account ← getAccount L address
  let t ← orNone (unpackTokenAccount account.data)
  some { address, owner := t.owner, mint := t.mint, amount := t.amount }

/-- `rust-client/src/utils/mod.rs:149-158`. -/
def fetchXorcaMintSupply (L : Ledger) : Option UInt64 := do
  let mint ← key58 XORCA_MINT_ADDRESS
  let account ← getAccount L mint
  (orNone (unpackMint account.data)).map (·.supply)

/-- `rust-client/src/utils/mod.rs:172-185`: numerator and denominator.  Three RPC calls, each of which may see a
later ledger. -/
def fetchStakingExchangeRate (cr : Crypto) (Lstate Lvault Lmint : Ledger) : Option (UInt64 × UInt64) := do
  let state ← fetchState cr Lstate
  let vault ← fetchVaultState cr Lvault
  let numerator ← checkedSubU64 vault.amount state.escrowedOrcaAmount
  let denominator ← fetchXorcaMintSupply Lmint
  some (numerator, denominator)

/-! ### JS client: `js-client/src/utils/index.ts`

The generated JS decoders read the same fields in the same order as Borsh, ignore trailing bytes and throw
where Borsh fails. -/

/-- `js-client/src/utils/index.ts:117-127` (an integer argument). -/
def jsValidMax (max : Int) : Bool := !(decide (max < 0) || decide (255 < max))

/-- `js-client/src/utils/index.ts:87-115`: accounts that cannot be decoded are dropped. -/
def jsFetchPendingWithdraws (cr : Crypto) (L : Ledger) (staker : Pubkey) (max : Option Int) :
    Option (List PendingWithdraw) := do
  let n := max.getD 15
  if jsValidMax n then
    let addresses ← withdrawAddresses cr staker n.toNat
    some (((addresses.filterMap (getAccount L)).map fun a => PendingWithdraw.deserialize a.data).filterMap id)
  else none

/-- `getTokenDecoder()` of `@solana-program/token`: no check of the length beyond the 165 bytes, of option
tags or of initialisation. -/
def jsDecodeToken (d : Bytes) : Option TokenAccount := decodeTokenAccount d

/-- `getMintDecoder()` of `@solana-program/token`, supply only. -/
def jsDecodeMintSupply (d : Bytes) : Option UInt64 := if 82 ≤ d.length then some (readU64 d 36) else none

/-- `js-client/src/utils/index.ts:129-154`. -/
def jsFetchVaultState (cr : Crypto) (L : Ledger) : Option VaultState := do
  let (stateAddress, _) ← findStateAddress cr
  let tokenProgram ← key58 TOKEN_PROGRAM_ADDRESS
  let orcaMint ← key58 ORCA_MINT_ADDRESS
  let (address, _) ← findOrcaVaultAddress cr stateAddress tokenProgram orcaMint
  let account ← getAccount L address
  let t ← jsDecodeToken account.data
  some { address, owner := t.owner, mint := t.mint, amount := t.amount }

/-- `js-client/src/utils/index.ts:156-165`. -/
def jsFetchXorcaMintSupply (L : Ledger) : Option UInt64 := do
  let mint ← key58 XORCA_MINT_ADDRESS
  let account ← getAccount L mint
  jsDecodeMintSupply account.data

/-- `js-client/src/utils/index.ts:167-181`: the difference of two `bigint`s may be negative. -/
def jsFetchStakingExchangeRate (cr : Crypto) (Lstate Lvault Lmint : Ledger) : Option (Int × Int) := do
  let state ← fetchState cr Lstate
  let vault ← jsFetchVaultState cr Lvault
  let denominator ← jsFetchXorcaMintSupply Lmint
  some ((vault.amount.toNat : Int) - state.escrowedOrcaAmount.toNat, denominator.toNat)

end Xorca.Client
