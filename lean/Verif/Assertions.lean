import Verif.Runtime
/-
Account assertions and account utilities of the program.
-/
namespace Xorca

/-- `solana-program/src/assertions/account.rs:34-37`. -/
inductive AccountRole
  | Signer | Writable
deriving DecidableEq

/-- `solana-program/src/util/account.rs:17-25`. -/
def getAccountInfo (accounts : List Meta) (index : Nat) : Res Meta :=
  if accounts.length ≤ index then .error (.custom .NotEnoughAccountKeys)
  else match accounts[index]? with
    | some m => .ok m
    | none => .error .panicked

/-- `solana-program/src/assertions/account.rs:39-60`. -/
def assertAccountRole (account : Meta) : List AccountRole → Res Unit
  | [] => .ok ()
  | role :: roles =>
    match role, account.isSigner, account.isWritable with
    | .Signer, false, _ => .error (.custom .InvalidAccountRole)
    | .Writable, _, false => .error (.custom .InvalidAccountRole)
    | _, _, _ => assertAccountRole account roles

/-- `solana-program/src/assertions/account.rs:62-72`. -/
def assertAccountOwner (L : Ledger) (account : Meta) (owner : Pubkey) : Res Unit :=
  ensure ((L account.key).owner = owner) (.custom .IncorrectOwner)

/-- `solana-program/src/assertions/account.rs:74-92`. Returns the bump. -/
def assertAccountSeeds (cr : Crypto) (account : Meta) (programId : Pubkey) (seeds : List Bytes) :
    Res UInt8 := do
  let (address, bump) ← okOr (findProgramAddress cr seeds programId) .panicked
  ensure (account.key = address) (.custom .InvalidSeeds)
  .ok bump

/-- `solana-program/src/assertions/account.rs:119-128`. -/
def assertAccountAddress (account : Meta) (address : Pubkey) : Res Unit :=
  ensure (account.key = address) (.custom .IncorrectAccountAddress)

/-- `solana-program/src/assertions/account.rs:150-161`. -/
def assertAccountLen (L : Ledger) (account : Meta) (length : Nat) : Res Unit :=
  if (L account.key).data.length < length then .error (.custom .InvalidAccountData) else .ok ()

/-- `solana-program/src/assertions/account.rs:163-187` (for a single discriminator). -/
def assertAccountDiscriminator (L : Ledger) (account : Meta) (d : AccountDiscriminator) : Res Unit :=
  match (L account.key).data with
  | [] => .error (.custom .InvalidAccountData)
  | b :: _ => if d.toU8 = b then .ok () else .error (.custom .InvalidAccountData)

/-- `solana-program/src/assertions/account.rs:130-148` (`assert_account_data` and `_mut`): returns the
bytes that the program then views in place. -/
def assertAccountData (L : Ledger) (account : Meta) (len : Nat) (d : AccountDiscriminator) : Res Bytes := do
  assertAccountLen L account len
  assertAccountDiscriminator L account d
  .ok (L account.key).data

/-- `assert_account_data::<State>`. -/
def assertStateData (L : Ledger) (account : Meta) : Res Bytes :=
  assertAccountData L account STATE_LEN .State
/-- `assert_account_data::<PendingWithdraw>`. -/
def assertPendingWithdrawData (L : Ledger) (account : Meta) : Res Bytes :=
  assertAccountData L account PENDING_WITHDRAW_LEN .PendingWithdraw

/-- `solana-program/src/assertions/account.rs:189-195` for `TokenMint`. -/
def assertTokenMintData (L : Ledger) (account : Meta) : Res TokenMint :=
  okOr (decodeTokenMint (L account.key).data) (.custom .InvalidAccountData)

/-- `solana-program/src/assertions/account.rs:189-195` for `TokenAccount`. -/
def assertTokenAccountData (L : Ledger) (account : Meta) : Res TokenAccount :=
  okOr (decodeTokenAccount (L account.key).data) (.custom .InvalidAccountData)

/-- `solana-program/src/assertions/account.rs:197-227`. -/
def makeOwnerTokenAccountAssertions (L : Ledger) (ownerTokenAccount ownerAccount tokenMintAccount : Meta)
    (verifyWritable : Bool) : Res TokenAccount := do
  if verifyWritable then assertAccountRole ownerTokenAccount [.Writable] else .ok ()
  assertAccountOwner L ownerTokenAccount SPL_TOKEN_PROGRAM_ID
  let t ← assertTokenAccountData L ownerTokenAccount
  ensure (t.owner = ownerAccount.key) (.custom .InvalidAccountData)
  ensure (t.mint = tokenMintAccount.key) (.custom .InvalidAccountData)
  .ok t

/-- `solana-program/src/state/state.rs:59-73` with the callers' `map_err` to `InvalidSeeds`. -/
def verifyStateAddress (cr : Crypto) (account : Meta) (storedBump : UInt8) : Res Unit :=
  ensure (account.key = deriveAddress cr stateSeedsRaw storedBump PROGRAM_ID) (.custom .InvalidSeeds)

/-- `solana-program/src/state/state.rs:75-95`. -/
def verifyVaultAddress (cr : Crypto) (stateAccount vaultAccount orcaMint : Meta)
    (storedVaultBump : UInt8) : Res Unit :=
  ensure (vaultAccount.key = deriveAddress cr
      (vaultSeedsRaw stateAccount.key SPL_TOKEN_PROGRAM_ID orcaMint.key) storedVaultBump
      ASSOCIATED_TOKEN_PROGRAM_ID) (.custom .InvalidSeeds)

/-- `solana-program/src/state/pending_withdraw.rs:53-69`. -/
def verifyPendingWithdrawAddress (cr : Crypto) (account : Meta) (unstaker : Pubkey)
    (withdrawIndex : Bytes) (storedBump : UInt8) : Res Unit :=
  ensure (account.key = deriveAddress cr (pendingWithdrawSeedsRaw unstaker withdrawIndex) storedBump
      PROGRAM_ID) (.custom .InvalidSeeds)

/-! ### Account creation and closing -/

/-- `solana-program/src/util/account.rs:30-86`. `c` carries the PDA signer. -/
def createAccountSecure (x : Ctx) (c : Caller) (L : Ledger) (funder newAccount : Pubkey) (space : Nat)
    (owner : Pubkey) : Res Ledger :=
  if (L newAccount).owner ≠ SYSTEM_PROGRAM_ID then .ok L
  else
    let requiredLamports := x.rentMin space
    let currentLamports := (L newAccount).lamports
    if currentLamports = 0 then
      cpiCreateAccount c L funder newAccount requiredLamports space owner
    else do
      -- `required_lamports.saturating_sub(current_lamports)`
      let lamportsToTransfer : UInt64 :=
        if requiredLamports.toNat ≤ currentLamports.toNat then 0 else requiredLamports - currentLamports
      let L1 ← if 0 < lamportsToTransfer.toNat then
          cpiSystemTransfer c L funder newAccount lamportsToTransfer
        else .ok L
      let L2 ← cpiAllocate c L1 newAccount space
      cpiAssign c L2 newAccount owner

/-- `data[0] = v` (a panic on empty data). -/
def setByte0 (d : Bytes) (v : UInt8) : Res Bytes :=
  match d with
  | [] => .error .panicked
  | _ :: r => .ok (v :: r)

/-- `solana-program/src/util/account.rs:89-98` for `PendingWithdraw`. -/
def createPendingWithdrawSecure (x : Ctx) (c : Caller) (L : Ledger) (funder newAccount : Pubkey) :
    Res Ledger := do
  let L1 ← createAccountSecure x c L funder newAccount PENDING_WITHDRAW_LEN PROGRAM_ID
  let d ← setByte0 (L1 newAccount).data AccountDiscriminator.PendingWithdraw.toU8
  .ok (L1.setData newAccount d)

/-- `solana-program/src/util/account.rs:100-118` for `State`. -/
def createStateBorsh (x : Ctx) (c : Caller) (L : Ledger) (funder newAccount : Pubkey) (s : State) :
    Res Ledger := do
  let L1 ← createAccountSecure x c L funder newAccount STATE_LEN PROGRAM_ID
  let ser := s.serialize
  ensure (ser.length ≤ (L1 newAccount).data.length) .invalidAccountData
  .ok (L1.setData newAccount (writeAt (L1 newAccount).data 0 ser))

/-- `solana-program/src/util/account.rs:122-139`.  The lamport addition is plain `+=`, i.e. wrapping in
a release build.  When both keys are equal the second assignment wins, as in the code. -/
def closeProgramAccount (L : Ledger) (toClose receiver : Pubkey) : Res Ledger := do
  let d ← setByte0 (L toClose).data AccountDiscriminator.Closed.toU8
  let L1 := L.setData toClose d
  let L2 := L1.setLamports receiver ((L1 receiver).lamports + (L1 toClose).lamports)
  let L3 := L2.setLamports toClose 0
  let L4 := L3.setData toClose []
  .ok (L4.set toClose { L4 toClose with owner := SYSTEM_PROGRAM_ID })

end Xorca
