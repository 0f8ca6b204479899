import Verif.Entrypoint
import Mathlib.Data.List.Dedup
/-
The instructions once more, now with the dynamic checks that the plain model (`Instr`) leaves out:

* pinocchio's borrow flags: every `try_borrow_data`, every guard that is kept, and the test of the flags before a call of
  another program (`pinocchio` 0.9.1, `account_info.rs` and `program.rs`);
* the rules the runtime enforces on a program's own writes, whenever the program calls another one and when it returns:
  only writable accounts change, data and owner change only in accounts the program owns, only those lose lamports, an
  account is given away only with zeroed data, no lamports appear or vanish;
* a called program sees the caller's changes only in the accounts that are passed to it;
* an account grows by at most 10240 bytes in one instruction.

Lamport borrows live for one statement only and are left out.
-/
namespace Xorca

/-- Errors of the machine: those of the plain model and three more. -/
inductive MErr
  | plain (e : Err)
  /-- `ProgramError::AccountBorrowFailed`. -/
  | borrowFailed
  /-- The runtime refuses a write (`ReadonlyDataModified`, `ExternalAccountDataModified`, `ModifiedProgramId`, …). -/
  | illegalChange
  /-- `InstructionError::UnbalancedInstruction`. -/
  | unbalanced
  /-- `InstructionError::InvalidRealloc`. -/
  | invalidRealloc
deriving DecidableEq

abbrev MRes (α : Type) := Except MErr α

/-- A step of the plain model. -/
def lift {α : Type} : Res α → MRes α
  | .ok a => .ok a
  | .error e => .error (.plain e)

/-- `if !c { return Err(e) }`. -/
def require (c : Prop) [Decidable c] (e : MErr) : MRes Unit := if c then .ok () else .error e

/-! ### Borrow flags -/

/-- The borrow state of one account's data: the number of live `Ref`s, and whether a `RefMut` is alive. -/
structure Flag where
  readers : Nat
  writer : Bool
deriving DecidableEq

/-- The borrow state of all accounts. The same account passed twice has one state. -/
abbrev Flags := Pubkey → Flag

/-- Nothing is borrowed when the program starts. -/
def noBorrows : Flags := fun _ => ⟨0, false⟩

def Flags.set (F : Flags) (k : Pubkey) (f : Flag) : Flags := fun k' => if k' = k then f else F k'

/-- Up to seven readers and no writer. -/
def Flag.CanRead (f : Flag) : Prop := f.writer = false ∧ f.readers < 7
/-- Nobody else. -/
def Flag.CanWrite (f : Flag) : Prop := f.writer = false ∧ f.readers = 0

instance (f : Flag) : Decidable f.CanRead := by unfold Flag.CanRead; infer_instance
instance (f : Flag) : Decidable f.CanWrite := by unfold Flag.CanWrite; infer_instance

/-- `try_borrow_data`; the new flags are used while the guard lives. -/
def tryBorrow (F : Flags) (k : Pubkey) : MRes Flags := do
  require (F k).CanRead .borrowFailed
  .ok (F.set k ⟨(F k).readers + 1, false⟩)

/-- `try_borrow_mut_data`. -/
def tryBorrowMut (F : Flags) (k : Pubkey) : MRes Flags := do
  require (F k).CanWrite .borrowFailed
  .ok (F.set k ⟨0, true⟩)

/-- A `RefMut` is dropped. -/
def dropMut (F : Flags) (k : Pubkey) : Flags := F.set k ⟨(F k).readers, false⟩

/-! ### The runtime's rules -/

/-- What the running program may have done to an account since the runtime last looked. -/
def ChangeAllowed (accounts : List Meta) (k : Pubkey) (a a' : Account) : Prop :=
  a' = a ∨
    ((∃ m ∈ accounts, m.key = k ∧ m.isWritable = true) ∧
      (a'.lamports.toNat < a.lamports.toNat → a.owner = PROGRAM_ID) ∧
      (a'.data ≠ a.data → a.owner = PROGRAM_ID) ∧
      (a'.owner ≠ a.owner → a.owner = PROGRAM_ID ∧ ∀ b ∈ a'.data, b = 0))

instance (accounts : List Meta) (k : Pubkey) (a a' : Account) : Decidable (ChangeAllowed accounts k a a') := by
  unfold ChangeAllowed; infer_instance

/-- The lamports of the instruction's accounts, each counted once. -/
def lamportSum (accounts : List Meta) (L : Ledger) : Nat :=
  ((accounts.map (·.key)).dedup.map fun k => (L k).lamports.toNat).sum

/-- `MAX_PERMITTED_DATA_INCREASE`. -/
def MAX_DATA_INCREASE : Nat := 10240

/-- The ledger that has the listed accounts from `A` and the others from `B`. -/
def merge (ks : List Pubkey) (A B : Ledger) : Ledger := fun k => if k ∈ ks then A k else B k

/-- The running program: its borrow flags, the accounts as the runtime last saw them, the accounts as the program sees
them. -/
structure Mach where
  flags : Flags
  base : Ledger
  led : Ledger

/-- A program starts. -/
def Mach.start (L : Ledger) : Mach := ⟨noBorrows, L, L⟩

/-- Write into account data. -/
def Mach.setData (s : Mach) (k : Pubkey) (d : Bytes) : Mach := { s with led := s.led.setData k d }

/-- A call of another program: `infos` are the accounts passed, each with the writable flag it is passed with, and `L0` is
the ledger at the start of the instruction. -/
def Mach.cpi (accounts : List Meta) (L0 : Ledger) (s : Mach) (infos : List (Pubkey × Bool))
    (callee : Ledger → Res Ledger) : MRes Mach := do
  -- `pinocchio::program::invoke_signed`
  require (∀ p ∈ infos, (s.flags p.1).writer = false ∧ (p.2 = true → (s.flags p.1).readers = 0)) .borrowFailed
  -- the runtime takes over the caller's changes
  require (∀ p ∈ infos, ChangeAllowed accounts p.1 (s.base p.1) (s.led p.1)) .illegalChange
  require (lamportSum accounts s.led = lamportSum accounts s.base) .unbalanced
  -- the called program
  let after ← lift (callee (merge (infos.map (·.1)) s.led s.base))
  require (∀ p ∈ infos, (after p.1).data.length ≤ (L0 p.1).data.length + MAX_DATA_INCREASE) .invalidRealloc
  .ok ⟨s.flags, merge (infos.map (·.1)) after s.base, merge (infos.map (·.1)) after s.led⟩

/-- The program returns `Ok`. -/
def Mach.finish (accounts : List Meta) (L0 : Ledger) (s : Mach) : MRes Ledger := do
  require (∀ m ∈ accounts, ChangeAllowed accounts m.key (s.base m.key) (s.led m.key)) .illegalChange
  require (∀ m ∈ accounts, (s.led m.key).data.length ≤ (L0 m.key).data.length + MAX_DATA_INCREASE) .invalidRealloc
  require (lamportSum accounts s.led = lamportSum accounts s.base) .unbalanced
  .ok s.led

/-! ### Assertions and utilities -/

/-- `solana-program/src/assertions/account.rs:130-138` with `:163-187`: the discriminator test borrows for a moment, the
result keeps a `Ref`. -/
def assertDataM (s : Mach) (account : Meta) (len : Nat) (d : AccountDiscriminator) : MRes (Bytes × Mach) := do
  lift (assertAccountLen s.led account len)
  let _ ← tryBorrow s.flags account.key
  lift (assertAccountDiscriminator s.led account d)
  let F ← tryBorrow s.flags account.key
  .ok ((s.led account.key).data, { s with flags := F })

/-- `solana-program/src/assertions/account.rs:140-148`: the same with a `RefMut`. -/
def assertDataMutM (s : Mach) (account : Meta) (len : Nat) (d : AccountDiscriminator) : MRes (Bytes × Mach) := do
  lift (assertAccountLen s.led account len)
  let _ ← tryBorrow s.flags account.key
  lift (assertAccountDiscriminator s.led account d)
  let F ← tryBorrowMut s.flags account.key
  .ok ((s.led account.key).data, { s with flags := F })

/-- `solana-program/src/assertions/account.rs:189-195`; the borrow ends with the function. -/
def assertTokenMintDataM (s : Mach) (account : Meta) : MRes TokenMint := do
  let _ ← tryBorrow s.flags account.key
  lift (assertTokenMintData s.led account)

/-- `solana-program/src/assertions/account.rs:197-227`. -/
def makeOwnerTokenAccountAssertionsM (s : Mach) (ownerTokenAccount ownerAccount tokenMintAccount : Meta)
    (verifyWritable : Bool) : MRes TokenAccount := do
  lift (if verifyWritable then assertAccountRole ownerTokenAccount [.Writable] else .ok ())
  lift (assertAccountOwner s.led ownerTokenAccount SPL_TOKEN_PROGRAM_ID)
  let _ ← tryBorrow s.flags ownerTokenAccount.key
  let t ← lift (assertTokenAccountData s.led ownerTokenAccount)
  lift (ensure (t.owner = ownerAccount.key) (.custom .InvalidAccountData))
  lift (ensure (t.mint = tokenMintAccount.key) (.custom .InvalidAccountData))
  .ok t

/-- `solana-program/src/util/account.rs:62-83`: the path for an address that holds lamports. -/
def topUpM (accounts : List Meta) (L0 : Ledger) (pda : Pubkey) (s : Mach) (funder new : Pubkey) (lamports : UInt64) :
    MRes Mach :=
  if 0 < lamports.toNat then
    s.cpi accounts L0 [(funder, true), (new, true)] fun L => cpiSystemTransfer ⟨accounts, [pda]⟩ L funder new lamports
  else .ok s

/-- `solana-program/src/util/account.rs:30-86`. -/
def createAccountSecureM (x : Ctx) (accounts : List Meta) (L0 : Ledger) (pda : Pubkey) (s : Mach)
    (funder new : Pubkey) (space : Nat) (owner : Pubkey) : MRes Mach :=
  if (s.led new).owner ≠ SYSTEM_PROGRAM_ID then .ok s
  else
    let required := x.rentMin space
    let current := (s.led new).lamports
    if current = 0 then
      s.cpi accounts L0 [(funder, true), (new, true)] fun L =>
        cpiCreateAccount ⟨accounts, [pda]⟩ L funder new required space owner
    else do
      let lamportsToTransfer : UInt64 := if required.toNat ≤ current.toNat then 0 else required - current
      let s1 ← topUpM accounts L0 pda s funder new lamportsToTransfer
      let s2 ← s1.cpi accounts L0 [(new, true)] fun L => cpiAllocate ⟨accounts, [pda]⟩ L new space
      s2.cpi accounts L0 [(new, true)] fun L => cpiAssign ⟨accounts, [pda]⟩ L new owner

/-- `solana-program/src/util/account.rs:122-139`. -/
def closeProgramAccountM (s : Mach) (toClose receiver : Pubkey) : MRes Mach := do
  let F ← tryBorrowMut s.flags toClose
  let d ← lift (setByte0 (s.led toClose).data AccountDiscriminator.Closed.toU8)
  let L1 := s.led.setData toClose d
  let L2 := L1.setLamports receiver ((L1 receiver).lamports + (L1 toClose).lamports)
  let L3 := L2.setLamports toClose 0
  let F' := dropMut F toClose
  -- `resize(0)` wants the data unborrowed
  let _ ← tryBorrowMut F' toClose
  let L4 := L3.setData toClose []
  .ok { s with flags := F', led := L4.set toClose { L4 toClose with owner := SYSTEM_PROGRAM_ID } }

/-! ### Instructions -/

/-- `solana-program/src/instructions/stake.rs:18-141`. The `Ref` of the state lives to the end. -/
def processStakeM (x : Ctx) (L0 : Ledger) (accounts : List Meta) (s : Mach) (orcaStakeAmount : UInt64) :
    MRes (Mach × List Bytes) := do
  let stakerAccount ← lift (getAccountInfo accounts 0)
  let vaultAccount ← lift (getAccountInfo accounts 1)
  let stakerOrcaAta ← lift (getAccountInfo accounts 2)
  let stakerXorcaAta ← lift (getAccountInfo accounts 3)
  let xorcaMintAccount ← lift (getAccountInfo accounts 4)
  let stateAccount ← lift (getAccountInfo accounts 5)
  let orcaMintAccount ← lift (getAccountInfo accounts 6)
  let tokenProgramAccount ← lift (getAccountInfo accounts 7)
  lift (assertAccountRole stakerAccount [.Signer, .Writable])
  lift (assertAccountAddress orcaMintAccount ORCA_MINT_ID)
  lift (assertAccountAddress xorcaMintAccount XORCA_MINT_ID)
  lift (assertAccountAddress tokenProgramAccount SPL_TOKEN_PROGRAM_ID)
  let stakerOrcaAtaData ← makeOwnerTokenAccountAssertionsM s stakerOrcaAta stakerAccount orcaMintAccount true
  lift (ensure (¬ stakerOrcaAtaData.amount.toNat < orcaStakeAmount.toNat) (.custom .InsufficientFunds))
  let _ ← makeOwnerTokenAccountAssertionsM s stakerXorcaAta stakerAccount xorcaMintAccount true
  lift (assertAccountRole xorcaMintAccount [.Writable])
  lift (assertAccountOwner s.led xorcaMintAccount SPL_TOKEN_PROGRAM_ID)
  let xorcaMintData ← assertTokenMintDataM s xorcaMintAccount
  lift (assertAccountOwner s.led orcaMintAccount SPL_TOKEN_PROGRAM_ID)
  lift (assertAccountOwner s.led stateAccount PROGRAM_ID)
  let (state, s1) ← assertDataM s stateAccount STATE_LEN .State
  lift (verifyStateAddress x.cr stateAccount (stBump state))
  lift (verifyVaultAddress x.cr stateAccount vaultAccount orcaMintAccount (stVaultBump state))
  let vaultAccountData ← makeOwnerTokenAccountAssertionsM s1 vaultAccount stateAccount orcaMintAccount true
  let nonEscrowedOrcaAmount ← lift (okOr (checkedSubU64 vaultAccountData.amount (stEscrow state))
    (.custom .InsufficientVaultBacking))
  let xorcaToMint ← lift (convertOrcaToXorca orcaStakeAmount nonEscrowedOrcaAmount xorcaMintData.supply)
  lift (ensure (xorcaToMint ≠ 0) (.custom .InsufficientStakeAmount))
  let s2 ← s1.cpi accounts L0 [(stakerOrcaAta.key, true), (vaultAccount.key, true), (stakerAccount.key, false)] fun L =>
    cpiTokenTransfer ⟨accounts, []⟩ L stakerOrcaAta.key vaultAccount.key stakerAccount.key orcaStakeAmount
  let pda ← lift (signerPda x.cr stateSeedsRaw (stBump state))
  let s3 ← s2.cpi accounts L0 [(xorcaMintAccount.key, true), (stakerXorcaAta.key, true), (stateAccount.key, false)] fun L =>
    cpiMintTo ⟨accounts, [pda]⟩ L xorcaMintAccount.key stakerXorcaAta.key stateAccount.key xorcaToMint
  let finalVaultAmount := vaultAccountData.amount + orcaStakeAmount
  let finalXorcaSupply := xorcaMintData.supply + xorcaToMint
  .ok (s3, [(Event.Stake orcaStakeAmount finalVaultAmount (stEscrow state) finalXorcaSupply
    xorcaToMint).serialize])

/-- `solana-program/src/instructions/unstake.rs:23-189`. The first `Ref` of the state ends with its block; the `RefMut` of the
state lives over the creation of the record, and that of the record to the end. -/
def processUnstakeM (x : Ctx) (L0 : Ledger) (accounts : List Meta) (s : Mach) (xorcaUnstakeAmount : UInt64)
    (withdrawIndex : UInt8) : MRes (Mach × List Bytes) := do
  let unstakerAccount ← lift (getAccountInfo accounts 0)
  let stateAccount ← lift (getAccountInfo accounts 1)
  let pendingWithdrawAccount ← lift (getAccountInfo accounts 2)
  let unstakerXorcaAta ← lift (getAccountInfo accounts 3)
  let xorcaMintAccount ← lift (getAccountInfo accounts 4)
  let orcaMintAccount ← lift (getAccountInfo accounts 5)
  let vaultAccount ← lift (getAccountInfo accounts 6)
  let systemProgramAccount ← lift (getAccountInfo accounts 7)
  let tokenProgramAccount ← lift (getAccountInfo accounts 8)
  lift (assertAccountRole unstakerAccount [.Signer, .Writable])
  lift (assertAccountAddress xorcaMintAccount XORCA_MINT_ID)
  lift (assertAccountAddress orcaMintAccount ORCA_MINT_ID)
  lift (assertAccountAddress tokenProgramAccount SPL_TOKEN_PROGRAM_ID)
  lift (assertAccountAddress systemProgramAccount SYSTEM_PROGRAM_ID)
  lift (assertAccountRole stateAccount [.Writable])
  lift (assertAccountOwner s.led stateAccount PROGRAM_ID)
  let vaultAccountData ← makeOwnerTokenAccountAssertionsM s vaultAccount stateAccount orcaMintAccount false
  lift (assertAccountRole pendingWithdrawAccount [.Writable])
  lift (assertAccountOwner s.led pendingWithdrawAccount SYSTEM_PROGRAM_ID)
  let pendingWithdrawSeeds := pendingWithdrawSeedsRaw unstakerAccount.key [withdrawIndex]
  let pendingWithdrawBump ← lift (assertAccountSeeds x.cr pendingWithdrawAccount PROGRAM_ID pendingWithdrawSeeds)
  let unstakerXorcaAtaData ← makeOwnerTokenAccountAssertionsM s unstakerXorcaAta unstakerAccount
    xorcaMintAccount true
  lift (ensure (¬ unstakerXorcaAtaData.amount.toNat < xorcaUnstakeAmount.toNat) (.custom .InsufficientFunds))
  lift (assertAccountOwner s.led xorcaMintAccount SPL_TOKEN_PROGRAM_ID)
  lift (assertAccountRole xorcaMintAccount [.Writable])
  let xorcaMintData ← assertTokenMintDataM s xorcaMintAccount
  lift (ensure (¬ (xorcaMintData.mintAuthorityFlag = 0 ∨ xorcaMintData.mintAuthority ≠ stateAccount.key))
    (.custom .InvalidAccountData))
  lift (ensure (¬ xorcaMintData.freezeAuthorityFlag ≠ 0) (.custom .InvalidAccountData))
  lift (assertAccountOwner s.led orcaMintAccount SPL_TOKEN_PROGRAM_ID)
  let _ ← assertTokenMintDataM s orcaMintAccount
  let (stateView, _) ← assertDataM s stateAccount STATE_LEN .State
  lift (verifyStateAddress x.cr stateAccount (stBump stateView))
  lift (verifyVaultAddress x.cr stateAccount vaultAccount orcaMintAccount (stVaultBump stateView))
  let nonEscrowedOrcaAmount ← lift (okOr (checkedSubU64 vaultAccountData.amount (stEscrow stateView))
    (.custom .InsufficientVaultBacking))
  let withdrawableOrcaAmount ← lift (convertXorcaToOrca xorcaUnstakeAmount nonEscrowedOrcaAmount
    xorcaMintData.supply)
  lift (ensure (withdrawableOrcaAmount ≠ 0) (.custom .InsufficientUnstakeAmount))
  let s1 ← s.cpi accounts L0 [(unstakerXorcaAta.key, true), (xorcaMintAccount.key, true), (unstakerAccount.key, false)]
    fun L => cpiBurn ⟨accounts, []⟩ L unstakerXorcaAta.key xorcaMintAccount.key unstakerAccount.key xorcaUnstakeAmount
  let (st, s2) ← assertDataMutM s1 stateAccount STATE_LEN .State
  let newEscrow ← lift (okOr (checkedAddU64 (stEscrow st) withdrawableOrcaAmount) (.custom .ArithmeticError))
  let s3 := s2.setData stateAccount.key (setStEscrow st newEscrow)
  let pda ← lift (signerPda x.cr pendingWithdrawSeeds pendingWithdrawBump)
  let s4 ← createAccountSecureM x accounts L0 pda s3 unstakerAccount.key pendingWithdrawAccount.key
    PENDING_WITHDRAW_LEN PROGRAM_ID
  let F ← tryBorrowMut s4.flags pendingWithdrawAccount.key
  let d0 ← lift (setByte0 (s4.led pendingWithdrawAccount.key).data AccountDiscriminator.PendingWithdraw.toU8)
  let d1 := setPwBump d0 pendingWithdrawBump
  let d2 := setPwIndex d1 withdrawIndex
  let d3 := setPwUnstaker d2 unstakerAccount.key
  let d4 := setPwAmount d3 withdrawableOrcaAmount
  let withdrawableTimestamp ← lift (okOr (checkedAddI64 x.now (stCoolDown (s3.led stateAccount.key).data))
    (.custom .CoolDownOverflow))
  let d5 := setPwTimestamp d4 withdrawableTimestamp
  let s5 : Mach := { s4.setData pendingWithdrawAccount.key d5 with flags := F }
  let finalXorcaSupply := xorcaMintData.supply - xorcaUnstakeAmount
  .ok (s5, [(Event.Unstake xorcaUnstakeAmount vaultAccountData.amount newEscrow finalXorcaSupply
    withdrawableOrcaAmount (stCoolDown (s3.led stateAccount.key).data) withdrawIndex).serialize])

/-- `solana-program/src/instructions/withdraw.rs:16-150`. All `Ref`s end with their blocks. -/
def processWithdrawM (x : Ctx) (L0 : Ledger) (accounts : List Meta) (s : Mach) (withdrawIndex : UInt8) :
    MRes (Mach × List Bytes) := do
  let unstakerAccount ← lift (getAccountInfo accounts 0)
  let stateAccount ← lift (getAccountInfo accounts 1)
  let pendingWithdrawAccount ← lift (getAccountInfo accounts 2)
  let unstakerOrcaAta ← lift (getAccountInfo accounts 3)
  let vaultAccount ← lift (getAccountInfo accounts 4)
  let orcaMintAccount ← lift (getAccountInfo accounts 5)
  let systemProgramAccount ← lift (getAccountInfo accounts 6)
  let tokenProgramAccount ← lift (getAccountInfo accounts 7)
  lift (assertAccountRole unstakerAccount [.Signer, .Writable])
  lift (assertAccountAddress orcaMintAccount ORCA_MINT_ID)
  lift (assertAccountOwner s.led orcaMintAccount SPL_TOKEN_PROGRAM_ID)
  lift (assertAccountRole stateAccount [.Writable])
  lift (assertAccountOwner s.led stateAccount PROGRAM_ID)
  let (stateView, _) ← assertDataM s stateAccount STATE_LEN .State
  lift (verifyStateAddress x.cr stateAccount (stBump stateView))
  lift (verifyVaultAddress x.cr stateAccount vaultAccount orcaMintAccount (stVaultBump stateView))
  lift (assertAccountRole pendingWithdrawAccount [.Writable])
  lift (assertAccountOwner s.led pendingWithdrawAccount PROGRAM_ID)
  let (pw, _) ← assertDataM s pendingWithdrawAccount PENDING_WITHDRAW_LEN .PendingWithdraw
  lift (verifyPendingWithdrawAddress x.cr pendingWithdrawAccount unstakerAccount.key [withdrawIndex] (pwBump pw))
  let (pw', _) ← assertDataM s pendingWithdrawAccount PENDING_WITHDRAW_LEN .PendingWithdraw
  let _ ← makeOwnerTokenAccountAssertionsM s unstakerOrcaAta unstakerAccount orcaMintAccount true
  let _ ← makeOwnerTokenAccountAssertionsM s vaultAccount stateAccount orcaMintAccount true
  lift (assertAccountAddress systemProgramAccount SYSTEM_PROGRAM_ID)
  lift (assertAccountAddress tokenProgramAccount SPL_TOKEN_PROGRAM_ID)
  lift (ensure (¬ x.now.toInt < (pwTimestamp pw').toInt) (.custom .CoolDownPeriodStillActive))
  let (stateData, _) ← assertDataM s stateAccount STATE_LEN .State
  lift (ensure (¬ (stEscrow stateData).toNat < (pwAmount pw').toNat) (.custom .InsufficientEscrow))
  let pda ← lift (signerPda x.cr stateSeedsRaw (stBump stateView))
  let s1 ← s.cpi accounts L0 [(vaultAccount.key, true), (unstakerOrcaAta.key, true), (stateAccount.key, false)] fun L =>
    cpiTokenTransfer ⟨accounts, [pda]⟩ L vaultAccount.key unstakerOrcaAta.key stateAccount.key (pwAmount pw')
  let s2 ← closeProgramAccountM s1 pendingWithdrawAccount.key unstakerAccount.key
  let (st, s3) ← assertDataMutM s2 stateAccount STATE_LEN .State
  let newEscrow ← lift (okOr (checkedSubU64 (stEscrow st) (pwAmount pw')) (.custom .InsufficientEscrow))
  let s4 := s3.setData stateAccount.key (setStEscrow st newEscrow)
  .ok (s4, [(Event.Withdraw newEscrow (pwAmount pw') (stCoolDown (s4.led stateAccount.key).data)
    withdrawIndex).serialize])

/-- The `match` of `solana-program/src/instructions/set.rs:36-55`. -/
def applySetM (s : Mach) (stateKey : Pubkey) (stateView : Bytes) : StateUpdateInstruction → MRes (Mach × List Bytes)
  | .UpdateCoolDownPeriod c => do
    lift (ensure (¬ c.toInt < 0) (.custom .InvalidCoolDownPeriod))
    .ok (s.setData stateKey (setStCoolDown stateView c), [])
  | .UpdateUpdateAuthority k =>
    .ok (s.setData stateKey (setStAuthority stateView k), [(Event.UpdateAuthoritySet k (stAuthority stateView)).serialize])

/-- `solana-program/src/instructions/set.rs:14-58`. The `RefMut` of the state lives to the end. -/
def processSetM (x : Ctx) (accounts : List Meta) (s : Mach) (u : StateUpdateInstruction) : MRes (Mach × List Bytes) := do
  let updateAuthorityAccount ← lift (getAccountInfo accounts 0)
  let stateAccount ← lift (getAccountInfo accounts 1)
  lift (assertAccountRole updateAuthorityAccount [.Signer, .Writable])
  lift (assertAccountRole stateAccount [.Writable])
  lift (assertAccountOwner s.led stateAccount PROGRAM_ID)
  let (stateView, s1) ← assertDataMutM s stateAccount STATE_LEN .State
  lift (verifyStateAddress x.cr stateAccount (stBump stateView))
  lift (assertAccountAddress updateAuthorityAccount (stAuthority stateView))
  applySetM s1 stateAccount.key stateView u

/-- `solana-program/src/instructions/initialize.rs:21-155`. The `RefMut` in `create_program_account_borsh` ends with it. -/
def processInitializeM (x : Ctx) (L0 : Ledger) (accounts : List Meta) (s : Mach) (coolDownPeriodS : Int64) :
    MRes (Mach × List Bytes) := do
  let payerAccount ← lift (getAccountInfo accounts 0)
  let updateAuthorityAccount ← lift (getAccountInfo accounts 1)
  let stateAccount ← lift (getAccountInfo accounts 2)
  let vaultAccount ← lift (getAccountInfo accounts 3)
  let xorcaMintAccount ← lift (getAccountInfo accounts 4)
  let orcaMintAccount ← lift (getAccountInfo accounts 5)
  let systemProgramAccount ← lift (getAccountInfo accounts 6)
  let tokenProgramAccount ← lift (getAccountInfo accounts 7)
  let associatedTokenProgramAccount ← lift (getAccountInfo accounts 8)
  lift (assertAccountRole payerAccount [.Signer, .Writable])
  lift (ensure (payerAccount.key = DEPLOYER_ADDRESS) (.custom .UnauthorizedDeployerAccess))
  lift (assertAccountRole stateAccount [.Writable])
  let stateBump ← lift (assertAccountSeeds x.cr stateAccount PROGRAM_ID stateSeedsRaw)
  lift (ensure (¬ 0 < (s.led stateAccount.key).data.length) (.custom .StateAccountAlreadyInitialized))
  lift (assertAccountOwner s.led stateAccount SYSTEM_PROGRAM_ID)
  lift (assertAccountOwner s.led xorcaMintAccount SPL_TOKEN_PROGRAM_ID)
  let xorcaMintData ← assertTokenMintDataM s xorcaMintAccount
  lift (assertAccountAddress stateAccount xorcaMintData.mintAuthority)
  lift (ensure (xorcaMintData.supply = 0) (.custom .InvalidAccountData))
  lift (assertAccountAddress xorcaMintAccount XORCA_MINT_ID)
  lift (ensure (xorcaMintData.mintAuthorityFlag = 1) (.custom .InvalidAccountData))
  lift (ensure (xorcaMintData.freezeAuthorityFlag = 0) (.custom .InvalidAccountData))
  lift (ensure (xorcaMintData.freezeAuthority = DEFAULT_PUBKEY) (.custom .InvalidAccountData))
  lift (ensure (xorcaMintData.decimals = 6) (.custom .InvalidAccountData))
  lift (assertAccountOwner s.led orcaMintAccount SPL_TOKEN_PROGRAM_ID)
  let orcaMintData ← assertTokenMintDataM s orcaMintAccount
  lift (assertAccountAddress orcaMintAccount ORCA_MINT_ID)
  lift (ensure (orcaMintData.decimals = 6) (.custom .InvalidAccountData))
  lift (assertAccountRole updateAuthorityAccount [.Signer, .Writable])
  lift (assertAccountAddress systemProgramAccount SYSTEM_PROGRAM_ID)
  lift (assertAccountRole vaultAccount [.Writable])
  lift (assertAccountOwner s.led vaultAccount SYSTEM_PROGRAM_ID)
  lift (assertAccountAddress tokenProgramAccount SPL_TOKEN_PROGRAM_ID)
  lift (assertAccountAddress associatedTokenProgramAccount ASSOCIATED_TOKEN_PROGRAM_ID)
  let vaultSeeds := vaultSeedsRaw stateAccount.key SPL_TOKEN_PROGRAM_ID orcaMintAccount.key
  let (_, vaultBump) ← lift (okOr (findProgramAddress x.cr vaultSeeds ASSOCIATED_TOKEN_PROGRAM_ID) .panicked)
  let _ ← lift (assertAccountSeeds x.cr vaultAccount ASSOCIATED_TOKEN_PROGRAM_ID vaultSeeds)
  lift (ensure (¬ coolDownPeriodS.toInt < 0) (.custom .InvalidCoolDownPeriod))
  let stateData : State := { State.default with
    coolDownPeriodS := coolDownPeriodS
    bump := stateBump
    vaultBump := vaultBump
    updateAuthority := updateAuthorityAccount.key }
  let pda ← lift (signerPda x.cr stateSeedsRaw stateBump)
  let s1 ← createAccountSecureM x accounts L0 pda s payerAccount.key stateAccount.key STATE_LEN PROGRAM_ID
  let ser := stateData.serialize
  let _ ← tryBorrowMut s1.flags stateAccount.key
  lift (ensure (ser.length ≤ (s1.led stateAccount.key).data.length) .invalidAccountData)
  let s2 := s1.setData stateAccount.key (writeAt (s1.led stateAccount.key).data 0 ser)
  let s3 ← s2.cpi accounts L0 [(payerAccount.key, true), (vaultAccount.key, true), (stateAccount.key, false),
      (orcaMintAccount.key, false), (systemProgramAccount.key, false), (tokenProgramAccount.key, false)] fun L =>
    cpiCreateAtaIdempotent x ⟨accounts, []⟩ L payerAccount.key vaultAccount.key stateAccount.key orcaMintAccount.key
  .ok (s3, [])

/-- The `match` of `solana-program/src/entrypoint.rs:28-51`. -/
def dispatchM (x : Ctx) (L0 : Ledger) (accounts : List Meta) (s : Mach) : Instruction → MRes (Mach × List Bytes)
  | .Initialize coolDownPeriodS => processInitializeM x L0 accounts s coolDownPeriodS
  | .Stake orcaStakeAmount => processStakeM x L0 accounts s orcaStakeAmount
  | .Unstake xorcaUnstakeAmount withdrawIndex => processUnstakeM x L0 accounts s xorcaUnstakeAmount withdrawIndex
  | .Withdraw withdrawIndex => processWithdrawM x L0 accounts s withdrawIndex
  | .Set u => processSetM x accounts s u

/-- A whole instruction: the program starts, runs and returns. -/
def machine (x : Ctx) (L : Ledger) (accounts : List Meta) (ix : Instruction) : MRes Outcome := do
  let (s, logs) ← dispatchM x L accounts (.start L) ix
  let L' ← s.finish accounts L
  .ok (L', logs)

end Xorca
