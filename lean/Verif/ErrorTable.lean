import Verif.Calls
/-
The error table: what each instruction checks, in which order, and which error it reports.
-/
namespace Xorca.Spec

/-- A condition and the error that is reported if it does not hold. -/
abbrev Check := Prop × Err

/-- All conditions hold. -/
def AllHold (l : List Check) : Prop := ∀ c ∈ l, c.1

/-- The first condition of the list that does not hold has error `e`. -/
inductive FirstFails : List Check → Err → Prop
  | here {c : Prop} {e : Err} {l : List Check} : ¬ c → FirstFails ((c, e) :: l) e
  | there {c : Prop} {e e' : Err} {l : List Check} : c → FirstFails l e' → FirstFails ((c, e) :: l) e'

/-- `solana-program/src/assertions/account.rs:39-60`: the account signs and is writable. -/
def signs (m : Meta) : Check := (m.isSigner = true ∧ m.isWritable = true, .custom .InvalidAccountRole)
/-- `solana-program/src/assertions/account.rs:39-60`: the account is writable. -/
def writable (m : Meta) : Check := (m.isWritable = true, .custom .InvalidAccountRole)
/-- `solana-program/src/assertions/account.rs:119-128`: the account has the address `k`. -/
def isAt (m : Meta) (k : Pubkey) : Check := (m.key = k, .custom .IncorrectAccountAddress)
/-- `solana-program/src/assertions/account.rs:62-72`: the account belongs to program `p`. -/
def ownedBy (L : Ledger) (m : Meta) (p : Pubkey) : Check := ((L m.key).owner = p, .custom .IncorrectOwner)
/-- Contents are as they should be. -/
def contents (c : Prop) : Check := (c, .custom .InvalidAccountData)
/-- `solana-program/src/assertions/account.rs:189-195`: the account can be read as a mint. -/
def mintReads (L : Ledger) (m : Meta) : Check :=
  contents (82 ≤ (L m.key).data.length ∧ (readU8 (L m.key).data 45 = 0 ∨ readU8 (L m.key).data 45 = 1))
/-- `solana-program/src/assertions/account.rs:130-187`: the account can be read as the state. -/
def stateReads (L : Ledger) (m : Meta) : Check :=
  contents (2048 ≤ (L m.key).data.length ∧ readU8 (L m.key).data 0 = 1)
/-- `solana-program/src/assertions/account.rs:130-187`: the account can be read as a withdrawal record. -/
def recordReads (L : Ledger) (m : Meta) : Check :=
  contents (1024 ≤ (L m.key).data.length ∧ readU8 (L m.key).data 0 = 2)
/-- `solana-program/src/assertions/account.rs:197-227`: a token account of `mint` held by `holder`. -/
def tokenReads (L : Ledger) (m holder mint : Meta) : List Check :=
  [ownedBy L m SPL_TOKEN_PROGRAM_ID,
   contents (165 ≤ (L m.key).data.length ∧ (readU8 (L m.key).data 108).toNat ≤ 2),
   contents (ownerOf L m.key = holder.key),
   contents (mintOf L m.key = mint.key)]
/-- `solana-program/src/state/state.rs:59-95`: state and vault lie at the addresses that belong to the bumps stored in the
state. -/
def stateAddress (cr : Crypto) (L : Ledger) (st : Meta) : Check :=
  (st.key = cr.sha256 (stateHashed (readU8 (L st.key).data 6)), .custom .InvalidSeeds)
/-- See `stateAddress`. -/
def vaultAddress (cr : Crypto) (L : Ledger) (st v : Meta) : Check :=
  (v.key = cr.sha256 (vaultHashed st.key (readU8 (L st.key).data 7)), .custom .InvalidSeeds)

/-- `solana-program/src/instructions/stake.rs:18-141`. -/
def stakeChecks (x : Ctx) (L : Ledger) (a : Nat) (s v oa xa xm st om tp : Meta) : List Check :=
  let n := balance L v.key - escrow L st.key
  let S := supply L xm.key
  [signs s, isAt om ORCA_MINT_ID, isAt xm XORCA_MINT_ID, isAt tp SPL_TOKEN_PROGRAM_ID, writable oa] ++
  tokenReads L oa s om ++
  [(a ≤ balance L oa.key, .custom .InsufficientFunds), writable xa] ++
  tokenReads L xa s xm ++
  [writable xm, ownedBy L xm SPL_TOKEN_PROGRAM_ID, mintReads L xm, ownedBy L om SPL_TOKEN_PROGRAM_ID,
   ownedBy L st PROGRAM_ID, stateReads L st, stateAddress x.cr L st, vaultAddress x.cr L st v, writable v] ++
  tokenReads L v st om ++
  [(escrow L st.key ≤ balance L v.key, .custom .InsufficientVaultBacking),
   (S = 0 ∨ n = 0 ∨ a * (S + 100) < 2 ^ 128 ∧ mintFor a n S < 2 ^ 64, .custom .ArithmeticError),
   (mintFor a n S ≠ 0, .custom .InsufficientStakeAmount)]

/-- `solana-program/src/instructions/unstake.rs:23-138`, up to the burn. -/
def unstakeChecks (x : Ctx) (L : Ledger) (a : Nat) (i : UInt8) (u st pw xa xm om v sp tp : Meta) : List Check :=
  let n := balance L v.key - escrow L st.key
  let S := supply L xm.key
  [signs u, isAt xm XORCA_MINT_ID, isAt om ORCA_MINT_ID, isAt tp SPL_TOKEN_PROGRAM_ID, isAt sp SYSTEM_PROGRAM_ID,
   writable st, ownedBy L st PROGRAM_ID] ++
  tokenReads L v st om ++
  [writable pw, ownedBy L pw SYSTEM_PROGRAM_ID,
   (∃ k b, RecordAddr x.cr u.key i k b, .panicked),
   (∃ b, RecordAddr x.cr u.key i pw.key b, .custom .InvalidSeeds), writable xa] ++
  tokenReads L xa u xm ++
  [(a ≤ balance L xa.key, .custom .InsufficientFunds),
   ownedBy L xm SPL_TOKEN_PROGRAM_ID, writable xm, mintReads L xm,
   contents (readU32 (L xm.key).data 0 ≠ 0 ∧ readKey (L xm.key).data 4 = st.key),
   contents (readU32 (L xm.key).data 46 = 0),
   ownedBy L om SPL_TOKEN_PROGRAM_ID, mintReads L om,
   stateReads L st, stateAddress x.cr L st, vaultAddress x.cr L st v,
   (escrow L st.key ≤ balance L v.key, .custom .InsufficientVaultBacking),
   (S ≠ 0 ∧ n ≠ 0 ∧ a * (n + 100) < 2 ^ 128 ∧ redeemFor a n S < 2 ^ 64, .custom .ArithmeticError),
   (redeemFor a n S ≠ 0, .custom .InsufficientUnstakeAmount)]

/-- `solana-program/src/instructions/unstake.rs:140-189`, after the burn: the escrow and the time of maturity. -/
def unstakeLate (x : Ctx) (L : Ledger) (a : Nat) (st xm v : Meta) : List Check :=
  [(escrow L st.key + redeemFor a (balance L v.key - escrow L st.key) (supply L xm.key) < 2 ^ 64, .custom .ArithmeticError),
   (-2 ^ 63 ≤ x.now.toInt + coolDown L st.key ∧ x.now.toInt + coolDown L st.key < 2 ^ 63, .custom .CoolDownOverflow)]

/-- `solana-program/src/instructions/withdraw.rs:16-150`. -/
def withdrawChecks (x : Ctx) (L : Ledger) (i : UInt8) (u st pw oa v om sp tp : Meta) : List Check :=
  [signs u, isAt om ORCA_MINT_ID, ownedBy L om SPL_TOKEN_PROGRAM_ID, writable st, ownedBy L st PROGRAM_ID,
   stateReads L st, stateAddress x.cr L st, vaultAddress x.cr L st v,
   writable pw, ownedBy L pw PROGRAM_ID, recordReads L pw,
   (pw.key = x.cr.sha256 (recordHashed u.key i (readU8 (L pw.key).data 6)), .custom .InvalidSeeds), writable oa] ++
  tokenReads L oa u om ++ [writable v] ++ tokenReads L v st om ++
  [isAt sp SYSTEM_PROGRAM_ID, isAt tp SPL_TOKEN_PROGRAM_ID,
   (recTime L pw.key ≤ x.now.toInt, .custom .CoolDownPeriodStillActive),
   (recAmount L pw.key ≤ escrow L st.key, .custom .InsufficientEscrow)]

/-- `solana-program/src/instructions/set.rs:14-58`. -/
def setChecks (x : Ctx) (L : Ledger) (d : StateUpdateInstruction) (au st : Meta) : List Check :=
  [signs au, writable st, ownedBy L st PROGRAM_ID, stateReads L st, stateAddress x.cr L st,
   isAt au (authority L st.key),
   (∀ c, d = .UpdateCoolDownPeriod c → 0 ≤ c.toInt, .custom .InvalidCoolDownPeriod)]

/-- `solana-program/src/instructions/initialize.rs:21-155`. -/
def initializeChecks (x : Ctx) (L : Ledger) (c : Int64) (p au st v xm om sp tp ap : Meta) : List Check :=
  [signs p, (p.key = DEPLOYER_ADDRESS, .custom .UnauthorizedDeployerAccess), writable st,
   (∃ k b, StateAddr x.cr k b, .panicked), (∃ b, StateAddr x.cr st.key b, .custom .InvalidSeeds),
   ((L st.key).data = [], .custom .StateAccountAlreadyInitialized), ownedBy L st SYSTEM_PROGRAM_ID,
   ownedBy L xm SPL_TOKEN_PROGRAM_ID, mintReads L xm, isAt st (readKey (L xm.key).data 4),
   contents (supply L xm.key = 0), isAt xm XORCA_MINT_ID,
   contents (readU32 (L xm.key).data 0 = 1), contents (readU32 (L xm.key).data 46 = 0),
   contents (readKey (L xm.key).data 50 = DEFAULT_PUBKEY), contents (readU8 (L xm.key).data 44 = 6),
   ownedBy L om SPL_TOKEN_PROGRAM_ID, mintReads L om, isAt om ORCA_MINT_ID,
   contents (readU8 (L om.key).data 44 = 6),
   signs au, isAt sp SYSTEM_PROGRAM_ID, writable v, ownedBy L v SYSTEM_PROGRAM_ID,
   isAt tp SPL_TOKEN_PROGRAM_ID, isAt ap ASSOCIATED_TOKEN_PROGRAM_ID,
   (∃ k b, VaultAddr x.cr st.key k b, .panicked), (∃ b, VaultAddr x.cr st.key v.key b, .custom .InvalidSeeds),
   (0 ≤ c.toInt, .custom .InvalidCoolDownPeriod)]

/-- The checks of a call, in order. -/
def checks (x : Ctx) (L : Ledger) : Instruction → List Meta → List Check
  | .Stake a, s :: v :: oa :: xa :: xm :: st :: om :: tp :: _ => stakeChecks x L a.toNat s v oa xa xm st om tp
  | .Unstake a i, u :: st :: pw :: xa :: xm :: om :: v :: sp :: tp :: _ =>
    unstakeChecks x L a.toNat i u st pw xa xm om v sp tp
  | .Withdraw i, u :: st :: pw :: oa :: v :: om :: sp :: tp :: _ => withdrawChecks x L i u st pw oa v om sp tp
  | .Initialize c, p :: au :: st :: v :: xm :: om :: sp :: tp :: ap :: _ =>
    initializeChecks x L c p au st v xm om sp tp ap
  | .Set d, au :: st :: _ => setChecks x L d au st
  | _, _ => [(False, .custom .NotEnoughAccountKeys)]

/-- The checks that a call makes after its first call of another program. -/
def lateChecks (x : Ctx) (L : Ledger) : Instruction → List Meta → List Check
  | .Unstake a _, _ :: st :: _ :: _ :: xm :: _ :: v :: _ => unstakeLate x L a.toNat st xm v
  | _, _ => []

end Xorca.Spec
