import Verif.History
/-
Well-formed calls: what a user has to supply for a call to be accepted.
-/
namespace Xorca.Spec

/-- Whatever bytes mean `ix`, the call succeeds. -/
def Succeeds (x : Ctx) (L : Ledger) (accs : List Meta) (ix : Instruction) : Prop :=
  ∀ data, decodeIx data = some ix → ∃ L' logs, entry x PROGRAM_ID L accs data = .ok (L', logs)

/-- Whatever bytes mean `ix`, the call fails with `e`. -/
def FailsWith (x : Ctx) (L : Ledger) (accs : List Meta) (ix : Instruction) (e : Err) : Prop :=
  ∀ data, decodeIx data = some ix → entry x PROGRAM_ID L accs data = .error e

/-- A usable token account of mint `m` held by `o`: initialised, not frozen, not wrapped SOL, and not
delegated to its own owner. -/
structure TokenOk (L : Ledger) (k m o : Pubkey) : Prop where
  prog : (L k).owner = SPL_TOKEN_PROGRAM_ID
  len : (L k).data.length = 165
  state : readU8 (L k).data 108 = 1
  native : readU32 (L k).data 109 = 0
  delegate : readU32 (L k).data 72 = 0 ∨ readU32 (L k).data 72 = 1
  close : readU32 (L k).data 129 = 0 ∨ readU32 (L k).data 129 = 1
  mint : mintOf L k = m
  owner : ownerOf L k = o
  undelegated : ¬ (readU32 (L k).data 72 = 1 ∧ readKey (L k).data 76 = o)

/-- The account is not a multisig of the token program. -/
def NotMultisig (L : Ledger) (k : Pubkey) : Prop :=
  ¬ ((L k).owner = SPL_TOKEN_PROGRAM_ID ∧ (L k).data.length = 355)

/-- The accounts of a Stake, in order and with the right flags. -/
structure StakeCall (accs : List Meta) (s v oa xa xm st om tp : Meta) : Prop where
  accs_eq : ∃ rest, accs = s :: v :: oa :: xa :: xm :: st :: om :: tp :: rest
  signer : s.isSigner = true
  s_w : s.isWritable = true
  v_w : v.isWritable = true
  oa_w : oa.isWritable = true
  xa_w : xa.isWritable = true
  xm_w : xm.isWritable = true
  xm_key : xm.key = XORCA_MINT_ID
  om_key : om.key = ORCA_MINT_ID
  tp_key : tp.key = SPL_TOKEN_PROGRAM_ID

/-- The accounts of an Unstake, in order and with the right flags. -/
structure UnstakeCall (accs : List Meta) (u st pw xa xm om v sp tp : Meta) : Prop where
  accs_eq : ∃ rest, accs = u :: st :: pw :: xa :: xm :: om :: v :: sp :: tp :: rest
  signer : u.isSigner = true
  u_w : u.isWritable = true
  st_w : st.isWritable = true
  pw_w : pw.isWritable = true
  xa_w : xa.isWritable = true
  xm_w : xm.isWritable = true
  xm_key : xm.key = XORCA_MINT_ID
  om_key : om.key = ORCA_MINT_ID
  sp_key : sp.key = SYSTEM_PROGRAM_ID
  tp_key : tp.key = SPL_TOKEN_PROGRAM_ID

/-- The accounts of a Withdraw, in order and with the right flags. -/
structure WithdrawCall (accs : List Meta) (u st pw oa v om sp tp : Meta) : Prop where
  accs_eq : ∃ rest, accs = u :: st :: pw :: oa :: v :: om :: sp :: tp :: rest
  signer : u.isSigner = true
  u_w : u.isWritable = true
  st_w : st.isWritable = true
  pw_w : pw.isWritable = true
  oa_w : oa.isWritable = true
  v_w : v.isWritable = true
  om_key : om.key = ORCA_MINT_ID
  sp_key : sp.key = SYSTEM_PROGRAM_ID
  tp_key : tp.key = SPL_TOKEN_PROGRAM_ID

/-- An SPL mint the program can read. -/
structure MintOk (L : Ledger) (k : Pubkey) : Prop where
  prog : (L k).owner = SPL_TOKEN_PROGRAM_ID
  len : (L k).data.length = 82
  init : readU8 (L k).data 45 = 1

/-- The accounts of a Set, in order and with the right flags. -/
structure SetCall (accs : List Meta) (au st : Meta) : Prop where
  accs_eq : ∃ rest, accs = au :: st :: rest
  signer : au.isSigner = true
  au_w : au.isWritable = true
  st_w : st.isWritable = true

/-- The accounts of an Initialize, in order and with the right flags. -/
structure InitCall (accs : List Meta) (p au st v xm om sp tp ap : Meta) : Prop where
  accs_eq : ∃ rest, accs = p :: au :: st :: v :: xm :: om :: sp :: tp :: ap :: rest
  signer : p.isSigner = true
  p_w : p.isWritable = true
  au_signer : au.isSigner = true
  au_w : au.isWritable = true
  st_w : st.isWritable = true
  v_w : v.isWritable = true
  deployer : p.key = DEPLOYER_ADDRESS
  xm_key : xm.key = XORCA_MINT_ID
  om_key : om.key = ORCA_MINT_ID
  sp_key : sp.key = SYSTEM_PROGRAM_ID
  tp_key : tp.key = SPL_TOKEN_PROGRAM_ID
  ap_key : ap.key = ASSOCIATED_TOKEN_PROGRAM_ID

/-- An account that was never created: it may hold lamports, nothing else. -/
def Blank (a : Account) : Prop := a.owner = SYSTEM_PROGRAM_ID ∧ a.data = []

/-- The xORCA mint as prepared for Initialize: no supply, six decimals, only the state address may mint. -/
structure FreshMint (L : Ledger) (st : Pubkey) : Prop where
  ok : MintOk L XORCA_MINT_ID
  flag : readU32 (L XORCA_MINT_ID).data 0 = 1
  auth : readKey (L XORCA_MINT_ID).data 4 = st
  supply : supply L XORCA_MINT_ID = 0
  decimals : readU8 (L XORCA_MINT_ID).data 44 = 6
  freeze : readU32 (L XORCA_MINT_ID).data 46 = 0
  freezeKey : readKey (L XORCA_MINT_ID).data 50 = DEFAULT_PUBKEY

/-- The ORCA mint: a usable mint with six decimals. -/
structure OrcaMint (L : Ledger) : Prop where
  ok : MintOk L ORCA_MINT_ID
  decimals : readU8 (L ORCA_MINT_ID).data 44 = 6
  flag : readU32 (L ORCA_MINT_ID).data 0 = 0 ∨ readU32 (L ORCA_MINT_ID).data 0 = 1
  freeze : readU32 (L ORCA_MINT_ID).data 46 = 0 ∨ readU32 (L ORCA_MINT_ID).data 46 = 1

/-- How many accounts an instruction needs. -/
def accountsNeeded : Instruction → Nat
  | .Stake _ => 8
  | .Unstake .. => 9
  | .Withdraw _ => 8
  | .Initialize _ => 9
  | .Set _ => 2

/-- The program's own errors, besides those common to all instructions. -/
def ownErrors : Instruction → List ErrorCode
  | .Stake _ => [.InsufficientFunds, .InsufficientVaultBacking, .ArithmeticError, .InsufficientStakeAmount]
  | .Unstake .. => [.InsufficientFunds, .InsufficientVaultBacking, .ArithmeticError,
      .InsufficientUnstakeAmount, .CoolDownOverflow]
  | .Withdraw _ => [.CoolDownPeriodStillActive, .InsufficientEscrow]
  | .Initialize _ => [.UnauthorizedDeployerAccess, .StateAccountAlreadyInitialized, .InvalidCoolDownPeriod]
  | .Set _ => [.InvalidCoolDownPeriod]

/-- Errors that every instruction can return. -/
def commonErrors : List ErrorCode :=
  [.NotEnoughAccountKeys, .InvalidAccountRole, .IncorrectAccountAddress, .IncorrectOwner, .InvalidAccountData,
    .InvalidSeeds]

end Xorca.Spec
