import Verif.Exec
/-
Histories: from a genesis ledger, any sequence of successful calls of the program and environment steps.

The environment is everything else that happens on the chain: other programs, donations, burns, freezing.
It may change every account in any way, except for what the runtime and the SPL token program forbid
(`EnvStep`).  Failed calls change nothing and are not listed.
-/
namespace Xorca.Spec

/-! ### The environment -/

/-- An SPL token account under the sole control of the pool: its token owner is the state address, and it
has no delegate and no close authority. -/
structure PoolToken (cr : Crypto) (a : Account) : Prop where
  prog : a.owner = SPL_TOKEN_PROGRAM_ID
  len : a.data.length = 165
  state : readU8 a.data 108 = 1 ∨ readU8 a.data 108 = 2
  owner : ∃ b, StateAddr cr (readKey a.data 32) b
  delegate : readU32 a.data 72 = 0
  native : readU32 a.data 109 = 0
  close : readU32 a.data 129 = 0

/-- An SPL mint whose only authority is the pool. -/
structure PoolMint (cr : Crypto) (a : Account) : Prop where
  prog : a.owner = SPL_TOKEN_PROGRAM_ID
  len : a.data.length = 82
  init : readU8 a.data 45 = 1
  flag : readU32 a.data 0 = 1
  auth : ∃ b, StateAddr cr (readKey a.data 4) b
  freeze : readU32 a.data 46 = 0

/-- The address of the xORCA mint is used for a mint only: if the token program owns it, it is blank or an
initialised mint. -/
def MintShape (a : Account) : Prop :=
  a.owner = SPL_TOKEN_PROGRAM_ID → AllZero a.data ∨ (a.data.length = 82 ∧ readU8 a.data 45 = 1)

/-- What others can do. -/
structure EnvStep (cr : Crypto) (L L' : Ledger) : Prop where
  /-- Only the owning program writes data, reassigns or debits an account (accounts without lamports may
  be purged). -/
  owned : ∀ k, (L k).owner = PROGRAM_ID → (L k).lamports ≠ 0 →
    (L' k).owner = PROGRAM_ID ∧ (L' k).data = (L k).data ∧ (L k).lamports.toNat ≤ (L' k).lamports.toNat
  /-- An account given to the program by others has only zero bytes. -/
  given : ∀ k, (L' k).owner = PROGRAM_ID →
    AllZero (L' k).data ∨ ((L k).owner = PROGRAM_ID ∧ (L' k).data = (L k).data)
  /-- Others can only deposit to, freeze and thaw a pool token account. -/
  token : ∀ k, PoolToken cr (L k) →
    (L' k).owner = SPL_TOKEN_PROGRAM_ID ∧ (L' k).data.length = 165 ∧
    (∀ j, j < 165 → ¬ (64 ≤ j ∧ j < 72) → j ≠ 108 → (L' k).data[j]? = (L k).data[j]?) ∧
    (readU8 (L' k).data 108 = 1 ∨ readU8 (L' k).data 108 = 2) ∧
    balance L k ≤ balance L' k
  /-- Others can only burn tokens of a pool mint. -/
  mint : PoolMint cr (L XORCA_MINT_ID) →
    (L' XORCA_MINT_ID).owner = SPL_TOKEN_PROGRAM_ID ∧
    SameExcept 36 8 (L XORCA_MINT_ID).data (L' XORCA_MINT_ID).data ∧
    supply L' XORCA_MINT_ID ≤ supply L XORCA_MINT_ID
  shape : MintShape (L' XORCA_MINT_ID)

/-- The chain before the program was deployed. -/
structure Genesis (L : Ledger) : Prop where
  blank : ∀ k, (L k).owner = PROGRAM_ID → AllZero (L k).data
  shape : MintShape (L XORCA_MINT_ID)

/-! ### Histories -/

/-- What happened in one step. -/
inductive Label
  | call (x : Ctx) (accs : List Meta) (ix : Instruction) (logs : List Bytes)
  | env

/-- One step with the ledgers around it. -/
structure Entry where
  pre : Ledger
  label : Label
  post : Ledger

/-- A step is possible. -/
inductive Entry.Ok (cr : Crypto) : Entry → Prop
  | call {x accs ix logs L L'} : x.cr = cr → (∀ n, x.rentMin n ≠ 0) → SignersOk cr L accs →
      Runs x L accs ix L' logs → Entry.Ok cr ⟨L, .call x accs ix logs, L'⟩
  | env {L L'} : EnvStep cr L L' → Entry.Ok cr ⟨L, .env, L'⟩

/-- A sequence of steps (newest first) leading from one ledger to another. -/
inductive Path (cr : Crypto) (L : Ledger) : List Entry → Ledger → Prop
  | nil : Path cr L [] L
  | step {h e} : Path cr L h e.pre → e.Ok cr → Path cr L (e :: h) e.post

/-- A history, newest step first, from a genesis ledger to the given ledger. -/
def Hist (cr : Crypto) (h : List Entry) (L : Ledger) : Prop := ∃ L0, Genesis L0 ∧ Path cr L0 h L

/-- A ledger that some history ends in. -/
def Reachable (cr : Crypto) (L : Ledger) : Prop := ∃ h, Hist cr h L

/-- The pool has been initialised: `st` is the state address and holds a state account. -/
def Initialised (cr : Crypto) (L : Ledger) (st : Pubkey) : Prop :=
  (∃ b, StateAddr cr st b) ∧ (L st).owner = PROGRAM_ID ∧ readU8 (L st).data 0 = 1

/-! ### Account positions -/

/-- Position of the state account in the account list of each instruction that expects one. -/
def statePos : Instruction → Option Nat
  | .Stake _ => some 5
  | .Unstake .. => some 1
  | .Withdraw _ => some 1
  | .Set _ => some 1
  | .Initialize _ => none

/-- Position of the vault in the account list of each instruction that expects one. -/
def vaultPos : Instruction → Option Nat
  | .Stake _ => some 1
  | .Unstake .. => some 6
  | .Withdraw _ => some 4
  | .Set _ => none
  | .Initialize _ => none

/-! ### Events of a history -/

/-- `e` is a successful Unstake that created the record `k`: signer, state, index, clock. -/
def Creates (e : Entry) (k u st : Pubkey) (i : UInt8) (now : Int) : Prop :=
  ∃ x accs a logs mu mst mpw, e.label = .call x accs (.Unstake a i) logs ∧
    accs[0]? = some mu ∧ mu.key = u ∧ mu.isSigner = true ∧ accs[1]? = some mst ∧ mst.key = st ∧
    accs[2]? = some mpw ∧ mpw.key = k ∧ x.now.toInt = now

/-- `e` is a successful Withdraw of the record `k`: signer, receiving token account, index, clock. -/
def Pays (e : Entry) (k u oa : Pubkey) (i : UInt8) (now : Int) : Prop :=
  ∃ x accs logs mu mpw moa, e.label = .call x accs (.Withdraw i) logs ∧
    accs[0]? = some mu ∧ mu.key = u ∧ mu.isSigner = true ∧
    accs[2]? = some mpw ∧ mpw.key = k ∧ accs[3]? = some moa ∧ moa.key = oa ∧ x.now.toInt = now

/-- A stake into a pool that has ORCA but no xORCA. -/
def OrphanStake (e : Entry) (st v : Pubkey) : Prop :=
  (∃ x accs n logs, e.label = .call x accs (.Stake n) logs) ∧
    supply e.pre XORCA_MINT_ID = 0 ∧ backing e.pre v st ≠ 0

/-! ### Hash clashes

Hashes of 32 bytes always have collisions, so "no collision" is no usable hypothesis.  The theorems name the
two byte strings instead. -/

/-- These two byte strings are different and have the same hash. -/
def Clash (cr : Crypto) (p q : Bytes) : Prop := p ≠ q ∧ cr.sha256 p = cr.sha256 q

/-- ASCII of `"ProgramDerivedAddress"`. -/
def pdaMarker : Bytes :=
  [80, 114, 111, 103, 114, 97, 109, 68, 101, 114, 105, 118, 101, 100, 65, 100, 100, 114, 101, 115, 115]
/-- What is hashed for the state address. -/
def stateHashed (b : UInt8) : Bytes := [115, 116, 97, 116, 101] ++ [b] ++ PROGRAM_ID.bytes ++ pdaMarker
/-- What is hashed for a record address. -/
def recordHashed (u : Pubkey) (i b : UInt8) : Bytes :=
  [112, 101, 110, 100, 105, 110, 103, 95, 119, 105, 116, 104, 100, 114, 97, 119] ++ u.bytes ++ [i] ++ [b] ++
    PROGRAM_ID.bytes ++ pdaMarker
/-- What is hashed for the vault address. -/
def vaultHashed (st : Pubkey) (b : UInt8) : Bytes :=
  st.bytes ++ SPL_TOKEN_PROGRAM_ID.bytes ++ ORCA_MINT_ID.bytes ++ [b] ++ ASSOCIATED_TOKEN_PROGRAM_ID.bytes ++ pdaMarker

/-! ### Flows of a history

Sums of ORCA over the steps of a history, for the pool with state `st` and vault `v`. -/

/-- Deposited by a Stake. -/
def staked (e : Entry) : Nat :=
  match e.label with
  | .call _ _ (.Stake a) _ => a.toNat
  | _ => 0

/-- Set aside by an Unstake. -/
def setAside (st v : Pubkey) (e : Entry) : Nat :=
  match e.label with
  | .call _ _ (.Unstake a _) _ => redeemFor a.toNat (backing e.pre v st) (supply e.pre XORCA_MINT_ID)
  | _ => 0

/-- Paid by a Withdraw: the amount of the record given as third account. -/
def paid (e : Entry) : Nat :=
  match e.label with
  | .call _ accs (.Withdraw _) _ => (accs[2]?.map fun m => recAmount e.pre m.key).getD 0
  | _ => 0

/-- Sent to the vault by others once the pool exists. -/
def donated (st v : Pubkey) (e : Entry) : Nat :=
  match e.label with
  | .call .. => 0
  | .env => if (e.pre st).owner = PROGRAM_ID ∧ readU8 (e.pre st).data 0 = 1
      then balance e.post v - balance e.pre v else 0

end Xorca.Spec
