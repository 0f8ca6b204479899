import Verif.Calls
/-
Many users leave the pool one after another: who they are, what they send, and what they must have.
-/
namespace Xorca.Spec

/-- A user who wants to leave: wallet, xORCA account, ORCA account, the index of the request with its address, and how
much xORCA to unstake. -/
structure Leaver where
  user : Pubkey
  xorca : Pubkey
  orca : Pubkey
  record : Pubkey
  index : UInt8
  bump : UInt8
  amount : UInt64

/-- The account list of this user's Unstake, as the clients build it. -/
def Leaver.unstakeAccs (g : Leaver) (st v : Pubkey) : List Meta :=
  [⟨g.user, true, true⟩, ⟨st, false, true⟩, ⟨g.record, false, true⟩, ⟨g.xorca, false, true⟩, ⟨XORCA_MINT_ID, false, true⟩,
    ⟨ORCA_MINT_ID, false, false⟩, ⟨v, false, false⟩, ⟨SYSTEM_PROGRAM_ID, false, false⟩,
    ⟨SPL_TOKEN_PROGRAM_ID, false, false⟩]

/-- The account list of this user's Withdraw. -/
def Leaver.withdrawAccs (g : Leaver) (st v : Pubkey) : List Meta :=
  [⟨g.user, true, true⟩, ⟨st, false, true⟩, ⟨g.record, false, true⟩, ⟨g.orca, false, true⟩, ⟨v, false, true⟩,
    ⟨ORCA_MINT_ID, false, false⟩, ⟨SYSTEM_PROGRAM_ID, false, false⟩, ⟨SPL_TOKEN_PROGRAM_ID, false, false⟩]

/-- The account list of this user's Stake. -/
def Leaver.stakeAccs (g : Leaver) (st v : Pubkey) : List Meta :=
  [⟨g.user, true, true⟩, ⟨v, false, true⟩, ⟨g.orca, false, true⟩, ⟨g.xorca, false, true⟩, ⟨XORCA_MINT_ID, false, true⟩,
    ⟨st, false, false⟩, ⟨ORCA_MINT_ID, false, false⟩, ⟨SPL_TOKEN_PROGRAM_ID, false, false⟩]

/-- The calls of all, in the given order. -/
def unstakes (st v : Pubkey) (gs : List Leaver) : List (List Meta × Instruction) :=
  gs.map fun g => (g.unstakeAccs st v, .Unstake g.amount g.index)
def withdraws (st v : Pubkey) (gs : List Leaver) : List (List Meta × Instruction) :=
  gs.map fun g => (g.withdrawAccs st v, .Withdraw g.index)

/-- The calls succeed one after another, with nothing between them. -/
inductive CallsRun (x : Ctx) : Ledger → List (List Meta × Instruction) → Ledger → Prop
  | nil {L} : CallsRun x L [] L
  | cons {L accs ix L1 logs calls L'} : SignersOk x.cr L accs → Runs x L accs ix L1 logs → CallsRun x L1 calls L' →
      CallsRun x L ((accs, ix) :: calls) L'

/-- A key that can sign: not an address derived from seeds of the program. -/
def Signer (cr : Crypto) (u : Pubkey) : Prop :=
  (∀ b, ¬ StateAddr cr u b) ∧ (∀ st b b', StateAddr cr st b → ¬ VaultAddr cr st u b') ∧
    ∀ o i b, ¬ RecordAddr cr o i u b

/-- A user with a wallet and usable token accounts. -/
structure Leaver.HasAccounts (cr : Crypto) (L : Ledger) (g : Leaver) : Prop where
  signer : Signer cr g.user
  wallet : Blank (L g.user)
  addr : RecordAddr cr g.user g.index g.record g.bump
  orca : TokenOk L g.orca ORCA_MINT_ID g.user

/-- Before the Unstake: the index is free, the wallet can pay the deposit, and the xORCA is there. -/
structure Leaver.CanUnstake (cr : Crypto) (rent : Nat) (L : Ledger) (g : Leaver) : Prop extends g.HasAccounts cr L where
  free : Blank (L g.record)
  deposit : rent ≤ (L g.user).lamports.toNat + (L g.record).lamports.toNat
  xorca : TokenOk L g.xorca XORCA_MINT_ID g.user
  pos : 0 < g.amount.toNat
  enough : g.amount.toNat ≤ balance L g.xorca

/-- Before the Withdraw: the request is open. -/
structure Leaver.CanWithdraw (cr : Crypto) (L : Ledger) (g : Leaver) : Prop extends g.HasAccounts cr L where
  isRecord : IsRecord L g.record
  owner : recOwner L g.record = g.user
  index : recIndex L g.record = g.index
  fits : balance L g.orca + recAmount L g.record < 2 ^ 64

/-- An open request, matured or not. -/
structure Leaver.HasRequest (cr : Crypto) (L : Ledger) (g : Leaver) : Prop extends g.HasAccounts cr L where
  isRecord : IsRecord L g.record
  owner : recOwner L g.record = g.user
  index : recIndex L g.record = g.index

/-- Before a Stake: a wallet and usable token accounts of both mints. -/
structure Leaver.CanStake (cr : Crypto) (L : Ledger) (g : Leaver) : Prop where
  signer : Signer cr g.user
  wallet : Blank (L g.user)
  orca : TokenOk L g.orca ORCA_MINT_ID g.user
  xorca : TokenOk L g.xorca XORCA_MINT_ID g.user

/-- Different users with different request addresses. -/
def Leaver.Apart (gs : List Leaver) : Prop := gs.Pairwise fun g h => g.user ≠ h.user ∧ g.record ≠ h.record

/-- Different requests, perhaps of one user and paid to one account. -/
def Leaver.OtherRequests (gs : List Leaver) : Prop := gs.Pairwise fun g h => g.record ≠ h.record

end Xorca.Spec
