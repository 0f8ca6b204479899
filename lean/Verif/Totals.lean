import Verif.Calls
import Mathlib.Algebra.BigOperators.Group.Finset.Basic
/-
Totals over sets of accounts, and the accounts an instruction may change.
-/
namespace Xorca.Spec

/-- Tokens of mint `m` held in account `k` (none unless `k` is a token account of that mint). -/
def tokensOf (L : Ledger) (m k : Pubkey) : Nat :=
  if (L k).owner = SPL_TOKEN_PROGRAM_ID ∧ (L k).data.length = 165 ∧ mintOf L k = m then balance L k else 0

/-- Tokens of mint `m` held in the accounts `S`. -/
def totalTokens (L : Ledger) (m : Pubkey) (S : Finset Pubkey) : Nat := ∑ k ∈ S, tokensOf L m k

/-- The books of xORCA are in order: any accounts together hold at most the supply. -/
def Accounted (L : Ledger) : Prop := ∀ S : Finset Pubkey, totalTokens L XORCA_MINT_ID S ≤ supply L XORCA_MINT_ID

/-- A step of others keeps the books in order.  (The SPL token program does: only the mint authority can create
xORCA, and that is the pool.) -/
def KeepsBooks (e : Entry) : Prop := e.label = .env → Accounted e.pre → Accounted e.post

/-- Some successful call with instruction `ix`, by anybody and with any accounts, leads from `L` to `L'`. -/
def Took (cr : Crypto) (L : Ledger) (ix : Instruction) (L' : Ledger) : Prop :=
  ∃ x accs logs, x.cr = cr ∧ (∀ n, x.rentMin n ≠ 0) ∧ SignersOk cr L accs ∧ Runs x L accs ix L' logs

/-- Lamports held in the accounts `S`. -/
def totalLamports (L : Ledger) (S : Finset Pubkey) : Nat := ∑ k ∈ S, (L k).lamports.toNat

/-- Positions of the accounts that an instruction may change. -/
def touched : Instruction → List Nat
  | .Stake _ => [1, 2, 3, 4]
  | .Unstake .. => [0, 1, 2, 3, 4]
  | .Withdraw _ => [0, 1, 2, 3, 4]
  | .Initialize _ => [0, 2, 3]
  | .Set _ => [1]

end Xorca.Spec
