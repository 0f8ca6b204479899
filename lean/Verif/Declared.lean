import Verif.Exec
/-
The account tables of the instructions as published in the interface description, independent of the checks
in the code: `solana-program/src/instructions/mod.rs:17-66` (`#[account(…)]` attributes, from which the clients
are generated).
-/
namespace Xorca.Spec

/-- `solana-program/src/instructions/mod.rs:17-66`: `(writable, signer)` of each account, in order. -/
def declared : Instruction → List (Bool × Bool)
  | .Stake _ => [(true, true), (true, false), (true, false), (true, false), (true, false), (false, false),
      (false, false), (false, false)]
  | .Unstake .. => [(true, true), (true, false), (true, false), (true, false), (true, false), (false, false),
      (false, false), (false, false), (false, false)]
  | .Withdraw _ => [(true, true), (true, false), (true, false), (true, false), (true, false), (false, false),
      (false, false), (false, false)]
  | .Initialize _ => [(true, true), (true, true), (true, false), (true, false), (false, false), (false, false),
      (false, false), (false, false), (false, false)]
  | .Set _ => [(true, true), (true, false)]

/-- The accounts whose address is a constant: the two mints and the programs. -/
def fixedKeys : Instruction → List (Option Pubkey)
  | .Stake _ => [none, none, none, none, some XORCA_MINT_ID, none, some ORCA_MINT_ID, some SPL_TOKEN_PROGRAM_ID]
  | .Unstake .. => [none, none, none, none, some XORCA_MINT_ID, some ORCA_MINT_ID, none, some SYSTEM_PROGRAM_ID,
      some SPL_TOKEN_PROGRAM_ID]
  | .Withdraw _ => [none, none, none, none, none, some ORCA_MINT_ID, some SYSTEM_PROGRAM_ID,
      some SPL_TOKEN_PROGRAM_ID]
  | .Initialize _ => [some DEPLOYER_ADDRESS, none, none, none, some XORCA_MINT_ID, some ORCA_MINT_ID,
      some SYSTEM_PROGRAM_ID, some SPL_TOKEN_PROGRAM_ID, some ASSOCIATED_TOKEN_PROGRAM_ID]
  | .Set _ => [none, none]

/-- The program that must own each account before the call: nobody's data is taken for a token account, a
mint, the pool state or a withdrawal record unless the right program wrote it. -/
def owningProgram : Instruction → List (Option Pubkey)
  | .Stake _ => [none, some SPL_TOKEN_PROGRAM_ID, some SPL_TOKEN_PROGRAM_ID, some SPL_TOKEN_PROGRAM_ID,
      some SPL_TOKEN_PROGRAM_ID, some PROGRAM_ID, some SPL_TOKEN_PROGRAM_ID, none]
  | .Unstake .. => [none, some PROGRAM_ID, some SYSTEM_PROGRAM_ID, some SPL_TOKEN_PROGRAM_ID,
      some SPL_TOKEN_PROGRAM_ID, some SPL_TOKEN_PROGRAM_ID, some SPL_TOKEN_PROGRAM_ID, none, none]
  | .Withdraw _ => [none, some PROGRAM_ID, some PROGRAM_ID, some SPL_TOKEN_PROGRAM_ID, some SPL_TOKEN_PROGRAM_ID,
      some SPL_TOKEN_PROGRAM_ID, none, none]
  | .Initialize _ => [none, none, some SYSTEM_PROGRAM_ID, some SYSTEM_PROGRAM_ID, some SPL_TOKEN_PROGRAM_ID,
      some SPL_TOKEN_PROGRAM_ID, none, none, none]
  | .Set _ => [none, some PROGRAM_ID]

end Xorca.Spec
