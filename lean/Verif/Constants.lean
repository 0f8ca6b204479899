import Verif.Basic
/-
Fixed keys and sizes.  The base58 constants of the source are given here as their 32 bytes.
-/
namespace Xorca

/-- `solana-program/src/lib.rs:14`: `StaKE6XNKVVhG8Qu9hDJBqCW3eRe7MDGLz17nJZetLT`. -/
def PROGRAM_ID : Pubkey := ⟨[6,161,213,231,202,153,236,11,142,237,45,175,6,185,136,146,174,5,252,203,17,42,46,175,27,111,174,120,94,118,162,60], rfl⟩
/-- `solana-program/src/lib.rs:18`: `94kZD71sbTKhqhcvY9D9Ra5BsLzKRZgznbBbQpBWmKrT` (the non-test build). -/
def DEPLOYER_ADDRESS : Pubkey := ⟨[119,211,124,106,90,30,119,69,7,92,30,3,144,6,73,241,188,255,233,214,248,243,184,147,105,45,63,242,148,73,230,236], rfl⟩
/-- `solana-program/src/cpi/token/mod.rs:7`: `orcaEKTdK7LKz57vaAYr9QeNsVEPfiu6QeMU1kektZE`. -/
def ORCA_MINT_ID : Pubkey := ⟨[12,0,208,175,235,134,20,218,127,25,171,160,45,64,241,140,105,37,133,246,80,32,223,206,211,213,229,249,169,192,196,225], rfl⟩
/-- `solana-program/src/cpi/token/mod.rs:8`: `xorcaYqbXUNz3474ubUMJAdu2xgPsew3rUCe5ughT3N`. -/
def XORCA_MINT_ID : Pubkey := ⟨[14,75,236,144,14,90,195,78,25,42,113,129,163,145,142,135,101,218,217,127,246,166,66,15,131,66,100,196,26,11,104,225], rfl⟩
/-- `pinocchio_token::ID`. -/
def SPL_TOKEN_PROGRAM_ID : Pubkey := ⟨[6,221,246,225,215,101,161,147,217,203,225,70,206,235,121,172,28,180,133,237,95,91,55,145,58,140,245,133,126,255,0,169], rfl⟩
/-- `pinocchio_associated_token_account::ID`. -/
def ASSOCIATED_TOKEN_PROGRAM_ID : Pubkey := ⟨[140,151,37,143,78,36,137,241,187,61,16,41,20,142,13,131,11,90,19,153,218,255,16,132,4,142,123,216,219,233,248,89], rfl⟩
/-- `pinocchio_system::ID`, also `Pubkey::default()`. -/
def SYSTEM_PROGRAM_ID : Pubkey := ⟨List.replicate 32 0, rfl⟩
/-- `Pubkey::default()`. -/
def DEFAULT_PUBKEY : Pubkey := ⟨List.replicate 32 0, rfl⟩
/-- The incinerator address known to the SPL token program. -/
def INCINERATOR_ID : Pubkey := ⟨[0,51,144,114,141,52,17,96,121,189,201,17,191,255,0,219,212,77,46,205,204,247,156,166,225,0,56,225,0,0,0,0], rfl⟩

/-- `solana-program/src/state/state.rs:10`. -/
def STATE_LEN : Nat := 2048
/-- `solana-program/src/state/pending_withdraw.rs:10`. -/
def PENDING_WITHDRAW_LEN : Nat := 1024

/-- `solana-program/src/state/mod.rs:13-18`. -/
inductive AccountDiscriminator
  | Uninitialized | State | PendingWithdraw | Closed
deriving DecidableEq, Repr

/-- `d as u8`. -/
def AccountDiscriminator.toU8 : AccountDiscriminator → UInt8
  | .Uninitialized => 0
  | .State => 1
  | .PendingWithdraw => 2
  | .Closed => 3

/-- ASCII of `"state"` (`pda.rs:11`). -/
def SEED_STATE : Bytes := [115, 116, 97, 116, 101]
/-- ASCII of `"pending_withdraw"` (`pda.rs:24`). -/
def SEED_PENDING_WITHDRAW : Bytes := [112, 101, 110, 100, 105, 110, 103, 95, 119, 105, 116, 104, 100, 114, 97, 119]
/-- ASCII of `"ProgramDerivedAddress"` (Solana runtime). -/
def PDA_MARKER : Bytes := [80, 114, 111, 103, 114, 97, 109, 68, 101, 114, 105, 118, 101, 100, 65, 100, 100, 114, 101, 115, 115]

end Xorca
