import Verif.Real
import Verif.History
/-
A concrete chain for examples and witnesses: real program ids and mints, real derived addresses, one user.
-/
namespace Xorca.Demo
open Xorca.Spec

/-- Accounts from a list; all others do not exist. -/
def ledgerOf (l : List (Pubkey × Account)) : Ledger := fun k =>
  match l.find? (fun e => e.1 = k) with
  | some e => e.2
  | none => ⟨0, SYSTEM_PROGRAM_ID, []⟩

/-! ### Keys -/

/-- The state address `CSqKhyW1cpdyjheAx5HXx4ibcnYrzpL5JywEMAkZixBK`. -/
def ST : Pubkey := ⟨[170, 14, 183, 1, 183, 245, 252, 137, 205, 105, 35, 120, 55, 151, 40, 69, 192, 108, 142, 220, 212,
  114, 72, 52, 225, 37, 17, 233, 53, 229, 4, 154], rfl⟩
/-- The vault address. -/
def VA : Pubkey := ⟨[172, 240, 99, 66, 42, 93, 24, 178, 36, 229, 208, 59, 29, 199, 32, 141, 50, 145, 68, 42, 207, 140,
  189, 58, 123, 169, 252, 65, 27, 93, 165, 66], rfl⟩
/-- A user: the ed25519 base point. -/
def US : Pubkey := ⟨88 :: List.replicate 31 102, rfl⟩
/-- Token accounts of the user. -/
def UO : Pubkey := ⟨1 :: List.replicate 31 7, rfl⟩
def UX : Pubkey := ⟨2 :: List.replicate 31 7, rfl⟩
/-- The later update authority. -/
def AU : Pubkey := ⟨3 :: List.replicate 31 7, rfl⟩

/-- Record addresses of the user for the indices 0 and 255. -/
def R0 : Pubkey := ⟨[19, 90, 108, 144, 164, 159, 32, 160, 160, 12, 69, 188, 181, 190, 32, 141, 216, 155, 207, 128, 72,
  148, 167, 175, 124, 33, 249, 20, 80, 247, 157, 68], rfl⟩
def R255 : Pubkey := ⟨[84, 74, 67, 103, 23, 119, 154, 81, 217, 187, 191, 158, 202, 211, 180, 85, 245, 187, 22, 89, 212,
  148, 71, 97, 63, 19, 249, 206, 33, 59, 106, 39], rfl⟩

/-! ### The hash functions with a table of the values used below

`cr_eq` (in `Lemmas/Demo.lean`) shows that the table changes nothing. -/

def preimage (seeds : List Bytes) (bump : UInt8) (p : Pubkey) : Bytes :=
  seeds.flatten ++ [bump] ++ p.bytes ++ PDA_MARKER

/-- Hash input, hash, whether it is on the curve. -/
def table : List (Bytes × Pubkey × Bool) := [
  (preimage stateSeedsRaw 255 PROGRAM_ID,
    ⟨[131, 227, 240, 167, 150, 17, 146, 134, 95, 71, 222, 239, 123, 96, 104, 241, 105, 229, 161, 237,
      111, 208, 253, 154, 89, 32, 213, 96, 250, 126, 148, 101], rfl⟩, true),
  (preimage stateSeedsRaw 254 PROGRAM_ID,
    ⟨[216, 208, 170, 6, 3, 28, 221, 120, 170, 137, 24, 96, 71, 202, 37, 227, 182, 7, 88, 229, 241, 206,
      129, 114, 31, 116, 136, 152, 96, 22, 66, 84], rfl⟩, true),
  (preimage stateSeedsRaw 253 PROGRAM_ID,
    ⟨[146, 233, 244, 9, 105, 80, 69, 227, 67, 112, 105, 220, 104, 216, 210, 151, 92, 26, 70, 164, 89,
      251, 111, 185, 34, 171, 107, 225, 32, 209, 72, 163], rfl⟩, true),
  (preimage stateSeedsRaw 252 PROGRAM_ID,
    ⟨[44, 150, 230, 186, 247, 99, 234, 84, 7, 75, 156, 116, 26, 28, 225, 255, 163, 32, 110, 176, 1, 210,
      198, 145, 3, 197, 216, 50, 187, 11, 141, 143], rfl⟩, true),
  (preimage stateSeedsRaw 251 PROGRAM_ID,
    ⟨[219, 171, 17, 236, 156, 197, 48, 11, 2, 197, 28, 47, 46, 167, 103, 20, 203, 50, 198, 238, 203,
      197, 159, 101, 206, 86, 115, 76, 80, 31, 85, 69], rfl⟩, true),
  (preimage stateSeedsRaw 250 PROGRAM_ID,
    ⟨[170, 14, 183, 1, 183, 245, 252, 137, 205, 105, 35, 120, 55, 151, 40, 69, 192, 108, 142, 220, 212,
      114, 72, 52, 225, 37, 17, 233, 53, 229, 4, 154], rfl⟩, false),
  (preimage (vaultSeedsRaw ST SPL_TOKEN_PROGRAM_ID ORCA_MINT_ID) 255 ASSOCIATED_TOKEN_PROGRAM_ID,
    ⟨[142, 224, 46, 216, 42, 21, 9, 89, 60, 31, 66, 152, 12, 15, 61, 145, 69, 42, 9, 74, 130, 63, 31,
      54, 20, 142, 103, 3, 42, 45, 60, 27], rfl⟩, true),
  (preimage (vaultSeedsRaw ST SPL_TOKEN_PROGRAM_ID ORCA_MINT_ID) 254 ASSOCIATED_TOKEN_PROGRAM_ID,
    ⟨[172, 240, 99, 66, 42, 93, 24, 178, 36, 229, 208, 59, 29, 199, 32, 141, 50, 145, 68, 42, 207, 140,
      189, 58, 123, 169, 252, 65, 27, 93, 165, 66], rfl⟩, false),
  (preimage (pendingWithdrawSeedsRaw US [0]) 255 PROGRAM_ID,
    ⟨[0, 150, 55, 168, 25, 237, 111, 77, 195, 205, 244, 37, 2, 33, 50, 108, 106, 219, 186, 59, 176, 29,
      148, 49, 54, 101, 137, 35, 114, 201, 85, 226], rfl⟩, true),
  (preimage (pendingWithdrawSeedsRaw US [0]) 254 PROGRAM_ID,
    ⟨[42, 40, 91, 186, 75, 22, 192, 55, 231, 150, 57, 233, 33, 174, 16, 211, 189, 91, 16, 75, 125, 82,
      51, 80, 67, 105, 46, 163, 198, 145, 143, 61], rfl⟩, true),
  (preimage (pendingWithdrawSeedsRaw US [0]) 253 PROGRAM_ID,
    ⟨[43, 207, 91, 3, 189, 208, 216, 97, 60, 191, 131, 58, 44, 128, 213, 71, 71, 172, 89, 205, 220, 71,
      37, 234, 199, 171, 161, 184, 87, 144, 227, 26], rfl⟩, true),
  (preimage (pendingWithdrawSeedsRaw US [0]) 252 PROGRAM_ID,
    ⟨[19, 90, 108, 144, 164, 159, 32, 160, 160, 12, 69, 188, 181, 190, 32, 141, 216, 155, 207, 128, 72,
      148, 167, 175, 124, 33, 249, 20, 80, 247, 157, 68], rfl⟩, false),
  (preimage (pendingWithdrawSeedsRaw US [255]) 255 PROGRAM_ID,
    ⟨[84, 74, 67, 103, 23, 119, 154, 81, 217, 187, 191, 158, 202, 211, 180, 85, 245, 187, 22, 89, 212,
      148, 71, 97, 63, 19, 249, 206, 33, 59, 106, 39], rfl⟩, false)]

def cr : Crypto where
  sha256 m := match table.find? (fun e => e.1 = m) with
    | some e => e.2.1
    | none => Real.crypto.sha256 m
  onCurve k := match table.find? (fun e => e.2.1 = k) with
    | some e => e.2.2
    | none => Real.crypto.onCurve k

/-! ### The chain -/

/-- 82 bytes of a mint. -/
def mintData (authority : Pubkey) (supply : UInt64) : Bytes :=
  u32le 1 ++ authority.bytes ++ u64le supply ++ [6, 1] ++ List.replicate 36 0
/-- 165 bytes of a token account. -/
def tokenData (mint owner : Pubkey) (amount : UInt64) : Bytes :=
  mint.bytes ++ owner.bytes ++ u64le amount ++ List.replicate 36 0 ++ [1] ++ List.replicate 56 0

/-- Before deployment: two mints, the deployer, a user with 10 ORCA. -/
def L0 : Ledger := ledgerOf [
  (DEPLOYER_ADDRESS, ⟨1000000000, SYSTEM_PROGRAM_ID, []⟩),
  (US, ⟨1000000000, SYSTEM_PROGRAM_ID, []⟩),
  (AU, ⟨1000000000, SYSTEM_PROGRAM_ID, []⟩),
  (ORCA_MINT_ID, ⟨1461600, SPL_TOKEN_PROGRAM_ID, mintData US 100000000⟩),
  (XORCA_MINT_ID, ⟨1461600, SPL_TOKEN_PROGRAM_ID, mintData ST 0⟩),
  (UO, ⟨2039280, SPL_TOKEN_PROGRAM_ID, tokenData ORCA_MINT_ID US 10000000⟩),
  (UX, ⟨2039280, SPL_TOKEN_PROGRAM_ID, tokenData XORCA_MINT_ID US 0⟩)]

/-- Sysvars: rent of the main net. -/
def ctx (now : Int64) : Ctx := ⟨cr, now, fun n => UInt64.ofNat (min ((n + 128) * 6960) 18446744073709551615)⟩

def initAccs : List Meta := [⟨DEPLOYER_ADDRESS, true, true⟩, ⟨US, true, true⟩, ⟨ST, false, true⟩, ⟨VA, false, true⟩,
  ⟨XORCA_MINT_ID, false, false⟩, ⟨ORCA_MINT_ID, false, false⟩, ⟨SYSTEM_PROGRAM_ID, false, false⟩,
  ⟨SPL_TOKEN_PROGRAM_ID, false, false⟩, ⟨ASSOCIATED_TOKEN_PROGRAM_ID, false, false⟩]
def stakeAccs : List Meta := [⟨US, true, true⟩, ⟨VA, false, true⟩, ⟨UO, false, true⟩, ⟨UX, false, true⟩,
  ⟨XORCA_MINT_ID, false, true⟩, ⟨ST, false, false⟩, ⟨ORCA_MINT_ID, false, false⟩, ⟨SPL_TOKEN_PROGRAM_ID, false, false⟩]
def unstakeAccs (pw : Pubkey) : List Meta := [⟨US, true, true⟩, ⟨ST, false, true⟩, ⟨pw, false, true⟩, ⟨UX, false, true⟩,
  ⟨XORCA_MINT_ID, false, true⟩, ⟨ORCA_MINT_ID, false, false⟩, ⟨VA, false, false⟩, ⟨SYSTEM_PROGRAM_ID, false, false⟩,
  ⟨SPL_TOKEN_PROGRAM_ID, false, false⟩]
def withdrawAccs (pw : Pubkey) : List Meta := [⟨US, true, true⟩, ⟨ST, false, true⟩, ⟨pw, false, true⟩, ⟨UO, false, true⟩,
  ⟨VA, false, true⟩, ⟨ORCA_MINT_ID, false, false⟩, ⟨SYSTEM_PROGRAM_ID, false, false⟩,
  ⟨SPL_TOKEN_PROGRAM_ID, false, false⟩]
def setAccs : List Meta := [⟨US, true, true⟩, ⟨ST, false, true⟩]

/-- The outcome of a call that succeeds. -/
def out (r : Res Outcome) : Outcome := match r with | .ok o => o | .error _ => (L0, [])
def outLedger (r : Res Outcome) : Ledger := (out r).1
def outLogs (r : Res Outcome) : List Bytes := (out r).2
/-- The outcome of a token instruction that succeeds. -/
def outL (r : Res Ledger) : Ledger := match r with | .ok L => L | .error _ => L0

def isOk {α : Type} (r : Res α) : Bool := match r with | .ok _ => true | .error _ => false

/-! The steps: initialise, stake 1 ORCA, donate 0.5 ORCA, stake 0.3 ORCA, unstake twice, change the cool-down
period, change the authority, withdraw. -/

def r1 : Res Outcome := entry (ctx 1000) PROGRAM_ID L0 initAccs (3 :: i64le 100)
def L1 : Ledger := outLedger r1
def r2 : Res Outcome := entry (ctx 1001) PROGRAM_ID L1 stakeAccs (0 :: u64le 1000000)
def L2 : Ledger := outLedger r2
def r3 : Res Ledger := splTransfer L2 UO VA US 500000
def L3 : Ledger := outL r3
def r4 : Res Outcome := entry (ctx 1002) PROGRAM_ID L3 stakeAccs (0 :: u64le 300000)
def L4 : Ledger := outLedger r4
def r5 : Res Outcome := entry (ctx 1003) PROGRAM_ID L4 (unstakeAccs R255) (1 :: u64le 600000 ++ [255])
def L5 : Ledger := outLedger r5
def r6 : Res Outcome := entry (ctx 1004) PROGRAM_ID L5 (unstakeAccs R0) (1 :: u64le 1000 ++ [0])
def L6 : Ledger := outLedger r6
def r7 : Res Outcome := entry (ctx 1005) PROGRAM_ID L6 setAccs (4 :: 0 :: i64le 50)
def L7 : Ledger := outLedger r7
def r8 : Res Outcome := entry (ctx 1006) PROGRAM_ID L7 setAccs (4 :: 1 :: AU.bytes)
def L8 : Ledger := outLedger r8
def r9 : Res Outcome := entry (ctx 1103) PROGRAM_ID L8 (withdrawAccs R255) [2, 255]
def L9 : Ledger := outLedger r9

/-! The index is used again. -/

def r10 : Res Outcome := entry (ctx 1104) PROGRAM_ID L9 (unstakeAccs R255) (1 :: u64le 2000 ++ [255])
def L10 : Ledger := outLedger r10
def r11 : Res Outcome := entry (ctx 1154) PROGRAM_ID L10 (withdrawAccs R255) [2, 255]
def L11 : Ledger := outLedger r11

/-! A second branch: the only holder burns all xORCA, then stakes again. -/

def b4 : Res Ledger := splBurn L3 UX XORCA_MINT_ID US 1000000
def B4 : Ledger := outL b4
def b5 : Res Outcome := entry (ctx 1002) PROGRAM_ID B4 stakeAccs (0 :: u64le 1000)
def B5 : Ledger := outLedger b5

/-! A third branch, to show when arithmetic fails: a user stakes nearly 2^64 units and then holds 2^64 - 1 more. -/

/-- Bytes 64 – 71 of a token account. -/
def withAmount (L : Ledger) (k : Pubkey) (n : UInt64) : Ledger := L.set k { L k with data := writeAt (L k).data 64 (u64le n) }

def W1 : Ledger := withAmount L1 UO 18446744073709551600
def w2 : Res Outcome := entry (ctx 1001) PROGRAM_ID W1 stakeAccs (0 :: u64le 18446744073709551600)
def W2 : Ledger := outLedger w2
def W3 : Ledger := withAmount W2 UO 18446744073709551615

end Xorca.Demo
