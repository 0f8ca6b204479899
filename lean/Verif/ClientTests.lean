import Verif.Client.Fetch
import Verif.Client.Base58
import Verif.Real
/-
The Rust client's own tests (`rust-client/src/pda/mod.rs:31-57`, `rust-client/src/utils/mod.rs:187-267`), run on the model
with the real SHA-256 and curve test.
-/
namespace Xorca.Tests
open Xorca.Client

/-- Base58 text of the address that was found. -/
def Found (r : Option (Pubkey × UInt8)) (text : String) : Bool := match r, base58Key text with
  | some (k, _), some b => k.bytes = b
  | _, _ => false

/-- The address written as base58 (zero bytes if the text is none). -/
def key (text : String) : Pubkey := match base58Key text with
  | some b => if h : b.length = 32 then ⟨b, h⟩ else ⟨List.replicate 32 0, rfl⟩
  | none => ⟨List.replicate 32 0, rfl⟩

/-- `test_find_state_address`. -/
example : Found (findStateAddress Real.crypto) "CSqKhyW1cpdyjheAx5HXx4ibcnYrzpL5JywEMAkZixBK" = true := by decide +kernel

/-- `test_find_pending_withdraw_pda`, index 0. -/
example : Found (findPendingWithdrawPda Real.crypto (key "A1tYHa3233WKDX5fZuZNmHMUVTSB12sR1RoVeGT8XV85") 0)
    "7hA1R5rPjcj6m7G2HcxnQ82aNumKT9FKQ6ALS2yYXeq6" = true := by decide +kernel

/-- `test_find_pending_withdraw_pda`, index 1. -/
example : Found (findPendingWithdrawPda Real.crypto (key "A1tYHa3233WKDX5fZuZNmHMUVTSB12sR1RoVeGT8XV85") 1)
    "D6i7r2sBNozTvdKuSSE2HdfqPb9sTd7gNd8jsCtR8quW" = true := by decide +kernel

/-! ### `rust-client/src/utils/mod.rs` with the accounts of `rust-client/src/test_utils` -/

def staker : Pubkey := key "9GJeoK3Qn2p8Rq6i7AbQm7x1SE7K75Eo3VdFUSf1xZ4i"
def statePda : Pubkey := ((findStateAddress Real.crypto).map Prod.fst).getD staker
def vaultPda : Pubkey :=
  ((findOrcaVaultAddress Real.crypto statePda SPL_TOKEN_PROGRAM_ID ORCA_MINT_ID).map Prod.fst).getD staker
def pendingPda (i : UInt8) : Pubkey := ((findPendingWithdrawPda Real.crypto staker i).map Prod.fst).getD statePda

/-- `Fixtures::load_from_file` (`test_utils/mod.rs:63-180`) with the numbers of `fixtures/accounts.json`. -/
def fixtures : Ledger := fun k =>
  if k = statePda then ⟨1000000, PROGRAM_ID, State.serialize ⟨.State, List.replicate 5 0, 1, 1, 5000000000, 3600,
    key "3r5cY3J2E6qQ8C2Z8o5C7g9u1Yf4Wg8n2R5sH8d1K3Lm", List.replicate 1992 0⟩⟩
  else if k = vaultPda then ⟨1000000, SPL_TOKEN_PROGRAM_ID,
    ORCA_MINT_ID.bytes ++ (key "2N9G2eE2R8s9Y6Q3L7u1C5v8J4w2T6z9P1m3B7k5H8xq").bytes ++ u64le 8000000000 ++
      List.replicate 36 0 ++ [1] ++ List.replicate 56 0⟩
  else if k = XORCA_MINT_ID then ⟨1000000, SPL_TOKEN_PROGRAM_ID,
    List.replicate 36 0 ++ u64le 10000000000 ++ [6, 1] ++ List.replicate 36 0⟩
  else match [0, 2, 4].find? fun i => k = pendingPda i with
    | some i => ⟨1000000, PROGRAM_ID, PendingWithdraw.serialize ⟨.PendingWithdraw, List.replicate 5 0, 1, i, staker,
        1000 + i.toUInt64, 123456 + Int64.ofNat i.toNat, List.replicate 968 0⟩⟩
    | none => ⟨0, SYSTEM_PROGRAM_ID, []⟩

/-- `test_mint_addresses_are_valid`. -/
example : (key58 ORCA_MINT_ADDRESS).isSome ∧ (key58 XORCA_MINT_ADDRESS).isSome ∧
    (key58 TOKEN_PROGRAM_ADDRESS).isSome := by decide +kernel

/-- `test_fetch_state_and_cooldown_unit`, `test_fetch_vault_state_and_xorca_supply_unit`,
`test_staking_exchange_rate_ok_unit`. -/
example : (fetchState Real.crypto fixtures).map (fun s => (s.coolDownPeriodS, s.escrowedOrcaAmount)) =
      some (3600, 5000000000) ∧ fetchCoolDown Real.crypto fixtures = some 3600 ∧
    (fetchVaultState Real.crypto fixtures).map (fun v => (v.mint, v.amount)) = some (ORCA_MINT_ID, 8000000000) ∧
    fetchXorcaMintSupply fixtures = some 10000000000 ∧
    fetchStakingExchangeRate Real.crypto fixtures fixtures fixtures = some (3000000000, 10000000000) := by decide +kernel

/-- `test_fetch_pending_withdraws_some_missing_unit`, `test_fetch_pending_withdraws_respects_max_limit_unit`. -/
example : (fetchPendingWithdraws Real.crypto fixtures staker (some 6)).map
      (fun l => l.map fun p => (p.withdrawIndex, p.unstaker)) = some [(0, staker), (2, staker), (4, staker)] ∧
    (fetchPendingWithdraws Real.crypto fixtures staker (some 2)).map (fun l => l.map (·.withdrawIndex)) = some [0] := by
  decide +kernel

end Xorca.Tests
