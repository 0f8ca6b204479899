import Verif.Demo
import Verif.Client.Conversion
/-
The project's own program tests, run on the model.

Every example below repeats a test of `solana-program-test/src/tests/*.rs` (named in its comment): the same
pool, the same call, and the result the test asserts.  They validate the model: a definition that departs from
the program in a way these tests can see makes the build fail.

Differences from the test suite: the user is `Demo.US`, whose record addresses are tabulated for the indices
0 and 255, so other indices are replaced by these; the user's token accounts are not the associated ones (the
program does not ask for that); the deployer is the one of the non-test build.
-/
namespace Xorca.Tests
open Xorca.Spec Xorca.Demo

/-! ### `utils/fixture.rs`, `utils/types.rs`, `utils/flows.rs` -/

/-- Any other key (`Pubkey::new_unique()`). -/
def other (n : UInt8) : Pubkey := ⟨n :: List.replicate 31 9, rfl⟩

/-- `write_raw_account`: one SOL of lamports (`lib.rs:108-125`). -/
def write (L : Ledger) (k owner : Pubkey) (data : Bytes) : Ledger := L.set k ⟨1000000000, owner, data⟩

/-- `state_data!` (`utils/types.rs:12-21`). -/
def stateData (escrow : UInt64) (auth : Pubkey) (coolDown : Int64) (bump vaultBump : UInt8) : Bytes :=
  State.serialize { State.default with bump, vaultBump, escrowedOrcaAmount := escrow, coolDownPeriodS := coolDown,
                                       updateAuthority := auth }
/-- `pending_withdraw_data!`. -/
def recordData (unstaker : Pubkey) (i : UInt8) (amount : UInt64) (time : Int64) (bump : UInt8) : Bytes :=
  PendingWithdraw.serialize ⟨.PendingWithdraw, List.replicate 5 0, bump, i, unstaker, amount, time, List.replicate 968 0⟩
/-- `token_mint_data!` with chosen flags. -/
def mintData' (flag : UInt32) (auth : Pubkey) (supply : UInt64) (freezeFlag : UInt32) (freeze : Pubkey) : Bytes :=
  u32le flag ++ auth.bytes ++ u64le supply ++ [6, 1] ++ u32le freezeFlag ++ freeze.bytes

/-- `Env::new(ctx, PoolSetup { .. }, UserSetup { .. })` (`utils/fixture.rs:54-150`). -/
def env (supply vault escrow : UInt64) (coolDown : Int64) (orca xorca : UInt64) : Ledger := ledgerOf [
  (US, ⟨1000000000, SYSTEM_PROGRAM_ID, []⟩),
  (ST, ⟨1000000000, PROGRAM_ID, stateData escrow DEFAULT_PUBKEY coolDown 250 254⟩),
  (XORCA_MINT_ID, ⟨1000000000, SPL_TOKEN_PROGRAM_ID, mintData ST supply⟩),
  (ORCA_MINT_ID, ⟨1000000000, SPL_TOKEN_PROGRAM_ID, mintData DEFAULT_PUBKEY 1000000000000000⟩),
  (VA, ⟨1000000000, SPL_TOKEN_PROGRAM_ID, tokenData ORCA_MINT_ID ST vault⟩),
  (UO, ⟨1000000000, SPL_TOKEN_PROGRAM_ID, tokenData ORCA_MINT_ID US orca⟩),
  (UX, ⟨1000000000, SPL_TOKEN_PROGRAM_ID, tokenData XORCA_MINT_ID US xorca⟩)]

/-- The account list with the account at one place exchanged. -/
def instead (l : List Meta) (n : Nat) (k : Pubkey) : List Meta :=
  l.mapIdx fun i m => if i = n then { m with key := k } else m

/-- `stake_orca`. -/
def stake (L : Ledger) (a : UInt64) (accs : List Meta := stakeAccs) : Res Outcome :=
  entry (ctx 0) PROGRAM_ID L accs (0 :: u64le a)
/-- `do_unstake`. -/
def unstake (L : Ledger) (a : UInt64) (i : UInt8 := 0) (now : Int64 := 0) (accs : List Meta := unstakeAccs R0) :
    Res Outcome := entry (ctx now) PROGRAM_ID L accs (1 :: u64le a ++ [i])
/-- `do_withdraw`. -/
def withdraw (L : Ledger) (i : UInt8 := 0) (now : Int64 := 0) (accs : List Meta := withdrawAccs R0) : Res Outcome :=
  entry (ctx now) PROGRAM_ID L accs [2, i]
/-- `Initialize { .. }`. -/
def init (L : Ledger) (coolDown : Int64 := 1) (accs : List Meta := initAccs) : Res Outcome :=
  entry (ctx 0) PROGRAM_ID L accs (3 :: i64le coolDown)

/-- `assert_program_error!(res, e)`. -/
def Err' (r : Res Outcome) (e : ErrorCode) : Bool := match r with | .ok _ => false | .error x => x = .custom e
/-- `assert!(res.is_err())`. -/
def IsErr (r : Res Outcome) : Bool := !isOk r
/-- The ledger after a call; a failed call changes nothing. -/
def next (L : Ledger) (r : Res Outcome) : Ledger := match r with | .ok o => o.1 | .error _ => L

/-- `assert_stake_effects`: the call succeeds, `a` ORCA move from the user to the vault, and `m` xORCA are minted
to the user. -/
def Stakes (L : Ledger) (a m : Nat) : Bool := match stake L (UInt64.ofNat a) with
  | .error _ => false
  | .ok (L', _) => balance L' UO + a = balance L UO ∧ balance L' VA = balance L VA + a ∧
      balance L' UX = balance L UX + m ∧ supply L' XORCA_MINT_ID = supply L XORCA_MINT_ID + m ∧
      escrow L' ST = escrow L ST
/-- `assert_unstake_effects`: `x` xORCA are burned, `m` ORCA are reserved and recorded for time `t`. -/
def Unstakes (L : Ledger) (x m : Nat) (t : Int) (now : Int64 := 0) : Bool :=
  match unstake L (UInt64.ofNat x) 0 now with
  | .error _ => false
  | .ok (L', _) => balance L' UX + x = balance L UX ∧ supply L' XORCA_MINT_ID + x = supply L XORCA_MINT_ID ∧
      balance L' VA = balance L VA ∧ balance L' UO = balance L UO ∧ escrow L' ST = escrow L ST + m ∧
      (L' R0).owner = PROGRAM_ID ∧ recAmount L' R0 = m ∧ recTime L' R0 = t ∧ recOwner L' R0 = US ∧ recIndex L' R0 = 0
/-- `unstake_and_advance`, `do_withdraw`, `assert_account_closed`, `assert_withdraw_effects`: `x` xORCA are unstaked
at time 0 and `m` ORCA paid at time `t`. -/
def Pays (L : Ledger) (x m : Nat) (t : Int64) : Bool :=
  match unstake L (UInt64.ofNat x) with
  | .error _ => false
  | .ok (L1, _) => match withdraw L1 0 t with
    | .error _ => false
    | .ok (L2, _) => recAmount L1 R0 = m ∧ (L2 R0).lamports = 0 ∧ (L2 R0).data = [] ∧
        (L2 R0).owner = SYSTEM_PROGRAM_ID ∧ (L2 US).lamports = (L1 US).lamports + (L1 R0).lamports ∧
        balance L2 UO = balance L UO + m ∧ balance L2 VA + m = balance L VA ∧ escrow L2 ST = escrow L ST ∧
        supply L2 XORCA_MINT_ID + x = supply L XORCA_MINT_ID ∧ balance L2 UX + x = balance L UX

/-! ### `tests/stake.rs` -/

/-- `stake_success_on_fresh_deployment`. -/
example : Stakes (env 0 0 0 604800 1000000 0) 1000000 1000000 := by decide +kernel
/-- `stake_success_at_exchange_rate_1_to_2_success`. -/
example : Stakes (env 1000000000 2000000000 0 604800 1000000 0) 1000000 500000 := by decide +kernel
/-- `stake_success_at_exchange_rate_with_decimals`. -/
example : Stakes (env 1234356434 2323324233 0 604800 1000000 0) 1000000 531288 := by decide +kernel
/-- `stake_success_rounds_down_at_non_divisible_rate`. -/
example : Stakes (env 1000000000 3000000000 0 604800 1000001 0) 1000001 333333 := by decide +kernel
/-- `stake_success_for_low_exchange_rate`. -/
example : Stakes (env 3000000 100000000000 0 604800 1000000 0) 1000000 30 := by decide +kernel
/-- `stake_success_with_escrow_orca`: both pools. -/
example : Stakes (env 1000000000 5000000000 0 604800 2000000 0) 2000000 400000 := by decide +kernel
example : Stakes (env 1000000000 5500000000 500000000 604800 2000000 0) 2000000 400000 := by decide +kernel
/-- `stake_success_with_large_escrow_still_uses_non_escrowed_rate`: the formula of the test adds 1 instead of 100. -/
example : Stakes (env 1000000000 2000000500 1500000500 604800 1000000 0) 1000000 (1000000 * 1000000001 / 500000001) := by
  decide +kernel
/-- `stake_precision_loss_rounds_down`: the test takes its number from the program's conversion; its comment says 3,
which is the number without the offset. -/
example : Stakes (env 100 333 0 604800 10 0) 10 4 := by decide +kernel
/-- `stake_precision_loss_rounds_down_to_zero`. -/
example : Err' (stake (env 1000000 333333333 0 604800 1000 0) 10) .InsufficientStakeAmount := by decide +kernel
/-- `stake_rounding_many_small_vs_one_large`, with 20 instead of 1000 stakes. -/
def ones (L : Ledger) : Nat → Ledger
  | 0 => L
  | n + 1 => ones (next L (stake L 1)) n
def round0 : Ledger := env 5000 3000 0 604800 20 0
def round1 : Ledger := ones round0 20
def round2 : Ledger := next round0 (stake round0 20)
example : balance round1 UX < balance round2 UX ∧ balance round1 VA = 3020 ∧ balance round2 VA = 3020 ∧
    balance round1 UO = 0 ∧ balance round2 UO = 0 := by decide +kernel
/-- `stake_invalid_state_account_owner`. -/
example : Err' (stake (write (env 0 0 0 604800 1000000 0) ST SPL_TOKEN_PROGRAM_ID
    (stateData 0 DEFAULT_PUBKEY 604800 250 254)) 1000000) .IncorrectOwner := by decide +kernel
/-- `stake_overflow_attack_large_numbers`: the test accepts any result; the supply overflows in the token program. -/
example : (match stake (env 18446744073709551615 1000000 0 604800 1000000 0) 1000000 with
    | .ok _ => false | .error e => decide (e ≠ .panicked ∧ e ≠ .custom .ArithmeticError)) = true := by decide +kernel
/-- `stake_underflow_non_escrowed_error`. -/
example : Err' (stake (env 1000000000 1000000000 18446744073709551615 604800 1000000 0) 1)
    .InsufficientVaultBacking := by decide +kernel
/-- `stake_division_by_zero_non_escrowed_zero_supply_nonzero`. -/
example : Stakes (env 1000000 0 0 604800 1000000 0) 1000000 1000000 := by decide +kernel
/-- `stake_zero_amount`. -/
example : Err' (stake (env 0 0 0 604800 0 0) 0) .InsufficientStakeAmount := by decide +kernel
/-- `stake_max_u64_amount_overflow_expected`: the test accepts any result; the vault's balance overflows. -/
example : IsErr (stake (env 0 1000000000 0 604800 18446744073709551615 0) 18446744073709551615) := by decide +kernel
/-- `stake_wrong_vault_account`. -/
example : Err' (stake (write (env 0 0 0 604800 1000000 0) (other 1) SPL_TOKEN_PROGRAM_ID (tokenData ORCA_MINT_ID ST 0))
    1000000 (instead stakeAccs 1 (other 1))) .InvalidSeeds := by decide +kernel
/-- `stake_wrong_xorca_mint_address`, `stake_wrong_orca_mint_address`, `stake_malicious_token_program`. -/
example : ([4, 6, 7] : List Nat).all fun n => Err' (stake (write (env 0 0 0 604800 1000000 0) (other 1)
    SPL_TOKEN_PROGRAM_ID (mintData ST 0)) 1000000 (instead stakeAccs n (other 1))) .IncorrectAccountAddress := by
  decide +kernel
/-- `stake_insufficient_orca_tokens`. -/
example : Err' (stake (env 0 0 0 604800 1000 0) 1000000) .InsufficientFunds := by decide +kernel
/-- `stake_invalid_state_account_seeds`. -/
example : Err' (stake (write (env 0 0 0 604800 1000000 0) (other 1) PROGRAM_ID (stateData 0 DEFAULT_PUBKEY 604800 250 254))
    1000000 (instead stakeAccs 5 (other 1))) .InvalidSeeds := by decide +kernel
/-- `stake_invalid_state_account_bump`. -/
example : Err' (stake (write (env 0 0 0 604800 1000000 0) ST PROGRAM_ID (stateData 0 DEFAULT_PUBKEY 604800 254 254))
    1000000) .InvalidSeeds := by decide +kernel
/-- `stake_invalid_staker_orca_ata_owner_data`, `..._mint_data`, `..._program_owner`. -/
example : Err' (stake (write (env 0 0 0 604800 0 0) UO SPL_TOKEN_PROGRAM_ID (tokenData ORCA_MINT_ID (other 1) 1000000))
    1000000) .InvalidAccountData := by decide +kernel
example : Err' (stake (write (env 0 0 0 604800 0 0) UO SPL_TOKEN_PROGRAM_ID (tokenData XORCA_MINT_ID US 1000000))
    1000000) .InvalidAccountData := by decide +kernel
example : Err' (stake (write (env 0 0 0 604800 0 0) UO ASSOCIATED_TOKEN_PROGRAM_ID (tokenData ORCA_MINT_ID US 1000000))
    1000000) .IncorrectOwner := by decide +kernel
/-- `stake_invalid_staker_xorca_ata_owner_data`, `..._mint_data`, `..._program_owner`. -/
example : Err' (stake (write (env 0 0 0 604800 1000000 0) UX SPL_TOKEN_PROGRAM_ID (tokenData XORCA_MINT_ID (other 1) 0))
    1000000) .InvalidAccountData := by decide +kernel
example : Err' (stake (write (env 0 0 0 604800 1000000 0) UX SPL_TOKEN_PROGRAM_ID (tokenData ORCA_MINT_ID US 0))
    1000000) .InvalidAccountData := by decide +kernel
example : Err' (stake (write (env 0 0 0 604800 1000000 0) UX ASSOCIATED_TOKEN_PROGRAM_ID (tokenData XORCA_MINT_ID US 0))
    1000000) .IncorrectOwner := by decide +kernel
/-- `stake_concurrent_stakes_same_user_in_one_tx`. -/
def conc0 : Ledger := env 0 0 0 604800 2000000 0
def conc1 : Ledger := next conc0 (stake conc0 1000000)
def conc2 : Ledger := next conc1 (stake conc1 1000000)
example : balance conc2 UO = 0 ∧ balance conc2 VA = 2000000 ∧ balance conc2 UX = 2000000 ∧
    supply conc2 XORCA_MINT_ID = 2000000 ∧ escrow conc2 ST = 0 := by decide +kernel
/-- `stake_event_emission_verification`. -/
example : (match stake (env 0 0 0 604800 1000000 0) 1000000 with
    | .ok (L, logs) => decide (logs = [Event.serialize (.Stake 1000000 1000000 0 1000000 1000000)] ∧
        supply L XORCA_MINT_ID = 1000000)
    | .error _ => false) = true := by decide +kernel
/-- `stake_fails_when_amount_would_mint_zero`. -/
example : Err' (stake (env 1000000 10000000000 0 604800 1 0) 1) .InsufficientStakeAmount := by decide +kernel

/-! ### `tests/unstake.rs` -/

/-- `test_unstake_success_at_initial_rate`. -/
example : Unstakes (env 10000000000 10000000000 0 259200 0 10000000000) 10000000000 10000000000 259200 := by decide +kernel
/-- `test_unstake_succeeds_at_high_exchange_rate`: the formula of the test adds 1 instead of 100. -/
example : Unstakes (env 1000000000 5000000000 0 60 0 2000000) 1000000 (1000000 * 5000000001 / 1000000001) 160 100 := by
  decide +kernel
/-- `test_unstake_succeeds_at_low_exchange_rate`. -/
example : Unstakes (env 1000000000 100000 0 60 0 50000000) 50000000 (50000000 * 100100 / 1000000100) 60 := by decide +kernel
/-- `test_unstake_succeeds_with_existing_escrow`. -/
example : Unstakes (env 1000000000 1000000000 10000000 60 0 1000000) 1000000 990000 60 := by decide +kernel
/-- Two unstakes, at the indices 0 and 255, one after the other. -/
def twice (L : Ledger) (a b : UInt64) : Ledger :=
  let M := next L (unstake L a)
  next M (unstake M b 255 0 (unstakeAccs R255))
/-- `test_unstake_multiple_indices_success`, `test_unstake_concurrent_unstakes_same_user_in_one_tx`. -/
def multi : Ledger := twice (env 10000000 10000000 0 604800 0 3000000) 1000000 2000000
example : recAmount multi R0 = 1000000 ∧ recAmount multi R255 = 2000000 ∧ recIndex multi R0 = 0 ∧ recIndex multi R255 = 255 ∧
    balance multi UX = 0 ∧ supply multi XORCA_MINT_ID = 7000000 ∧
    escrow multi ST = recAmount multi R0 + recAmount multi R255 := by decide +kernel
/-- `test_unstake_partial_two_steps_accumulate_escrow`. -/
def parts : Ledger := twice (env 2000000000 1000000000 0 60 0 3000000) 1000000 1500000
example : 0 < recAmount parts R0 ∧ 0 < recAmount parts R255 ∧ balance parts UX = 500000 ∧
    escrow parts ST = recAmount parts R0 + recAmount parts R255 := by decide +kernel
/-- `test_unstake_partial_with_existing_escrow_low_rate`. -/
def low : Ledger := twice (env 1000000000 1000000000 5000000 60 0 2000000) 500000 500000
example : recAmount low R0 = 500000 * 995000000 / 1000000000 ∧ recAmount low R255 = 500000 * 995000000 / 1000000000 ∧
    escrow low ST = 5000000 + recAmount low R0 + recAmount low R255 := by decide +kernel
/-- `test_unstake_partial_all_but_one_then_last`. -/
def last : Ledger := twice (env 5000000 1000000000 0 60 0 10001) 10000 1
example : balance last UX = 0 ∧ 0 < recAmount last R255 ∧
    escrow last ST = recAmount last R0 + recAmount last R255 := by decide +kernel
/-- `test_unstake_insufficient_vault_backing_error`. -/
example : Err' (unstake (env 1000000 100 18446744073709551615 60 0 1000) 1) .InsufficientVaultBacking := by decide +kernel
/-- `test_unstake_escrow_overflow_error`. -/
example : Err' (unstake (env 1000000 18446744073709551615 18446744073709551615 60 0 1000) 1) .ArithmeticError := by
  decide +kernel
/-- `test_unstake_cool_down_period_overflow`. -/
example : Err' (unstake (env 1000000000 1000000000 0 9223372036854775807 0 1000000) 1000000 0 1) .CoolDownOverflow := by
  decide +kernel
/-- `test_unstake_u128_overflow_in_conversion`. -/
example : Err' (unstake (env 1000000000 18446744073709551615 0 60 0 18446744073709551615) 18446744073709551615)
    .ArithmeticError := by decide +kernel
/-- `test_unstake_invalid_state_account_owner`. -/
example : Err' (unstake (write (env 1000000 0 0 604800 0 10000000000) ST SPL_TOKEN_PROGRAM_ID
    (stateData 0 DEFAULT_PUBKEY 604800 250 254)) 10000000000) .IncorrectOwner := by decide +kernel
/-- `test_unstake_invalid_vault_account_mint_in_data`; and a wrong owner in the data. -/
example : Err' (unstake (write (env 1000000 1000000000 0 60 0 10000000000) VA SPL_TOKEN_PROGRAM_ID
    (tokenData XORCA_MINT_ID ST 1000000000)) 10000000000) .InvalidAccountData := by decide +kernel
example : Err' (unstake (write (env 1000000 1000000000 0 60 0 10000000000) VA SPL_TOKEN_PROGRAM_ID
    (tokenData ORCA_MINT_ID (other 1) 1000000000)) 10000000000) .InvalidAccountData := by decide +kernel
/-- `test_unstake_invalid_token_program_id`, `test_unstake_invalid_system_program_id`. -/
example : ([7, 8] : List Nat).all fun n => Err' (unstake (env 1000000 1000000000 0 60 0 10000000000)
    10000000000 0 0 (instead (unstakeAccs R0) n (other 1))) .IncorrectAccountAddress := by decide +kernel
/-- `test_unstake_zero_amount`. -/
example : Err' (unstake (env 1000000000 1000000000 0 60 0 1000000) 0) .InsufficientUnstakeAmount := by decide +kernel
/-- `test_unstake_insufficient_xorca_tokens`. -/
example : Err' (unstake (env 0 0 0 604800 0 1000) 1000000) .InsufficientFunds := by decide +kernel
/-- `test_unstake_wrong_vault_account_seeds`. -/
example : Err' (unstake (write (env 0 0 0 604800 0 1000000) (other 1) SPL_TOKEN_PROGRAM_ID
    (tokenData ORCA_MINT_ID ST 0)) 1000000 0 0 (instead (unstakeAccs R0) 6 (other 1))) .InvalidSeeds := by
  decide +kernel
/-- `test_unstake_invalid_xorca_mint_address`, `test_unstake_invalid_orca_mint_address`. -/
example : ([4, 5] : List Nat).all fun n => Err' (unstake
    (write (env 0 0 0 604800 0 1000000) (other 1) SPL_TOKEN_PROGRAM_ID (mintData ST 0))
    1000000 0 0 (instead (unstakeAccs R0) n (other 1))) .IncorrectAccountAddress := by decide +kernel
/-- `test_unstake_precision_loss_attack`. -/
example : Unstakes (env 1000000000 10000000000 0 60 0 1) 1 9 60 := by decide +kernel
/-- `test_unstake_rounding_many_small_vs_one_large`, with 2 instead of 100 small ones. -/
def rounds (a : UInt64) : Ledger := twice (env 1000000000 333333333 0 60 0 10000) a a
def round3 : Ledger := next (env 1000000000 333333333 0 60 0 10000) (unstake (env 1000000000 333333333 0 60 0 10000) 200)
example : recAmount (rounds 100) R0 + recAmount (rounds 100) R255 ≤ recAmount round3 R0 := by decide +kernel
/-- `test_unstake_withdraw_index_mismatch`. -/
example : Err' (unstake (env 0 0 0 604800 0 1000000) 1000000 255) .InvalidSeeds := by decide +kernel
/-- `test_unstake_duplicate_withdraw_index`, `test_unstake_withdraw_index_over_limit_behaviour`. -/
example : Err' (unstake (next (env 8000000 8000000 0 604800 0 2000000)
    (unstake (env 8000000 8000000 0 604800 0 2000000) 1000000)) 1000000) .IncorrectOwner := by decide +kernel
/-- `test_unstake_pending_withdraw_already_exists`. -/
example : Err' (unstake (write (env 0 0 0 604800 0 1000000) R0 PROGRAM_ID (recordData US 0 0 0 252)) 1000000)
    .IncorrectOwner := by decide +kernel
/-- `test_unstake_event_emission_verification`. -/
example : (match unstake (env 5000000 5000000 0 604800 0 1000000) 1000000 with
    | .ok (_, logs) => decide (logs = [Event.serialize (.Unstake 1000000 5000000 1000000 4000000 1000000 604800 0)])
    | .error _ => false) = true := by decide +kernel
/-- `test_unstake_division_by_zero_non_escrowed_zero`. -/
example : Err' (unstake (env 1000000000 0 0 60 0 1000000) 1000000) .ArithmeticError := by decide +kernel
/-- `test_unstake_at_available_amount`. -/
example : Unstakes (env 5000000 1000000 0 60 0 5000000) 5000000 (5000000 * 1000100 / 5000100) 60 := by decide +kernel
/-- `test_unstake_cool_down_period_calculation_correct`. -/
example : Unstakes (env 1000000 1000000 0 42 0 1000000) 1000000 1000000 49 7 := by decide +kernel
/-- `test_unstake_invalid_unstaker_xorca_ata_owner_in_data`, `..._mint_in_data`, `..._program_owner`. -/
example : Err' (unstake (write (env 0 0 0 604800 0 0) UX SPL_TOKEN_PROGRAM_ID
    (tokenData XORCA_MINT_ID (other 1) 1000000)) 1000000) .InvalidAccountData := by decide +kernel
example : Err' (unstake (write (env 0 0 0 604800 0 0) UX SPL_TOKEN_PROGRAM_ID
    (tokenData ORCA_MINT_ID US 1000000)) 1000000) .InvalidAccountData := by decide +kernel
example : Err' (unstake (write (env 0 0 0 604800 0 0) UX ASSOCIATED_TOKEN_PROGRAM_ID
    (tokenData XORCA_MINT_ID US 1000000)) 1000000) .IncorrectOwner := by decide +kernel
/-- `test_unstake_account_creation_failure_insufficient_lamports`; in a pool in which nothing else fails. -/
example : IsErr (unstake ((env 8000000 8000000 0 604800 0 2000000).set US ⟨0, SYSTEM_PROGRAM_ID, []⟩) 1000000) := by
  decide +kernel
/-- `test_unstake_supply_manipulation_attack`. -/
example : Err' (unstake (write (env 6000000 6000000 0 604800 0 1000000) XORCA_MINT_ID SPL_TOKEN_PROGRAM_ID
    (mintData' 1 (other 1) 6000000 0 DEFAULT_PUBKEY)) 1000000) .InvalidAccountData := by decide +kernel
/-- `test_unstake_freeze_authority_manipulation`. -/
example : Err' (unstake (write (env 7000000 7000000 0 604800 0 1000000) XORCA_MINT_ID SPL_TOKEN_PROGRAM_ID
    (mintData' 1 ST 7000000 1 (other 1))) 1000000) .InvalidAccountData := by decide +kernel
/-- `test_unstake_zero_supply_with_nonzero_vault_fails`, `test_unstake_zero_supply_with_zero_vault_fails`. -/
example : Err' (unstake (env 0 1000000 0 60 0 500000) 100000) .ArithmeticError := by decide +kernel
example : Err' (unstake (env 0 0 0 60 0 123456) 10000) .ArithmeticError := by decide +kernel
/-- `test_unstake_withdraw_index_max_value_255_success`. -/
def maxi : Res Outcome := unstake (env 1000000000 1000000000 0 60 0 10000000) 1000000 255 0 (unstakeAccs R255)
example : isOk maxi ∧ recAmount (outLedger maxi) R255 = 1000000 ∧ recIndex (outLedger maxi) R255 = 255 ∧
    balance (outLedger maxi) UX = 9000000 := by decide +kernel
/-- `test_unstake_precision_loss_rounds_down_to_zero`. -/
example : Err' (unstake (env 1000000000 999999999 0 60 0 1) 1) .InsufficientUnstakeAmount := by decide +kernel
/-- `test_unstake_invalid_bump_seed`. -/
example : Err' (unstake (write (env 1000000000 1000000000 0 60 0 1000000) R0 PROGRAM_ID (recordData US 0 0 0 0)) 1000000)
    .IncorrectOwner := by decide +kernel
/-- `test_unstake_account_too_small`. -/
example : Err' (unstake (write (env 1000000000 1000000000 0 60 0 1000000) ST PROGRAM_ID
    ((stateData 0 DEFAULT_PUBKEY 60 250 254).take 10)) 1000000) .InvalidAccountData := by decide +kernel

/-! ### `tests/withdraw.rs` -/

/-- `withdraw_transfers_funds_and_clears_escrow` (`:26`). -/
example : Pays (env 10000000000 1000000 0 1 10000000 1000000) 1000000 100 2 := by decide +kernel
/-- `withdraw_succeeds_when_escrow_already_nonzero` (`:92`). -/
example : Pays (env 10000000000 2000000 1000000 1 0 3000000) 3000000 300 2 := by decide +kernel
/-- `withdraw_succeeds_with_zero_cooldown` (`:150`). -/
example : Pays (env 5000000000 1000000 0 0 0 2000000) 2000000 400 0 := by decide +kernel
/-- `withdraw_succeeds_at_high_exchange_rate_small_withdraw`. -/
example : Pays (env 20000000000 5000000000 0 1 0 1000000) 1000000 250000 2 := by decide +kernel
/-- `withdraw_succeeds_at_low_exchange_rate_large_withdraw`. -/
example : Pays (env 1000000000 500000000000 0 1 0 50000000) 50000000 24999997505 2 := by decide +kernel
/-- `withdraw_zero_index_path`. -/
example : Pays (env 1000000000 1000000000 0 1 0 1000000) 1000000 1000000 2 := by decide +kernel
/-- `withdraw_with_zero_escrow_state_no_underflow`, `withdraw_zero_amount_pending`. -/
example : Pays (env 1000000000 10000000000 0 1 0 1) 1 9 2 := by decide +kernel
/-- `withdraw_increases_staker_orca_balance_from_nonzero`. -/
example : Pays (env 2000000000 1000000 0 1 1000000 2000000) 2000000 1000 2 := by decide +kernel
/-- `withdraw_extreme_large_values`. -/
example : Pays (env 18446744073709550615 9223372036854775807 4611686018427387903 1 0 2305843009213693951)
    10000000000 2500000000 2 := by decide +kernel
/-- `withdraw_overflow_attack_large_numbers_probe`: here it succeeds. -/
example : Pays (env 9223372036854775807 9223372036854775808 0 1 0 9223372036854775807) 9223372036854775807
    9223372036854775807 2 := by decide +kernel

/-- The ledger of most tests below: one million xORCA unstaked at time 0. -/
def opened (coolDown : Int64 := 1) (escrow : UInt64 := 0) : Ledger :=
  next (env 1000000000 1000000000 escrow coolDown 0 1000000)
    (unstake (env 1000000000 1000000000 escrow coolDown 0 1000000) 1000000)

/-- `withdraw_fails_before_cooldown`, `..._at_cooldown_boundary`, `..._one_second_before_boundary`,
`..._one_second_after_boundary`. -/
example : Err' (withdraw (opened 10) 0 1) .CoolDownPeriodStillActive := by decide +kernel
example : isOk (withdraw (opened 10) 0 10) := by decide +kernel
example : Err' (withdraw (opened 10) 0 9) .CoolDownPeriodStillActive := by decide +kernel
example : isOk (withdraw (opened 10) 0 11) := by decide +kernel
/-- `withdraw_invalid_system_program_id`, `..._orca_mint_address`, `..._token_program_id`. -/
example : ([5, 6, 7] : List Nat).all fun n => Err' (withdraw (write (opened) (other 1) SPL_TOKEN_PROGRAM_ID
    (mintData DEFAULT_PUBKEY 0)) 0 2 (instead (withdrawAccs R0) n (other 1))) .IncorrectAccountAddress := by
  decide +kernel
/-- `withdraw_wrong_vault_account_seeds`. -/
example : Err' (withdraw (write (opened) (other 1) SPL_TOKEN_PROGRAM_ID (tokenData ORCA_MINT_ID ST 0)) 0 2
    (instead (withdrawAccs R0) 4 (other 1))) .InvalidSeeds := by decide +kernel
/-- `withdraw_invalid_withdraw_index_param_mismatch`. -/
example : Err' (withdraw (opened) 255 2) .InvalidSeeds := by decide +kernel
/-- `withdraw_duplicate_withdraw_index`, `withdraw_on_closed_index_fails`. -/
example : Err' (withdraw (next (opened) (withdraw (opened) 0 2)) 0 2) .IncorrectOwner := by decide +kernel
/-- `withdraw_invalid_pending_withdraw_account_owner`, `test_withdraw_account_closure_failure`. -/
example : Err' (withdraw (write (opened) R0 SYSTEM_PROGRAM_ID ((opened) R0).data) 0 2) .IncorrectOwner := by
  decide +kernel
/-- `withdraw_invalid_pending_withdraw_account_seeds`; the stored bump is that of the index. -/
example : Err' (withdraw (write (opened) (other 1) PROGRAM_ID (recordData US 0 0 0 252)) 0 2
    (withdrawAccs (other 1))) .InvalidSeeds := by decide +kernel
/-- `withdraw_event_emission_verification`. -/
example : (match withdraw (opened) 0 2 with
    | .ok (L, logs) => decide (logs = [Event.serialize (.Withdraw 0 1000000 1 0)] ∧ escrow L ST = 0)
    | .error _ => false) = true := by decide +kernel
/-- `withdraw_invalid_vault_account_owner_in_data`, `..._mint_in_data`, `..._program_owner`. -/
example : Err' (withdraw (write (opened) VA SPL_TOKEN_PROGRAM_ID (tokenData ORCA_MINT_ID (other 1) 1000000000)) 0 2)
    .InvalidAccountData := by decide +kernel
example : Err' (withdraw (write (opened) VA SPL_TOKEN_PROGRAM_ID (tokenData XORCA_MINT_ID ST 1000000000)) 0 2)
    .InvalidAccountData := by decide +kernel
example : Err' (withdraw (write (opened) VA ASSOCIATED_TOKEN_PROGRAM_ID (tokenData ORCA_MINT_ID ST 1000000000)) 0 2)
    .IncorrectOwner := by decide +kernel
/-- `withdraw_invalid_unstaker_orca_ata_program_owner`, `..._mint_in_data`, `..._owner_in_data`. -/
example : Err' (withdraw (write (opened) UO ASSOCIATED_TOKEN_PROGRAM_ID (tokenData ORCA_MINT_ID US 0)) 0 2)
    .IncorrectOwner := by decide +kernel
example : Err' (withdraw (write (opened) UO SPL_TOKEN_PROGRAM_ID (tokenData XORCA_MINT_ID US 0)) 0 2)
    .InvalidAccountData := by decide +kernel
example : Err' (withdraw (write (opened) UO SPL_TOKEN_PROGRAM_ID (tokenData ORCA_MINT_ID (other 1) 0)) 0 2)
    .InvalidAccountData := by decide +kernel
/-- `withdraw_invalid_orca_mint_owner`. -/
example : Err' (withdraw (write (opened) ORCA_MINT_ID SYSTEM_PROGRAM_ID (mintData DEFAULT_PUBKEY 0)) 0 2)
    .IncorrectOwner := by decide +kernel
/-- `test_withdraw_insufficient_escrow_error`. -/
example : Err' (withdraw (write (opened 1 100) ST PROGRAM_ID (stateData 0 DEFAULT_PUBKEY 1 250 254)) 0 2)
    .InsufficientEscrow := by decide +kernel
/-- `test_withdraw_vault_insufficient_balance`. -/
example : IsErr (withdraw (write (opened) VA SPL_TOKEN_PROGRAM_ID (tokenData ORCA_MINT_ID ST 999999)) 0 2) := by
  decide +kernel
/-- `test_withdraw_wrong_program_id_in_state`. -/
example : Err' (withdraw (write (opened) ST SYSTEM_PROGRAM_ID ((opened) ST).data) 0 2) .IncorrectOwner := by
  decide +kernel

/-- `test_withdraw_timestamp_overflow`. -/
example : Err' (unstake (env 1000000000 1000000000 0 9223372036854775807 0 1000000) 1000000 0 1) .CoolDownOverflow := by
  decide +kernel
/-- `withdraw_verifies_complete_account_closure_procedure`; the cost of 5000 lamports in the test is the fee of the
transaction, which a call of the model does not include. -/
example : Pays (env 2000000000 2000000000 0 1 0 2000000) 2000000 2000000 2 := by decide +kernel
/-- `withdraw_verifies_account_closure_with_zero_lamports`. -/
def nothing : Ledger := (opened).set R0 { (opened) R0 with lamports := 0 }
example : isOk (withdraw nothing 0 2) ∧ (next nothing (withdraw nothing 0 2) US).lamports = (nothing US).lamports ∧
    next nothing (withdraw nothing 0 2) R0 = ⟨0, SYSTEM_PROGRAM_ID, []⟩ := by decide +kernel
/-- `withdraw_index_max_value_255_success`. -/
def maxi0 : Ledger := env 2000000000 2000000000 0 1 0 1000000
def maxi1 : Ledger := next maxi0 (unstake maxi0 1000000 255 0 (unstakeAccs R255))
def maxi2 : Ledger := next maxi1 (withdraw maxi1 255 2 (withdrawAccs R255))
example : recAmount maxi1 R255 = 1000000 ∧ maxi2 R255 = ⟨0, SYSTEM_PROGRAM_ID, []⟩ ∧ balance maxi2 UO = 1000000 ∧
    balance maxi2 VA = 1999000000 ∧ escrow maxi2 ST = 0 := by decide +kernel

/-- `withdraw_cooldown_update_mid_flight_policy_change`: the ledgers after the stake, the first unstake, the new
cool-down period and the second unstake. -/
def mid0 : Ledger := write (env 10000000 10000000 0 10 5000000 0) ST PROGRAM_ID (stateData 0 US 10 250 254)
def mid1 : Ledger := next mid0 (stake mid0 2000000)
def mid2 : Ledger := next mid1 (unstake mid1 1000000)
def mid3 : Ledger := next mid2 (entry (ctx 0) PROGRAM_ID mid2 setAccs (4 :: 0 :: i64le 100))
def mid4 : Ledger := next mid3 (unstake mid3 500000 255 0 (unstakeAccs R255))
example : recTime mid4 R0 = 10 ∧ recTime mid4 R255 = 100 ∧ recAmount mid4 R0 = 1000000 ∧
    Err' (withdraw mid4 0 9) .CoolDownPeriodStillActive ∧ isOk (withdraw mid4 0 10) ∧
    Err' (withdraw mid4 255 10 (withdrawAccs R255)) .CoolDownPeriodStillActive := by decide +kernel

/-- `withdraw_index_reuse_lifecycle`. -/
def reuse0 : Ledger := env 5000000 5000000 0 2 2000000 0
def reuse1 : Ledger := next reuse0 (stake reuse0 2000000)
def reuse2 : Ledger := next reuse1 (unstake reuse1 1000000)
def reuse3 : Ledger := next reuse2 (withdraw reuse2 0 3)
def reuse4 : Ledger := next reuse3 (unstake reuse3 500000 0 3)
example : (reuse2 R0).owner = PROGRAM_ID ∧ (reuse3 R0).owner = SYSTEM_PROGRAM_ID ∧ 0 < recAmount reuse4 R0 ∧
    recIndex reuse4 R0 = 0 ∧ recTime reuse4 R0 = 5 ∧ isOk (withdraw reuse4 0 6) := by decide +kernel

/-- `withdraw_concurrent_two_indices_in_one_tx`. -/
def two0 : Ledger := env 1000000000 1000000000 0 1 0 3000000
def two1 : Ledger := next two0 (unstake two0 1000000)
def two2 : Ledger := next two1 (unstake two1 2000000 255 0 (unstakeAccs R255))
def two3 : Ledger := next two2 (withdraw two2 0 2)
def two4 : Ledger := next two3 (withdraw two3 255 2 (withdrawAccs R255))
example : balance two4 UO = 3000000 ∧ balance two4 VA = 997000000 ∧ escrow two4 ST = 0 ∧ (two4 R0).lamports = 0 ∧
    (two4 R255).lamports = 0 ∧ supply two4 XORCA_MINT_ID = 997000000 := by decide +kernel

/-! ### `tests/set.rs` -/

/-- The state with the user as authority. -/
def settings (coolDown : Int64) : Ledger := write (env 0 0 0 0 0 0) ST PROGRAM_ID (stateData 0 US coolDown 250 254)
def set (L : Ledger) (u : Bytes) (accs : List Meta := setAccs) : Res Outcome :=
  entry (ctx 0) PROGRAM_ID L accs (4 :: u)

/-- `set_updates_cooldown`, `set_succeeds_with_correct_bump_in_state_data`, `set_cooldown_idempotent_noop_succeeds`, `set_updates_cooldown_to_max_success`,
`set_updates_cooldown_to_zero_success`. -/
example : coolDown (next (settings 10) (set (settings 10) (0 :: i64le 500))) ST = 500 := by decide +kernel
example : isOk (set (settings 777) (0 :: i64le 777)) ∧
    coolDown (next (settings 777) (set (settings 777) (0 :: i64le 777))) ST = 777 := by decide +kernel
example : coolDown (next (settings 0) (set (settings 0) (0 :: i64le 9223372036854775807))) ST =
    9223372036854775807 := by decide +kernel
example : coolDown (next (settings 1) (set (settings 1) (0 :: i64le 0))) ST = 0 := by decide +kernel
/-- `set_updates_update_authority`, `set_update_authority_idempotent_noop_succeeds`. -/
example : authority (next (settings 10) (set (settings 10) (1 :: AU.bytes))) ST = AU := by decide +kernel
example : isOk (set (settings 10) (1 :: US.bytes)) ∧
    authority (next (settings 10) (set (settings 10) (1 :: US.bytes))) ST = US := by decide +kernel
/-- `set_fails_with_wrong_update_authority_signer`, `set_fails_when_signer_didnt_sign`,
`set_fails_when_update_authority_not_signer`. -/
example : Err' (set (write (settings 10) ST PROGRAM_ID (stateData 0 (other 1) 10 250 254)) (0 :: i64le 123))
    .IncorrectAccountAddress := by decide +kernel
example : IsErr (set (settings 10) (0 :: i64le 123) (instead setAccs 0 (other 1))) := by decide +kernel
/-- `set_fails_with_wrong_state_owner`. -/
example : Err' (set (write (settings 10) ST SYSTEM_PROGRAM_ID (stateData 0 US 10 250 254)) (0 :: i64le 123))
    .IncorrectOwner := by decide +kernel
/-- `set_fails_with_invalid_state_seeds`, `set_fails_with_wrong_bump_in_state_data`. -/
example : Err' (set (write (settings 10) (other 1) PROGRAM_ID (stateData 0 US 10 250 254)) (0 :: i64le 123)
    (instead setAccs 1 (other 1))) .InvalidSeeds := by decide +kernel
example : Err' (set (write (settings 10) (other 1) PROGRAM_ID (stateData 0 US 10 0 0)) (0 :: i64le 500)
    (instead setAccs 1 (other 1))) .InvalidSeeds := by decide +kernel
/-- `set_fails_on_negative_cooldown_fails`. -/
example : Err' (set (settings 0) (0 :: i64le (-123))) .InvalidCoolDownPeriod := by decide +kernel

/-! ### `tests/initialize.rs` -/

/-- Before the initialisation. -/
def before : Ledger := L0
/-- The xORCA mint exchanged. -/
def before' (owner : Pubkey) (data : Bytes) : Ledger := write before XORCA_MINT_ID owner data

/-- `initialize_sets_values_with_standard_values_success`, `initialize_sets_different_update_authority_success`. -/
example : isOk (init before 100) ∧ coolDown (next before (init before 100)) ST = 100 ∧
    authority (next before (init before 100)) ST = US ∧ (next before (init before 100) ST).owner = PROGRAM_ID ∧
    (next before (init before 100)) XORCA_MINT_ID = before XORCA_MINT_ID := by decide +kernel
/-- `initialize_fails_with_wrong_system_program_account`. -/
example : Err' (init before 1 (instead initAccs 6 (other 1))) .IncorrectAccountAddress := by decide +kernel
/-- `initialize_fails_with_insufficient_lamports`. -/
example : IsErr (init (before.set DEPLOYER_ADDRESS ⟨1000, SYSTEM_PROGRAM_ID, []⟩)) := by decide +kernel
/-- `initialize_fails_when_xorca_mint_frozen`, `..._no_authority_flag`, `..._supply_nonzero`, `..._wrong_owner`,
`..._wrong_address`. -/
example : Err' (init (before' SPL_TOKEN_PROGRAM_ID (mintData' 1 ST 0 1 (other 1)))) .InvalidAccountData := by
  decide +kernel
example : Err' (init (before' SPL_TOKEN_PROGRAM_ID (mintData' 0 ST 0 0 DEFAULT_PUBKEY))) .InvalidAccountData := by
  decide +kernel
example : Err' (init (before' SPL_TOKEN_PROGRAM_ID (mintData' 1 ST 1 0 DEFAULT_PUBKEY))) .InvalidAccountData := by
  decide +kernel
example : Err' (init (before' SYSTEM_PROGRAM_ID (mintData' 1 ST 0 0 DEFAULT_PUBKEY))) .IncorrectOwner := by
  decide +kernel
example : Err' (init (write before (other 1) SPL_TOKEN_PROGRAM_ID (mintData ST 0)) 1 (instead initAccs 4 (other 1)))
    .IncorrectAccountAddress := by decide +kernel
/-- `initialize_fails_when_state_already_initialized`, `initialize_fails_with_wrong_state_owner`. -/
example : Err' (init (write before ST SYSTEM_PROGRAM_ID [1])) .StateAccountAlreadyInitialized := by decide +kernel
example : Err' (init (write before ST SPL_TOKEN_PROGRAM_ID [])) .IncorrectOwner := by decide +kernel
/-- `initialize_fails_when_payer_is_not_deployer`. -/
example : Err' (init (write before (other 1) SYSTEM_PROGRAM_ID []) 100 (instead (instead initAccs 0 (other 1)) 1 (other 1)))
    .UnauthorizedDeployerAccess := by decide +kernel
/-- `initialize_sets_different_update_authority_no_signer_fail`. -/
example : IsErr (init before 1 (initAccs.mapIdx fun i m => if i = 1 then { m with isSigner := false } else m)) := by
  decide +kernel

/-! ### `tests/bump_edge_cases.rs` -/

/-- `test_stake_state_account_wrong_bump_in_data`, `test_stake_with_max_bump_value`. -/
example : ([251, 255] : List UInt8).all fun b => IsErr (stake (write (env 1000000000 1000000000 0 60 1000000 0) ST
    PROGRAM_ID (stateData 0 DEFAULT_PUBKEY 60 b 254)) 1000000) := by decide +kernel
/-- `test_withdraw_pending_withdraw_wrong_bump_in_data`. -/
example : IsErr (withdraw (write (opened 60) R0 PROGRAM_ID (recordData US 0 1000000 0 253)) 0 1000) := by decide +kernel
/-- `test_stake_state_account_zero_bump_wrong_pda`. -/
example : IsErr (stake (write (env 1000000000 1000000000 0 60 1000000 0) (other 1) PROGRAM_ID
    (stateData 0 DEFAULT_PUBKEY 60 0 0)) 1000000 (instead stakeAccs 5 (other 1))) := by decide +kernel
/-- `test_withdraw_pending_withdraw_zero_bump_wrong_pda`. -/
example : IsErr (withdraw (write (env 1000000000 1000000000 0 60 0 1000000) (other 1) PROGRAM_ID
    (recordData US 0 1000000 0 0)) 0 0 (withdrawAccs (other 1))) := by decide +kernel
/-- `test_stake_vault_account_wrong_bump`. -/
example : IsErr (stake (write (env 1000000000 1000000000 0 60 1000000 0) (other 1) SPL_TOKEN_PROGRAM_ID
    (tokenData ORCA_MINT_ID ST 1000000000)) 1000000 (instead stakeAccs 1 (other 1))) := by decide +kernel
/-- `test_stake_corrupted_state_discriminator`, `test_stake_state_account_too_small`. -/
example : Err' (stake (write (env 1000000000 1000000000 0 60 1000000 0) ST PROGRAM_ID
    (255 :: (stateData 0 DEFAULT_PUBKEY 60 0 0).drop 1)) 1000000) .InvalidAccountData := by decide +kernel
example : Err' (stake (write (env 1000000000 1000000000 0 60 1000000 0) ST PROGRAM_ID
    ((stateData 0 DEFAULT_PUBKEY 60 250 254).take 10)) 1000000) .InvalidAccountData := by decide +kernel

/-! ### `tests/dos_protection.rs`, `tests/vault_inflation.rs`, `tests/yield_operations.rs` -/

/-- `test_unstake_dos_protection_various_pre_funding`. -/
example : ([0, 1, 100, 1000, 10000] : List UInt64).all fun n => isOk (unstake
    ((env 5000000 4000000 0 604800 0 5000000).set R0 ⟨n, SYSTEM_PROGRAM_ID, []⟩) 1000000) := by decide +kernel

/-- `test_vault_inflation_vulnerability`: one account plays both users, the amounts are those of the test. -/
def infl0 : Ledger := env 0 0 0 3600 10000001 0
def infl1 : Ledger := next infl0 (stake infl0 1)
def infl2 : Ledger := write infl1 VA SPL_TOKEN_PROGRAM_ID (tokenData ORCA_MINT_ID ST 1000001)
def infl3 : Ledger := next infl2 (stake infl2 19803)
def infl4 : Ledger := next infl3 (unstake infl3 1)
def infl5 : Ledger := next infl4 (withdraw infl4 0 3601)
example : supply infl1 XORCA_MINT_ID = 1 ∧ balance infl1 VA = 1 ∧ redeemFor 2 1000001 1 = 19803 ∧
    balance infl3 UX = 2 ∧ supply infl3 XORCA_MINT_ID = 2 ∧ balance infl3 VA = 1000001 + 19803 ∧
    balance infl5 UO - balance infl4 UO = 9999 := by decide +kernel

/-- `yield_fresh_deploy_stake_unstake_withdraw_flow`. -/
def yield0 : Ledger := env 0 0 0 3600 1000000 0
def yield1 : Ledger := next yield0 (stake yield0 1000000)
def yield2 : Ledger := write yield1 VA SPL_TOKEN_PROGRAM_ID (tokenData ORCA_MINT_ID ST 1250000)
example : balance yield1 VA = 1000000 ∧ balance yield1 UO = 0 ∧ balance yield1 UX = 1000000 ∧
    supply yield1 XORCA_MINT_ID = 1000000 ∧ escrow yield1 ST = 0 := by decide +kernel
example : Pays yield2 100000 124997 3601 := by decide +kernel

/-- `deposit_yield_into_vault`. -/
def deposit (L : Ledger) (vault : UInt64) : Ledger := write L VA SPL_TOKEN_PROGRAM_ID (tokenData ORCA_MINT_ID ST vault)

/-- `yield_operational_multi_user_mixed_flow`: two stakes, a deposit, two unstakes, two withdrawals. -/
def mix0 : Ledger := env 10000000 10000000 0 10 5000000 0
def mix1 : Ledger := next mix0 (stake mix0 2000000)
def mix2 : Ledger := next mix1 (stake mix1 3000000)
def mix3 : Ledger := deposit mix2 15750000
def mix4 : Ledger := next mix3 (unstake mix3 1000000)
def mix5 : Ledger := next mix4 (unstake mix4 2000000 255 2 (unstakeAccs R255))
def mix6 : Ledger := next mix5 (withdraw mix5 0 15)
def mix7 : Ledger := next mix6 (withdraw mix6 255 15 (withdrawAccs R255))
example : balance mix2 VA = 15000000 ∧ balance mix2 UO = 0 ∧ supply mix2 XORCA_MINT_ID = 15000000 ∧
    escrow mix5 ST = recAmount mix5 R0 + recAmount mix5 R255 ∧ balance mix6 UO = recAmount mix5 R0 ∧
    balance mix7 UO = recAmount mix5 R0 + recAmount mix5 R255 ∧ escrow mix7 ST = 0 := by decide +kernel

/-- `yield_operational_large_escrow_carries_through`. -/
example : Pays (deposit (env 200000000 400000000 50000000 30 5000000 10000000) 401500000) 2000000 3514999 33 := by
  decide +kernel

/-- `yield_operational_interleaved_multi_flows_varied_amounts`. -/
def inter0 : Ledger := env 20000000 30000000 10000000 20 7333333 0
def inter1 : Ledger := next inter0 (stake inter0 4000000)
def inter2 : Ledger := deposit inter1 34300000
def inter3 : Ledger := next inter2 (unstake inter2 2000000)
def inter4 : Ledger := next inter3 (stake inter3 3333333)
def inter5 : Ledger := next inter4 (unstake inter4 1000000 255 0 (unstakeAccs R255))
def inter6 : Ledger := next inter5 (withdraw inter5 0 21)
def inter7 : Ledger := next inter6 (withdraw inter6 255 42 (withdrawAccs R255))
example : balance inter1 VA = 34000000 ∧ balance inter1 UX = 4000000 ∧ balance inter3 UX = 2000000 ∧
    balance inter4 VA = 30000000 + 4000000 + 3333333 + 300000 ∧
    balance inter4 UX = balance inter3 UX +
      3333333 * supply inter3 XORCA_MINT_ID / (balance inter3 VA - escrow inter3 ST) ∧
    balance inter6 UO = balance inter5 UO + recAmount inter5 R0 ∧
    balance inter7 UO = balance inter6 UO + recAmount inter5 R255 ∧ escrow inter7 ST = 10000000 := by decide +kernel

/-- `yield_many_small_vs_one_large_full_cycle`, with 10 instead of 100 stakes. -/
def small (L : Ledger) : Nat → Ledger
  | 0 => L
  | n + 1 => small (next L (stake L 1000)) n
def cycle : Ledger := deposit (env 10000000 10000000 0 5 10000 0) 10000001
example : balance (small cycle 10) UO = 0 ∧
    balance (small cycle 10) UX ≤ balance (next cycle (stake cycle 10000)) UX ∧
    Pays (small cycle 10) 9990 9990 6 ∧ Pays (next cycle (stake cycle 10000)) 9999 9999 6 := by decide +kernel

/-- `yield_long_sequence_invariants_hold`. -/
def long0 : Ledger := env 5000000 7000000 2000000 3 5000000 0
def long1 : Ledger := next long0 (stake long0 1000000)
def long2 : Ledger := next long1 (stake long1 500000)
example : Pays long2 600000 600000 4 := by decide +kernel

/-- `yield_prefunded_vault_fresh_deploy_stake_then_withdraw`. -/
def pre0 : Ledger := env 0 100000000 0 1 1000000 0
def pre1 : Ledger := next pre0 (stake pre0 1000000)
example : balance pre1 UX = 1000000 ∧ Pays pre1 1000000 100990000 2 := by decide +kernel

/-- `yield_deposit_before_stake_affects_minting`. -/
example : Stakes (deposit (env 10000000 10000000 0 10 2000000 0) 15000000) 2000000 (2000000 * 10000100 / 15000100) := by
  decide +kernel

/-- `yield_deposit_before_unstake_increases_withdrawable`. -/
def dep0 : Ledger := env 10000000 10000000 0 2 5000000 0
def dep1 : Ledger := deposit (next dep0 (stake dep0 5000000)) 17000000
example : balance dep1 UX = 5000000 ∧ Unstakes dep1 2500000 (2500000 * 17000100 / 15000100) 2 := by decide +kernel

/-- `yield_deposit_after_unstake_does_not_change_pending`. -/
def aft0 : Ledger := env 20000000 20000000 0 3 10000000 0
def aft1 : Ledger := next aft0 (stake aft0 10000000)
def aft2 : Ledger := deposit (next aft1 (unstake aft1 5000000)) 33000000
def aft3 : Ledger := next aft2 (withdraw aft2 0 4)
example : Unstakes aft1 5000000 (5000000 * 30000000 / 30000000) 3 ∧ recAmount aft2 R0 = 5000000 ∧
    balance aft3 UO = 5000000 ∧ balance aft3 VA = 28000000 ∧ escrow aft3 ST = 0 ∧ (aft3 R0).lamports = 0 := by
  decide +kernel

/-! ### Unit tests of the conversions: `rust-client/src/conversion.rs`, `js-client/src/utils/conversion.test.ts` -/

example : Client.convertOrcaToXorca 10 0 0 = .ok 10 := by rfl
example : Client.convertOrcaToXorca 100000000000 400000000000 200000000000 = .ok 50000000012 := by rfl
example : Client.convertXorcaToOrca 50000000000 500000000000 250000000000 = .ok 99999999980 := by rfl
example : Client.convertXorcaToOrca 10 0 0 = .error .ZeroSupplyOrNonEscrowed := by rfl
example : Client.convertOrcaToXorca 18446744073709551615 18446744073709551615 18446744073709551615 =
    .error .Arithmetic := by rfl
example : Client.jsConvertOrcaToXorca 10 0 0 = some 10 := by decide +kernel
example : Client.jsConvertOrcaToXorca 100000000000 400000000000 200000000000 = some 50000000012 := by decide +kernel
example : Client.jsConvertXorcaToOrca 50000000000 500000000000 250000000000 = some 99999999980 := by decide +kernel
example : Client.jsConvertXorcaToOrca 1 0 0 = none := by decide +kernel

end Xorca.Tests
