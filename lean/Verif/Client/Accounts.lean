import Verif.Client.Fetch
/-
The generated account modules of the clients: encoders, decoders and fetchers; and what a node answers when it is asked
for many accounts at once.
-/
namespace Xorca.Client

/-! ### JS encoders

Numbers are integers here (`number | bigint`); `none` is a thrown range error. -/

/-- `getU8Encoder()` of `@solana/kit`: a value outside of the range throws. -/
def jsU8 (v : Int) : Option Bytes := if 0 ≤ v ∧ v ≤ 255 then some [UInt8.ofNat v.toNat] else none
/-- `getU64Encoder()`. -/
def jsU64 (v : Int) : Option Bytes := if 0 ≤ v ∧ v < 2 ^ 64 then some (u64le (UInt64.ofNat v.toNat)) else none
/-- `getI64Encoder()`. -/
def jsI64 (v : Int) : Option Bytes := if -2 ^ 63 ≤ v ∧ v < 2 ^ 63 then some (i64le (Int64.ofInt v)) else none
/-- `fixEncoderSize(getBytesEncoder(), n)`: longer input is cut, shorter input is filled up with zeros. -/
def jsFixBytes (n : Nat) (b : Bytes) : Bytes := b.take n ++ List.replicate (n - b.length) 0

/-- `js-client/src/generated/accounts/state.ts:66-74`. -/
structure StateArgs where
  padding1 : Option Bytes
  bump : Int
  vaultBump : Int
  escrowedOrcaAmount : Int
  coolDownPeriodS : Int
  updateAuthority : Pubkey
  padding2 : Option Bytes

/-- `js-client/src/generated/accounts/state.ts:getStateEncoder`: the discriminator is always `State`, missing padding is
zero. -/
def jsEncodeState (a : StateArgs) : Option Bytes := do
  let bump ← jsU8 a.bump
  let vaultBump ← jsU8 a.vaultBump
  let escrowedOrcaAmount ← jsU64 a.escrowedOrcaAmount
  let coolDownPeriodS ← jsI64 a.coolDownPeriodS
  some ([AccountDiscriminator.State.toU8] ++ jsFixBytes 5 (a.padding1.getD (List.replicate 5 0)) ++ bump ++ vaultBump ++
    escrowedOrcaAmount ++ coolDownPeriodS ++ a.updateAuthority.bytes ++
    jsFixBytes 1992 (a.padding2.getD (List.replicate 1992 0)))

/-- `js-client/src/generated/accounts/pendingWithdraw.ts:PendingWithdrawArgs`. -/
structure PendingWithdrawArgs where
  padding1 : Option Bytes
  bump : Int
  withdrawIndex : Int
  unstaker : Pubkey
  withdrawableOrcaAmount : Int
  withdrawableTimestamp : Int
  padding2 : Option Bytes

/-- `js-client/src/generated/accounts/pendingWithdraw.ts:getPendingWithdrawEncoder`. -/
def jsEncodePendingWithdraw (a : PendingWithdrawArgs) : Option Bytes := do
  let bump ← jsU8 a.bump
  let withdrawIndex ← jsU8 a.withdrawIndex
  let withdrawableOrcaAmount ← jsU64 a.withdrawableOrcaAmount
  let withdrawableTimestamp ← jsI64 a.withdrawableTimestamp
  some ([AccountDiscriminator.PendingWithdraw.toU8] ++ jsFixBytes 5 (a.padding1.getD (List.replicate 5 0)) ++ bump ++
    withdrawIndex ++ a.unstaker.bytes ++ withdrawableOrcaAmount ++ withdrawableTimestamp ++
    jsFixBytes 968 (a.padding2.getD (List.replicate 968 0)))

/-- `State::LEN`, `getStateSize()` (`rust-client/src/generated/accounts/state.rs:34`,
`js-client/src/generated/accounts/state.ts:getStateSize`). -/
def STATE_SIZE : Nat := 2048
/-- `PendingWithdraw::LEN`, `getPendingWithdrawSize()`. -/
def PENDING_WITHDRAW_SIZE : Nat := 1024

/-! ### Nodes -/

/-- What the clients' `getMultipleAccounts` call returns.  A node refuses to look up more than `limit` keys in one call
and the clients make one call. -/
def getMultipleAccounts (limit : Nat) (L : Ledger) (keys : List Pubkey) : Option (List (Option Account)) :=
  if keys.length ≤ limit then some (keys.map (getAccount L)) else none

/-- `MAX_MULTIPLE_ACCOUNTS` of the Solana RPC API. -/
def MAX_MULTIPLE_ACCOUNTS : Nat := 100

/-- `fetch_all_state`, `fetch_all_pending_withdraw` (`rust-client/src/generated/accounts/*.rs`), with the decoder as a
parameter: all accounts must exist and decode.  The JS functions `fetchAll*` do the same. -/
def fetchAll {α : Type} (decode : Bytes → Option α) (limit : Nat) (L : Ledger) (keys : List Pubkey) : Option (List α) := do
  let accounts ← getMultipleAccounts limit L keys
  accounts.mapM fun
    | none => none
    | some a => decode a.data

/-- `fetch_all_maybe_state`, `fetch_all_maybe_pending_withdraw`: missing accounts are reported as missing. -/
def fetchAllMaybeOf {α : Type} (decode : Bytes → Option α) (limit : Nat) (L : Ledger) (keys : List Pubkey) :
    Option (List (Option α)) := do
  let accounts ← getMultipleAccounts limit L keys
  accounts.mapM fun
    | none => some none
    | some a => (decode a.data).map some

/-- `fetch_state`, `fetch_pending_withdraw`. -/
def fetchOne {α : Type} (decode : Bytes → Option α) (limit : Nat) (L : Ledger) (key : Pubkey) : Option α := do
  let l ← fetchAll decode limit L [key]
  l[0]?

/-- `rust-client/src/utils/mod.rs:77-105` against a node with a limit. -/
def nodeFetchPendingWithdraws (limit : Nat) (cr : Crypto) (L : Ledger) (staker : Pubkey) (max : Option UInt8) :
    Option (List PendingWithdraw) := do
  let addresses ← withdrawAddresses cr staker (max.getD DEFAULT_MAX_WITHDRAWALS_TO_SEARCH).toNat
  let accounts ← fetchAllMaybeOf PendingWithdraw.deserialize limit L addresses
  some (accounts.filterMap id)

/-- `js-client/src/utils/index.ts:87-115` against a node with a limit. -/
def jsNodeFetchPendingWithdraws (limit : Nat) (cr : Crypto) (L : Ledger) (staker : Pubkey) (max : Option Int) :
    Option (List PendingWithdraw) := do
  let n := max.getD 15
  if jsValidMax n then
    let addresses ← withdrawAddresses cr staker n.toNat
    let accounts ← getMultipleAccounts limit L addresses
    some (((accounts.filterMap id).map fun a => PendingWithdraw.deserialize a.data).filterMap id)
  else none

end Xorca.Client
