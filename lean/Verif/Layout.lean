import Verif.Constants
/-
Byte layouts: Borsh readers, SPL token account and mint structs, the program's own accounts.
-/
namespace Xorca

/-! ### Borsh readers: consume a prefix, return the rest -/

/-- Borsh `[u8; n]`. -/
def getBytes (n : Nat) (d : Bytes) : Option (Bytes × Bytes) :=
  if n ≤ d.length then some (d.take n, d.drop n) else none
/-- Borsh `u8`. -/
def getU8 : Bytes → Option (UInt8 × Bytes)
  | [] => none
  | b :: d => some (b, d)
/-- Borsh `bool` (borsh 0.10: only 0 and 1 are accepted). -/
def getBool : Bytes → Option (Bool × Bytes)
  | [] => none
  | b :: d => if b = 0 then some (false, d) else if b = 1 then some (true, d) else none
/-- Borsh `u32`. -/
def getU32 (d : Bytes) : Option (UInt32 × Bytes) :=
  (getBytes 4 d).map fun (b, r) => (leU32 b, r)
/-- Borsh `u64`. -/
def getU64 (d : Bytes) : Option (UInt64 × Bytes) :=
  (getBytes 8 d).map fun (b, r) => (leU64 b, r)
/-- Borsh `i64`. -/
def getI64 (d : Bytes) : Option (Int64 × Bytes) :=
  (getBytes 8 d).map fun (b, r) => (leI64 b, r)
/-- Borsh `Pubkey = [u8; 32]`. -/
def getKey (d : Bytes) : Option (Pubkey × Bytes) :=
  (getBytes 32 d).map fun (b, r) => (Pubkey.ofBytes b, r)

/-! ### SPL token structs: `solana-program/src/cpi/token/state.rs` -/

/-- `solana-program/src/cpi/token/state.rs:4-13`. -/
structure TokenMint where
  mintAuthorityFlag : UInt32
  mintAuthority : Pubkey
  supply : UInt64
  decimals : UInt8
  isInitialized : Bool
  freezeAuthorityFlag : UInt32
  freezeAuthority : Pubkey
deriving DecidableEq

/-- `solana-program/src/cpi/token/state.rs:15-28`. -/
inductive TokenAccountState
  | Uninitialized | Initialized | Frozen
deriving DecidableEq, Repr

/-- `solana-program/src/cpi/token/state.rs:30-44`. -/
structure TokenAccount where
  mint : Pubkey
  owner : Pubkey
  amount : UInt64
  delegateFlag : UInt32
  delegate : Pubkey
  state : TokenAccountState
  isNativeFlag : UInt32
  nativeAmount : UInt64
  delegateAmount : UInt64
  closeAuthorityFlag : UInt32
  closeAuthority : Pubkey
deriving DecidableEq

/-- Borsh enum tag of `TokenAccountState`. -/
def getTokenAccountState (d : Bytes) : Option (TokenAccountState × Bytes) :=
  match getU8 d with
  | none => none
  | some (b, r) =>
    if b = 0 then some (.Uninitialized, r)
    else if b = 1 then some (.Initialized, r)
    else if b = 2 then some (.Frozen, r)
    else none

/-- Derived `BorshDeserialize` for `TokenMint`; trailing bytes are ignored
(`T::deserialize(&mut &*data)` in `assertions/account.rs:189-195`). -/
def decodeTokenMint (d : Bytes) : Option TokenMint := do
  let (mintAuthorityFlag, d) ← getU32 d
  let (mintAuthority, d) ← getKey d
  let (supply, d) ← getU64 d
  let (decimals, d) ← getU8 d
  let (isInitialized, d) ← getBool d
  let (freezeAuthorityFlag, d) ← getU32 d
  let (freezeAuthority, _) ← getKey d
  some { mintAuthorityFlag, mintAuthority, supply, decimals, isInitialized, freezeAuthorityFlag,
         freezeAuthority }

/-- Derived `BorshDeserialize` for `TokenAccount`; trailing bytes are ignored. -/
def decodeTokenAccount (d : Bytes) : Option TokenAccount := do
  let (mint, d) ← getKey d
  let (owner, d) ← getKey d
  let (amount, d) ← getU64 d
  let (delegateFlag, d) ← getU32 d
  let (delegate, d) ← getKey d
  let (state, d) ← getTokenAccountState d
  let (isNativeFlag, d) ← getU32 d
  let (nativeAmount, d) ← getU64 d
  let (delegateAmount, d) ← getU64 d
  let (closeAuthorityFlag, d) ← getU32 d
  let (closeAuthority, _) ← getKey d
  some { mint, owner, amount, delegateFlag, delegate, state, isNativeFlag, nativeAmount,
         delegateAmount, closeAuthorityFlag, closeAuthority }

/-- `spl_token::state::Account::LEN`. -/
def TOKEN_ACCOUNT_LEN : Nat := 165
/-- `spl_token::state::Mint::LEN`. -/
def TOKEN_MINT_LEN : Nat := 82
/-- `spl_token::state::Multisig::LEN`. -/
def TOKEN_MULTISIG_LEN : Nat := 355

/-- Byte offset of `amount` in a token account. -/
def TA_AMOUNT : Nat := 64
/-- Byte offset of the delegate tag in a token account. -/
def TA_DELEGATE_FLAG : Nat := 72
/-- Byte offset of `delegated_amount` in a token account. -/
def TA_DELEGATE_AMOUNT : Nat := 121
/-- Byte offset of `supply` in a mint. -/
def MINT_SUPPLY : Nat := 36

/-! ### The program's own accounts

`assert_account_data` casts the account bytes to a `repr(C)` struct (`state/mod.rs:28-37`);
reading field `f` is reading its bytes at the `repr(C)` offset. -/

/-- Offsets of the fields of a `repr(C)` struct given as `(size, alignment)` list. -/
def reprCOffsets : List (Nat × Nat) → Nat → List Nat
  | [], _ => []
  | (size, align) :: fs, o =>
    let o' := (o + align - 1) / align * align
    o' :: reprCOffsets fs (o' + size)

/-- `solana-program/src/state/state.rs:12-30`: (size, alignment) of the fields in order. -/
def STATE_FIELDS : List (Nat × Nat) :=
  [(1, 1), (5, 1), (1, 1), (1, 1), (8, 8), (8, 8), (32, 1), (1992, 1)]
/-- `solana-program/src/state/pending_withdraw.rs:12-29`. -/
def PENDING_WITHDRAW_FIELDS : List (Nat × Nat) :=
  [(1, 1), (5, 1), (1, 1), (1, 1), (32, 1), (8, 8), (8, 8), (968, 1)]

/-- Offset of field number `i` of `State` in memory. -/
def stateOff (i : Nat) : Nat := (reprCOffsets STATE_FIELDS 0).getD i 0
/-- Offset of field number `i` of `PendingWithdraw` in memory. -/
def pwOff (i : Nat) : Nat := (reprCOffsets PENDING_WITHDRAW_FIELDS 0).getD i 0

/-- `state.bump` through the in-place view. -/
def stBump (d : Bytes) : UInt8 := readU8 d (stateOff 2)
/-- `state.vault_bump`. -/
def stVaultBump (d : Bytes) : UInt8 := readU8 d (stateOff 3)
/-- `state.escrowed_orca_amount`. -/
def stEscrow (d : Bytes) : UInt64 := readU64 d (stateOff 4)
/-- `state.cool_down_period_s`. -/
def stCoolDown (d : Bytes) : Int64 := readI64 d (stateOff 5)
/-- `state.update_authority`. -/
def stAuthority (d : Bytes) : Pubkey := readKey d (stateOff 6)

/-- `state.escrowed_orca_amount = v`. -/
def setStEscrow (d : Bytes) (v : UInt64) : Bytes := writeAt d (stateOff 4) (u64le v)
/-- `state.cool_down_period_s = v`. -/
def setStCoolDown (d : Bytes) (v : Int64) : Bytes := writeAt d (stateOff 5) (i64le v)
/-- `state.update_authority = k`. -/
def setStAuthority (d : Bytes) (k : Pubkey) : Bytes := writeAt d (stateOff 6) k.bytes

/-- `pending_withdraw.bump`. -/
def pwBump (d : Bytes) : UInt8 := readU8 d (pwOff 2)
/-- `pending_withdraw.withdraw_index`. -/
def pwIndex (d : Bytes) : UInt8 := readU8 d (pwOff 3)
/-- `pending_withdraw.unstaker`. -/
def pwUnstaker (d : Bytes) : Pubkey := readKey d (pwOff 4)
/-- `pending_withdraw.withdrawable_orca_amount`. -/
def pwAmount (d : Bytes) : UInt64 := readU64 d (pwOff 5)
/-- `pending_withdraw.withdrawable_timestamp`. -/
def pwTimestamp (d : Bytes) : Int64 := readI64 d (pwOff 6)

def setPwBump (d : Bytes) (v : UInt8) : Bytes := writeAt d (pwOff 2) [v]
def setPwIndex (d : Bytes) (v : UInt8) : Bytes := writeAt d (pwOff 3) [v]
def setPwUnstaker (d : Bytes) (k : Pubkey) : Bytes := writeAt d (pwOff 4) k.bytes
def setPwAmount (d : Bytes) (v : UInt64) : Bytes := writeAt d (pwOff 5) (u64le v)
def setPwTimestamp (d : Bytes) (v : Int64) : Bytes := writeAt d (pwOff 6) (i64le v)

/-- The `State` struct as a value (used by `Initialize` and by the clients). -/
structure State where
  discriminator : AccountDiscriminator
  padding1 : Bytes
  bump : UInt8
  vaultBump : UInt8
  escrowedOrcaAmount : UInt64
  coolDownPeriodS : Int64
  updateAuthority : Pubkey
  padding2 : Bytes
deriving DecidableEq

/-- `impl Default for State`, `solana-program/src/state/state.rs:32-45`. -/
def State.default : State where
  discriminator := .State
  padding1 := List.replicate 5 0
  bump := 0
  vaultBump := 0
  escrowedOrcaAmount := 0
  coolDownPeriodS := 0
  updateAuthority := DEFAULT_PUBKEY
  padding2 := List.replicate 1992 0

/-- Derived `BorshSerialize` for `State`. -/
def State.serialize (s : State) : Bytes :=
  [s.discriminator.toU8] ++ s.padding1 ++ [s.bump] ++ [s.vaultBump] ++ u64le s.escrowedOrcaAmount ++
    i64le s.coolDownPeriodS ++ s.updateAuthority.bytes ++ s.padding2

/-- The `PendingWithdraw` struct as a value. -/
structure PendingWithdraw where
  discriminator : AccountDiscriminator
  padding1 : Bytes
  bump : UInt8
  withdrawIndex : UInt8
  unstaker : Pubkey
  withdrawableOrcaAmount : UInt64
  withdrawableTimestamp : Int64
  padding2 : Bytes
deriving DecidableEq

/-- Derived `BorshSerialize` for `PendingWithdraw`. -/
def PendingWithdraw.serialize (p : PendingWithdraw) : Bytes :=
  [p.discriminator.toU8] ++ p.padding1 ++ [p.bump] ++ [p.withdrawIndex] ++ p.unstaker.bytes ++
    u64le p.withdrawableOrcaAmount ++ i64le p.withdrawableTimestamp ++ p.padding2

/-- Borsh enum tag of `AccountDiscriminator`. -/
def getDiscriminator (d : Bytes) : Option (AccountDiscriminator × Bytes) :=
  match getU8 d with
  | none => none
  | some (b, r) =>
    if b = 0 then some (.Uninitialized, r)
    else if b = 1 then some (.State, r)
    else if b = 2 then some (.PendingWithdraw, r)
    else if b = 3 then some (.Closed, r)
    else none

/-- Derived `BorshDeserialize` for `State` (clients: `rust-client/src/generated/accounts/state.rs`,
`from_bytes`). -/
def State.deserialize (d : Bytes) : Option State := do
  let (discriminator, d) ← getDiscriminator d
  let (padding1, d) ← getBytes 5 d
  let (bump, d) ← getU8 d
  let (vaultBump, d) ← getU8 d
  let (escrowedOrcaAmount, d) ← getU64 d
  let (coolDownPeriodS, d) ← getI64 d
  let (updateAuthority, d) ← getKey d
  let (padding2, _) ← getBytes 1992 d
  some { discriminator, padding1, bump, vaultBump, escrowedOrcaAmount, coolDownPeriodS,
         updateAuthority, padding2 }

/-- Derived `BorshDeserialize` for `PendingWithdraw` (clients:
`rust-client/src/generated/accounts/pending_withdraw.rs`). -/
def PendingWithdraw.deserialize (d : Bytes) : Option PendingWithdraw := do
  let (discriminator, d) ← getDiscriminator d
  let (padding1, d) ← getBytes 5 d
  let (bump, d) ← getU8 d
  let (withdrawIndex, d) ← getU8 d
  let (unstaker, d) ← getKey d
  let (withdrawableOrcaAmount, d) ← getU64 d
  let (withdrawableTimestamp, d) ← getI64 d
  let (padding2, _) ← getBytes 968 d
  some { discriminator, padding1, bump, withdrawIndex, unstaker, withdrawableOrcaAmount,
         withdrawableTimestamp, padding2 }

end Xorca
