import Verif.Client.Fetch
import Verif.Client.Instructions
/-
The command-line scripts in `ts-scripts`: they build instructions by hand, without the generated clients.

`none` is a thrown error or an exit before anything is sent.  A text argument is a list of characters.
-/
namespace Xorca.Scripts
open Client

/-! ### `ts-scripts/constants.ts` -/

/-- `ts-scripts/constants.ts:21-23`. -/
def XORCA_STAKING_PROGRAM_ID : String := "StaKE6XNKVVhG8Qu9hDJBqCW3eRe7MDGLz17nJZetLT"
/-- `ts-scripts/constants.ts:29`. -/
def ORCA_MINT_ADDRESS : String := "orcaEKTdK7LKz57vaAYr9QeNsVEPfiu6QeMU1kektZE"
/-- `ts-scripts/constants.ts:30`. -/
def XORCA_MINT_ADDRESS : String := "xorcaYqbXUNz3474ubUMJAdu2xgPsew3rUCe5ughT3N"
/-- `ts-scripts/constants.ts:36`; also `SystemProgram.programId`. -/
def SYSTEM_PROGRAM_ID : String := "11111111111111111111111111111111"
/-- `ts-scripts/constants.ts:37`. -/
def TOKEN_PROGRAM_ID : String := "TokenkegQfeZyiNwAJbNbGKPFXCWuBvf9Ss623VQ5DA"
/-- `ts-scripts/constants.ts:38-40`. -/
def ASSOCIATED_TOKEN_PROGRAM_ID : String := "ATokenGPvbdGVxr1b2hvZbsiqW5xWH25efTNsLJA8knL"
/-- `ts-scripts/constants.ts:46`. -/
def DEPLOYER_ADDRESS : String := "94kZD71sbTKhqhcvY9D9Ra5BsLzKRZgznbBbQpBWmKrT"

/-! ### Numbers of JavaScript -/

/-- The double nearest to a natural number, ties to even (below 2^1024). -/
def roundDouble (n : Nat) : Nat :=
  if n < 2 ^ 53 then n
  else
    let s := n.log2 - 52
    let q := n / 2 ^ s
    let r := n % 2 ^ s
    if r * 2 < 2 ^ s ∨ (r * 2 = 2 ^ s ∧ q % 2 = 0) then q * 2 ^ s else (q + 1) * 2 ^ s

/-- The double nearest to an integer. -/
def toNumber (i : Int) : Int := if i < 0 then -(roundDouble i.natAbs : Int) else roundDouble i.natAbs

/-- Value of decimal digits. -/
def decimal (ds : List Char) : Nat := ds.foldl (fun a c => 10 * a + (c.toNat - '0'.toNat)) 0

/-- Hexadecimal digits. -/
def isHex (c : Char) : Bool := c.isDigit || "abcdefABCDEF".toList.contains c

/-- Value of hexadecimal digits. -/
def hexadecimal (ds : List Char) : Nat :=
  ds.foldl (fun a c => 16 * a + (if c.isDigit then c.toNat - '0'.toNat else c.toLower.toNat - 'a'.toNat + 10)) 0

/-- An optional sign. -/
def splitSign : List Char → Bool × List Char
  | '-' :: r => (true, r)
  | '+' :: r => (false, r)
  | t => (false, t)

/-- `parseInt(text, 10)`, or `parseInt(text)` if `auto`; `none` is `NaN`.  Leading white space, an optional sign, and
as many digits as there are; the rest is ignored.  Without a radix, `0x` means hexadecimal. -/
def parseInt (auto : Bool) (text : List Char) : Option Int :=
  let (neg, t) := splitSign (text.dropWhile Char.isWhitespace)
  let hex := auto && (t.take 2 == ['0', 'x'] || t.take 2 == ['0', 'X'])
  let ds := if hex then (t.drop 2).takeWhile isHex else t.takeWhile Char.isDigit
  let v := if hex then hexadecimal ds else decimal ds
  if ds = [] then none else some (toNumber (if neg then -(v : Int) else v))

/-- `Buffer.from([v])`: the byte is taken modulo 256, `NaN` gives 0. -/
def bufferFrom (v : Option Int) : UInt8 := UInt8.ofNat ((v.getD 0) % 256).toNat

/-- `buf.writeUInt8(v, …)`: out of range throws, `NaN` is in no range check and writes 0. -/
def writeUInt8 : Option Int → Option Bytes
  | none => some [0]
  | some i => if i < 0 ∨ 255 < i then none else some [UInt8.ofNat i.toNat]

/-- `buf.writeBigUInt64LE(v, …)`. -/
def writeBigUInt64LE (i : Int) : Option Bytes := if i < 0 ∨ 2 ^ 64 ≤ i then none else some (u64le (UInt64.ofNat i.toNat))

/-- `buf.writeBigInt64LE(v, …)`. -/
def writeBigInt64LE (i : Int) : Option Bytes := if i < -2 ^ 63 ∨ 2 ^ 63 ≤ i then none else some (i64le (Int64.ofInt i))

/-! ### Sending instructions -/

/-- What a script sends: instruction data, account list, and whether the user's token account is created first in the
same transaction. -/
structure Sent where
  data : Bytes
  keys : List Meta
  createsAta : Bool

/-- `getAssociatedTokenAddressSync(mint, owner)` for an owner on the curve. -/
def ataOf (cr : Crypto) (mint owner : Pubkey) : Option Pubkey := do
  let token ← key58 TOKEN_PROGRAM_ID
  let p ← key58 ASSOCIATED_TOKEN_PROGRAM_ID
  (findProgramAddress cr [owner.bytes, token.bytes, mint.bytes] p).map Prod.fst

/-- `PublicKey.findProgramAddressSync([Buffer.from('state')], XORCA_STAKING_PROGRAM_ID)`. -/
def stateAccount (cr : Crypto) : Option Pubkey := do
  let p ← key58 XORCA_STAKING_PROGRAM_ID
  (findProgramAddress cr [ascii "state"] p).map Prod.fst

/-- `PublicKey.findProgramAddressSync([state, token program, ORCA mint], ASSOCIATED_TOKEN_PROGRAM_ID)`. -/
def vaultAccount (cr : Crypto) (state : Pubkey) : Option Pubkey := do
  let token ← key58 TOKEN_PROGRAM_ID
  let orca ← key58 ORCA_MINT_ADDRESS
  let p ← key58 ASSOCIATED_TOKEN_PROGRAM_ID
  (findProgramAddress cr [state.bytes, token.bytes, orca.bytes] p).map Prod.fst

/-- `PublicKey.findProgramAddressSync(['pending_withdraw', user, [index]], XORCA_STAKING_PROGRAM_ID)`. -/
def pendingWithdrawAccount (cr : Crypto) (user : Pubkey) (index : Option Int) : Option Pubkey := do
  let p ← key58 XORCA_STAKING_PROGRAM_ID
  (findProgramAddress cr [ascii "pending_withdraw", user.bytes, [bufferFrom index]] p).map Prod.fst

/-- Token amount reported by `getTokenAccountBalance`, `getParsedAccountInfo` and `getAccount`; these fail unless
the account is a token account. -/
def tokenAmount (L : Ledger) (k : Pubkey) : Option UInt64 := do
  let a ← getAccount L k
  let token ← key58 TOKEN_PROGRAM_ID
  if a.owner = token then (orNone (unpackTokenAccount a.data)).map (·.amount) else none

/-- `ts-scripts/stake.ts:34-160`; `orcaAmount` is `BigInt` of the argument. -/
def stake (cr : Crypto) (L : Ledger) (staker : Pubkey) (orcaAmount : Int) : Option Sent := do
  let orcaMint ← key58 ORCA_MINT_ADDRESS
  let xorcaMint ← key58 XORCA_MINT_ADDRESS
  let tokenProgram ← key58 TOKEN_PROGRAM_ID
  let state ← stateAccount cr
  let vault ← vaultAccount cr state
  let stakerOrcaAta ← ataOf cr orcaMint staker
  let stakerXorcaAta ← ataOf cr xorcaMint staker
  let orcaBalance ← tokenAmount L stakerOrcaAta
  if (orcaBalance.toNat : Int) < orcaAmount then none
  else do
    let needsXorcaAtaCreation := (getAccount L stakerXorcaAta).isNone
    let amount ← writeBigUInt64LE orcaAmount
    some { data := [0] ++ amount
           keys := [⟨staker, true, true⟩, ⟨vault, false, true⟩, ⟨stakerOrcaAta, false, true⟩,
             ⟨stakerXorcaAta, false, true⟩, ⟨xorcaMint, false, true⟩, ⟨state, false, false⟩,
             ⟨orcaMint, false, false⟩, ⟨tokenProgram, false, false⟩]
           createsAta := needsXorcaAtaCreation }

/-- `ts-scripts/unstake.ts:33-181`. -/
def unstake (cr : Crypto) (L : Ledger) (staker : Pubkey) (xorcaAmount : Int) (withdrawIndexStr : List Char) :
    Option Sent := do
  let withdrawIndex := parseInt false withdrawIndexStr
  let orcaMint ← key58 ORCA_MINT_ADDRESS
  let xorcaMint ← key58 XORCA_MINT_ADDRESS
  let tokenProgram ← key58 TOKEN_PROGRAM_ID
  let systemProgram ← key58 SYSTEM_PROGRAM_ID
  let state ← stateAccount cr
  let vault ← vaultAccount cr state
  let stakerOrcaAta ← ataOf cr orcaMint staker
  let stakerXorcaAta ← ataOf cr xorcaMint staker
  let stakerXorcaBalance ← tokenAmount L stakerXorcaAta
  if (stakerXorcaBalance.toNat : Int) < xorcaAmount then none
  else do
    let needsOrcaAtaCreation := (getAccount L stakerOrcaAta).isNone
    let pendingWithdraw ← pendingWithdrawAccount cr staker withdrawIndex
    let amount ← writeBigUInt64LE xorcaAmount
    let index ← writeUInt8 withdrawIndex
    some { data := [1] ++ amount ++ index
           keys := [⟨staker, true, true⟩, ⟨state, false, true⟩, ⟨pendingWithdraw, false, true⟩,
             ⟨stakerXorcaAta, false, true⟩, ⟨xorcaMint, false, true⟩, ⟨orcaMint, false, false⟩,
             ⟨vault, false, true⟩, ⟨systemProgram, false, false⟩, ⟨tokenProgram, false, false⟩]
           createsAta := needsOrcaAtaCreation }

/-- `ts-scripts/withdraw.ts:33-183`, and the seconds remaining that it prints (line 114; the difference of a double
and a small integer, of which only the sign is used before sending). -/
def withdraw (cr : Crypto) (L : Ledger) (staker : Pubkey) (withdrawIndexStr : List Char) (currentTimestamp : Int) :
    Option (Sent × Int) := do
  let withdrawIndex := parseInt false withdrawIndexStr
  let orcaMint ← key58 ORCA_MINT_ADDRESS
  let tokenProgram ← key58 TOKEN_PROGRAM_ID
  let systemProgram ← key58 SYSTEM_PROGRAM_ID
  let state ← stateAccount cr
  let pendingWithdraw ← pendingWithdrawAccount cr staker withdrawIndex
  let vault ← vaultAccount cr state
  let stakerOrcaAta ← ataOf cr orcaMint staker
  let info ← getAccount L pendingWithdraw
  if info.data.length < 56 then none
  else do
    let withdrawableTimestamp := toNumber (readI64 info.data 48).toInt
    let secondsRemaining := withdrawableTimestamp - currentTimestamp
    let needsOrcaAtaCreation := (getAccount L stakerOrcaAta).isNone
    let index ← writeUInt8 withdrawIndex
    some ({ data := [2] ++ index
            keys := [⟨staker, true, true⟩, ⟨state, false, true⟩, ⟨pendingWithdraw, false, true⟩,
              ⟨stakerOrcaAta, false, true⟩, ⟨vault, false, true⟩, ⟨orcaMint, false, false⟩,
              ⟨systemProgram, false, false⟩, ⟨tokenProgram, false, false⟩]
            createsAta := needsOrcaAtaCreation }, secondsRemaining)

/-- `ts-scripts/withdraw.ts:219-222`: an error is taken for "cool-down not over" if its message has the code `0x177b`. -/
def cooldownError (code : Nat) : Bool := code == 0x177b

/-- The two operations of `ts-scripts/set.ts`. -/
inductive SetOperation
  | updateCooldown (value : List Char)
  | updateAuthority (value : String)

/-- Instruction data of `ts-scripts/set.ts:69-109`. -/
def setData : SetOperation → Option Bytes
  | .updateCooldown value => do
    let cooldownSeconds ← parseInt true value
    if cooldownSeconds < 0 then none
    else (writeBigInt64LE cooldownSeconds).map fun b => [4, 0] ++ b
  | .updateAuthority value => (key58 value).map fun k => [4, 1] ++ k.bytes

/-- `ts-scripts/set.ts:49-119`. -/
def setScript (cr : Crypto) (L : Ledger) (payer : Pubkey) (op : SetOperation) : Option Sent := do
  let state ← stateAccount cr
  let _ ← getAccount L state
  let data ← setData op
  some { data, keys := [⟨payer, true, true⟩, ⟨state, false, true⟩], createsAta := false }

/-- `ts-scripts/initialize.ts:32-113`. -/
def initializeScript (cr : Crypto) (deployer updateAuthority : Pubkey) (coolDownPeriodStr : List Char) : Option Sent := do
  let d ← key58 DEPLOYER_ADDRESS
  if deployer ≠ d then none
  else do
    let orcaMint ← key58 ORCA_MINT_ADDRESS
    let xorcaMint ← key58 XORCA_MINT_ADDRESS
    let tokenProgram ← key58 TOKEN_PROGRAM_ID
    let systemProgram ← key58 SYSTEM_PROGRAM_ID
    let ataProgram ← key58 ASSOCIATED_TOKEN_PROGRAM_ID
    let state ← stateAccount cr
    let vault ← vaultAccount cr state
    let coolDownPeriod ← parseInt true coolDownPeriodStr
    let c ← writeBigInt64LE coolDownPeriod
    some { data := [3] ++ c
           keys := [⟨deployer, true, true⟩, ⟨updateAuthority, true, true⟩, ⟨state, false, true⟩,
             ⟨vault, false, true⟩, ⟨xorcaMint, false, false⟩, ⟨orcaMint, false, false⟩,
             ⟨systemProgram, false, false⟩, ⟨tokenProgram, false, false⟩, ⟨ataProgram, false, false⟩]
           createsAta := false }

/-! ### Reports -/

/-- What `ts-scripts/status.ts` prints about prices, as fractions (it divides them as doubles and prints ten
decimals). -/
structure Status where
  nonEscrowed : Int
  supply : Nat
  /-- Printed as "1 ORCA = … xORCA". -/
  orcaToXorca : Int × Int
  /-- Printed as "1 xORCA = … ORCA". -/
  xorcaToOrca : Int × Int

/-- `ts-scripts/status.ts:16-120`; three reads that may see different ledgers. -/
def status (cr : Crypto) (Lstate Lvault Lmint : Ledger) : Option Status := do
  let state ← stateAccount cr
  let vault ← vaultAccount cr state
  let stateAccountInfo ← getAccount Lstate state
  let stateData ← State.deserialize stateAccountInfo.data
  let vaultAmount ← tokenAmount Lvault vault
  let nonEscrowedAmount : Int := (vaultAmount.toNat : Int) - stateData.escrowedOrcaAmount.toNat
  let xorcaMint ← key58 XORCA_MINT_ADDRESS
  let token ← key58 TOKEN_PROGRAM_ID
  let mint ← getAccount Lmint xorcaMint
  if mint.owner = token then do
    let m ← orNone (unpackMint mint.data)
    let numerator := nonEscrowedAmount + 100
    let denominator : Int := m.supply.toNat + 100
    some { nonEscrowed := nonEscrowedAmount, supply := m.supply.toNat,
           orcaToXorca := (numerator, denominator), xorcaToOrca := (denominator, numerator) }
  else none

/-- One row of `ts-scripts/pending-withdraws.ts`. -/
structure Row where
  index : UInt8
  address : Pubkey
  /-- Printed as "xORCA Amount". -/
  xorcaAmount : Nat
  timestamp : Int
  isReady : Bool
  timeRemaining : Int
  timeSinceReady : Int
  /-- Printed as "Created". -/
  createdAt : Int

/-- `ts-scripts/pending-withdraws.ts:83-125`: an account that is too short throws and is skipped. -/
def rowOf (L : Ledger) (k : Pubkey) (coolDownPeriodS currentTimestamp : Int) : Option Row := do
  let a ← getAccount L k
  let data := a.data
  if data.length < 56 then none
  else
    let timestamp := (readI64 data 48).toInt
    let isReady := decide (timestamp ≤ currentTimestamp)
    some { index := readU8 data 7, address := k, xorcaAmount := (readU64 data 40).toNat, timestamp, isReady
           timeRemaining := if isReady then 0 else timestamp - currentTimestamp
           timeSinceReady := if isReady then currentTimestamp - timestamp else 0
           createdAt := timestamp - coolDownPeriodS }

/-- `ts-scripts/pending-withdraws.ts:31-131` (all reads from one ledger). -/
def pendingWithdraws (cr : Crypto) (L : Ledger) (staker : Pubkey) (currentTimestamp : Int) : Option (List Row) := do
  let state ← stateAccount cr
  let info ← getAccount L state
  if info.data.length < 24 then none
  else
    let coolDownPeriodS := (readI64 info.data 16).toInt
    some ((List.range 15).filterMap fun (i : Nat) =>
      (pendingWithdrawAccount cr staker (some (i : Nat))).bind fun k => rowOf L k coolDownPeriodS currentTimestamp)

/-- Total printed as "Total xORCA Ready" (`ts-scripts/pending-withdraws.ts:175-178`). -/
def totalReady (rows : List Row) : Nat := ((rows.filter (·.isReady)).map (·.xorcaAmount)).sum

end Xorca.Scripts
