import Verif.Client.Scripts
import Verif.Outside
/-
The command-line scripts that call the token program instead of this one: handing the xORCA mint to the pool, sending
ORCA to the vault, sending ORCA to somebody.

`none` is a thrown error or an exit before anything is sent.  The bytes of a token instruction are made by the library
`@solana/spl-token`; they are not modelled, an instruction is a `TokenIx`.
-/
namespace Xorca.Scripts
open Client

/-- What a token script sends: one instruction of the token program, the only key that signs the transaction, and the
wallet whose associated ORCA account is created before, if any. -/
structure TokenSent where
  ix : TokenIx
  signer : Pubkey
  createsFor : Option Pubkey

/-- The amount field of an instruction.  What the library makes of a number that is no `u64` depends on its version:
`lib` is any behaviour. -/
def amountField (lib : Int → Option UInt64) (i : Int) : Option UInt64 :=
  if 0 ≤ i ∧ i < 2 ^ 64 then some (UInt64.ofNat i.toNat) else lib i

/-- `getAccount(connection, k).amount` of `@solana/spl-token`: checks owner and length only. -/
def splAmount (L : Ledger) (k : Pubkey) : Option UInt64 := do
  let a ← getAccount L k
  let token ← key58 TOKEN_PROGRAM_ID
  if a.owner = token ∧ a.data.length = TOKEN_ACCOUNT_LEN then some (readU64 a.data TA_AMOUNT) else none

/-- `getAssociatedTokenAddressSync(mint, owner)`: throws if the owner is not on the curve. -/
def ataOnCurve (cr : Crypto) (mint owner : Pubkey) : Option Pubkey :=
  if cr.onCurve owner = true then ataOf cr mint owner else none

/-! ### `ts-scripts/update-xorca-mint-authority.ts` -/

/-- Lines 29-95. -/
def updateMintAuthority (cr : Crypto) (currentAuthority : Pubkey) : Option TokenSent := do
  let stateAccount ← stateAccount cr
  let xorcaMint ← key58 XORCA_MINT_ADDRESS
  some { ix := .setAuthority xorcaMint .mintTokens (some stateAccount) currentAuthority []
         signer := currentAuthority
         createsFor := none }

/-- Lines 103-114: whether the script reports that the update succeeded; `none` if it reports nothing. -/
def mintAuthorityReport (cr : Crypto) (L : Ledger) : Option Bool := do
  let stateAccount ← stateAccount cr
  let xorcaMint ← key58 XORCA_MINT_ADDRESS
  let token ← key58 TOKEN_PROGRAM_ID
  let a ← getAccount L xorcaMint
  if a.owner = token then do
    let m ← orNone (unpackMint a.data)
    some (decide (m.mintAuthorityFlag = 1 ∧ m.mintAuthority = stateAccount))
  else none

/-! ### `ts-scripts/transfer-orca-to-vault.ts` -/

/-- Lines 29-119: what is sent, and the vault balance kept for the report. -/
def transferOrcaToVault (cr : Crypto) (L : Ledger) (lib : Int → Option UInt64) (sender : Pubkey)
    (orcaAmountStr : List Char) : Option (TokenSent × UInt64) := do
  let orcaAmount ← parseInt true orcaAmountStr
  let stateAddress ← stateAccount cr
  let vaultAddress ← vaultAccount cr stateAddress
  let orcaMint ← key58 ORCA_MINT_ADDRESS
  let senderOrcaAta ← ataOnCurve cr orcaMint sender
  let senderBalance ← splAmount L senderOrcaAta
  if (senderBalance.toNat : Int) < orcaAmount then none
  else do
    let vaultAccount ← splAmount L vaultAddress
    let amount ← amountField lib orcaAmount
    some ({ ix := .transfer senderOrcaAta vaultAddress sender [] amount none
            signer := sender
            createsFor := none }, vaultAccount)

/-- Line 136: the number printed as "Vault received". -/
def vaultReceived (finalVaultBalance vaultAccount : UInt64) (orcaAmount : Int) : Int :=
  (finalVaultBalance.toNat : Int) - ((vaultAccount.toNat : Int) - orcaAmount)

/-! ### `ts-scripts/transfer-orca.ts` -/

/-- Lines 77-97: a missing account is shown as holding nothing. -/
def balanceOrZero (L : Ledger) (k : Pubkey) : Option UInt64 :=
  if (getAccount L k).isNone then some 0 else tokenAmount L k

/-- Lines 32-143: what is sent, and the two balances kept for the report. -/
def transferOrca (cr : Crypto) (L : Ledger) (lib : Int → Option UInt64) (sender recipient : Pubkey) (orcaAmount : Int) :
    Option (TokenSent × UInt64 × UInt64) := do
  let orcaMint ← key58 ORCA_MINT_ADDRESS
  let senderOrcaAta ← ataOnCurve cr orcaMint sender
  let recipientOrcaAta ← ataOnCurve cr orcaMint recipient
  let senderBalance ← tokenAmount L senderOrcaAta
  if (senderBalance.toNat : Int) < orcaAmount then none
  else do
    let needsAtaCreation := (getAccount L recipientOrcaAta).isNone
    let recipientBalance ← balanceOrZero L recipientOrcaAta
    let amount ← amountField lib orcaAmount
    some ({ ix := .transfer senderOrcaAta recipientOrcaAta sender [] amount none
            signer := sender
            createsFor := if needsAtaCreation then some recipient else none }, senderBalance, recipientBalance)

/-- Lines 157-169: whether the script reports "Transfer completed successfully". -/
def transferReport (senderBalance recipientBalance finalSenderBalance finalRecipientBalance : UInt64) (orcaAmount : Int) :
    Bool :=
  let orcaTransferred : Int := (senderBalance.toNat : Int) - finalSenderBalance.toNat
  let orcaReceived : Int := (finalRecipientBalance.toNat : Int) - recipientBalance.toNat
  decide (orcaTransferred = orcaAmount ∧ orcaReceived = orcaAmount)

/-! ### Execution -/

/-- The associated ORCA account of `w` is created (instruction `Create` of the associated token program, which wants an
address not in use). -/
def createAta (x : Ctx) (L : Ledger) (signer w : Pubkey) : Res Ledger := do
  let p ← okOr (findProgramAddress x.cr (vaultSeedsRaw w SPL_TOKEN_PROGRAM_ID ORCA_MINT_ID)
    Xorca.ASSOCIATED_TOKEN_PROGRAM_ID) .panicked
  ensure ((L p.1).owner = Xorca.SYSTEM_PROGRAM_ID) (.cpi .invalidOwner)
  cpiCreateAtaIdempotent x ⟨[⟨signer, true, true⟩, ⟨p.1, false, true⟩, ⟨w, false, false⟩,
    ⟨ORCA_MINT_ID, false, false⟩, ⟨Xorca.SYSTEM_PROGRAM_ID, false, false⟩, ⟨SPL_TOKEN_PROGRAM_ID, false, false⟩,
    ⟨Xorca.ASSOCIATED_TOKEN_PROGRAM_ID, false, false⟩], []⟩ L signer p.1 w ORCA_MINT_ID

/-- The transaction that a token script sends: the associated account first, then the token instruction. -/
def runSent (x : Ctx) (L : Ledger) (s : TokenSent) : Res Ledger := do
  let L1 ← s.createsFor.elim (.ok L) (createAta x L s.signer)
  tokenExec x.rentMin (fun k => decide (k = s.signer)) L1 s.ix

/-! ### `ts-scripts/generate-keypair.ts` -/

/-- `Buffer.from(text, 'hex')`: pairs of hexadecimal digits up to the first pair that is none. -/
def bufferFromHex : List Char → Bytes
  | a :: b :: r => if isHex a ∧ isHex b then UInt8.ofNat (hexadecimal [a, b]) :: bufferFromHex r else []
  | _ => []

/-- Lines 31-66: the seed (32 bytes) or secret key (64 bytes) that the key file is made from; `none` is an error.
(Whether the two halves of a secret key fit is checked by the library.) -/
def keypairBytes (hexPrivateKey : List Char) : Option Bytes :=
  let privateKeyBytes := bufferFromHex hexPrivateKey
  if privateKeyBytes.length = 32 ∨ privateKeyBytes.length = 64 then some privateKeyBytes else none

end Xorca.Scripts
