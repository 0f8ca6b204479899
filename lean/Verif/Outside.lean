import Verif.History
/-
The rest of the chain: the whole instruction set of the SPL token program, and the runtime rule that binds every
other program.  This file is part of the trusted base: it transcribes the documented behaviour of those programs, not
code of `/repo`.  Where versions of the token program differ, the more permissive one is taken.
-/
namespace Xorca

/-- The native mint `So11111111111111111111111111111111111111112`. -/
def NATIVE_MINT_ID : Pubkey := ⟨[6,155,136,87,254,171,129,132,251,104,127,99,70,24,192,53,218,196,57,220,26,235,59,85,152,160,240,0,0,0,0,1], rfl⟩

/-! ### Authorities -/

/-- Key number `j` of a multisig account. -/
def multisigKey (d : Bytes) (j : Nat) : Pubkey := readKey d (3 + 32 * j)

/-- The slots `0..n` of a multisig that the accounts `ms` match.  Any matching account must have signed. -/
def multisigMatches (sg : Pubkey → Bool) (d : Bytes) (n : Nat) (ms : List Pubkey) : Res Nat := do
  ensure (∀ s ∈ ms, (∃ j ∈ List.range n, multisigKey d j = s) → sg s = true) (.cpi .notEnoughSigners)
  .ok ((List.range n).countP fun j => ms.contains (multisigKey d j))

/-- `Processor::validate_owner`.  `sg` are the keys that have signed, `ms` the signer accounts passed for a multisig. -/
def checkOwner (sg : Pubkey → Bool) (L : Ledger) (expected auth : Pubkey) (ms : List Pubkey) : Res Unit := do
  ensure (expected = auth) (.cpi .ownerMismatch)
  if (L auth).owner = SPL_TOKEN_PROGRAM_ID ∧ (L auth).data.length = TOKEN_MULTISIG_LEN then do
    ensure (readU8 (L auth).data 2 = 1) (.cpi .uninitialized)
    let got ← multisigMatches sg (L auth).data (readU8 (L auth).data 1).toNat ms
    ensure ((readU8 (L auth).data 0).toNat ≤ got) (.cpi .notEnoughSigners)
  else ensure (sg auth = true) (.cpi .notEnoughSigners)

/-- Authority check and delegate bookkeeping of transfer and burn. -/
def checkDebit (sg : Pubkey → Bool) (L : Ledger) (t : TokenAccount) (d : Bytes) (auth : Pubkey) (ms : List Pubkey)
    (amount : UInt64) (keepDelegate : Bool) : Res Bytes :=
  if t.delegateFlag = 1 ∧ t.delegate = auth then do
    checkOwner sg L t.delegate auth ms
    ensure (amount.toNat ≤ t.delegateAmount.toNat) (.cpi .insufficientFunds)
    if keepDelegate then .ok d
    else
      let rest := t.delegateAmount - amount
      let d1 := writeAt d TA_DELEGATE_AMOUNT (u64le rest)
      .ok (if rest = 0 then writeAt d1 TA_DELEGATE_FLAG (u32le 0) else d1)
  else do
    checkOwner sg L t.owner auth ms
    .ok d

/-! ### Reading and writing accounts -/

/-- A token account of the token program. -/
def needToken (L : Ledger) (k : Pubkey) : Res TokenAccount := do
  ensure ((L k).owner = SPL_TOKEN_PROGRAM_ID) (.cpi .invalidOwner)
  unpackTokenAccount (L k).data

/-- A mint of the token program. -/
def needMint (L : Ledger) (k : Pubkey) : Res TokenMint := do
  ensure ((L k).owner = SPL_TOKEN_PROGRAM_ID) (.cpi .invalidOwner)
  unpackMint (L k).data

/-- The mint and decimals named by the `Checked` instructions. -/
def checkDecimals (L : Ledger) (mint : Pubkey) (chk : Option (Pubkey × UInt8)) : Res Unit :=
  match chk with
  | none => .ok ()
  | some (m, dec) => do
    ensure (mint = m) (.cpi .mintMismatch)
    let t ← unpackMint (L m).data
    ensure (t.decimals = dec) (.cpi .mintMismatch)

/-- `pack_coption_key`: the key of `none` is left as it was. -/
def packKey (d : Bytes) (off : Nat) : Option Pubkey → Bytes
  | none => writeAt d off (u32le 0)
  | some k => writeAt (writeAt d off (u32le 1)) (off + 4) k.bytes

/-- Move lamports between two accounts. -/
def moveLamports (L : Ledger) (src dst : Pubkey) (n : UInt64) : Res Ledger := do
  let a ← okOr (checkedSubU64 (L src).lamports n) (.cpi .overflow)
  let L1 := L.setLamports src a
  let b ← okOr (checkedAddU64 (L1 dst).lamports n) (.cpi .overflow)
  .ok (L1.setLamports dst b)

/-- An account is owned by nobody who could sign. -/
def burnable (t : TokenAccount) : Prop := t.owner = SYSTEM_PROGRAM_ID ∨ t.owner = INCINERATOR_ID

instance (t : TokenAccount) : Decidable (burnable t) := by unfold burnable; infer_instance

/-- The key that may close a token account. -/
def closer (t : TokenAccount) : Pubkey := if t.closeAuthorityFlag = 1 then t.closeAuthority else t.owner

/-! ### Instructions -/

/-- `AuthorityType`. -/
inductive AuthorityType
  | mintTokens | freezeAccount | accountOwner | closeAccount
deriving DecidableEq

/-- The instructions of the token program; `chk` makes the `Checked` variant, `ms` are multisig signer accounts. -/
inductive TokenIx
  /-- 0, 20 -/
  | initializeMint (mint : Pubkey) (decimals : UInt8) (auth : Pubkey) (freeze : Option Pubkey)
  /-- 1, 16, 18 -/
  | initializeAccount (acc mint owner : Pubkey)
  /-- 2, 19 -/
  | initializeMultisig (acc : Pubkey) (m : UInt8) (keys : List Pubkey)
  /-- 3, 12 -/
  | transfer (src dst auth : Pubkey) (ms : List Pubkey) (amount : UInt64) (chk : Option (Pubkey × UInt8))
  /-- 4, 13 -/
  | approve (src delegate auth : Pubkey) (ms : List Pubkey) (amount : UInt64) (chk : Option (Pubkey × UInt8))
  /-- 5 -/
  | revoke (src auth : Pubkey) (ms : List Pubkey)
  /-- 6 -/
  | setAuthority (acc : Pubkey) (ty : AuthorityType) (new : Option Pubkey) (auth : Pubkey) (ms : List Pubkey)
  /-- 7, 14 -/
  | mintTo (mint dst auth : Pubkey) (ms : List Pubkey) (amount : UInt64) (chk : Option (Pubkey × UInt8))
  /-- 8, 15 -/
  | burn (src mint auth : Pubkey) (ms : List Pubkey) (amount : UInt64) (chk : Option (Pubkey × UInt8))
  /-- 9 -/
  | closeAccount (src dst auth : Pubkey) (ms : List Pubkey)
  /-- 10, 11 -/
  | freeze (acc mint auth : Pubkey) (ms : List Pubkey) (thaw : Bool)
  /-- 17 -/
  | syncNative (acc : Pubkey)
  /-- 21, 22, 23, 24: size and amount queries, immutable owner -/
  | query
  /-- 38: lamports above the rent minimum -/
  | withdrawExcess (src dst auth : Pubkey) (ms : List Pubkey)
  /-- 45: lamports of a native account -/
  | unwrapLamports (src dst auth : Pubkey) (ms : List Pubkey) (amount : UInt64)

/-- `InitializeMint`. -/
def tokInitMint (rent : Nat → UInt64) (L : Ledger) (mint : Pubkey) (decimals : UInt8) (auth : Pubkey)
    (freeze : Option Pubkey) : Res Ledger := do
  ensure ((L mint).owner = SPL_TOKEN_PROGRAM_ID ∧ (L mint).data.length = TOKEN_MINT_LEN) (.cpi .invalidAccountData)
  ensure (readU8 (L mint).data 45 = 0) (.cpi .accountInUse)
  ensure ((rent TOKEN_MINT_LEN).toNat ≤ (L mint).lamports.toNat) (.cpi .insufficientFunds)
  .ok (L.setData mint (packKey (writeAt (packKey (L mint).data 0 (some auth)) 44 [decimals, 1]) 46 freeze))

/-- `InitializeAccount`. -/
def tokInitAccount (rent : Nat → UInt64) (L : Ledger) (acc mint owner : Pubkey) : Res Ledger := do
  ensure ((L acc).owner = SPL_TOKEN_PROGRAM_ID ∧ (L acc).data.length = TOKEN_ACCOUNT_LEN) (.cpi .invalidAccountData)
  ensure (readU8 (L acc).data 108 = 0) (.cpi .accountInUse)
  ensure ((rent TOKEN_ACCOUNT_LEN).toNat ≤ (L acc).lamports.toNat) (.cpi .insufficientFunds)
  let d1 := packKey (writeAt (writeAt (L acc).data 0 mint.bytes) 32 owner.bytes) 72 none
  let d2 := packKey (writeAt (writeAt d1 108 [1]) 121 (u64le 0)) 129 none
  if mint = NATIVE_MINT_ID then do
    let v ← okOr (checkedSubU64 (L acc).lamports (rent TOKEN_ACCOUNT_LEN)) (.cpi .overflow)
    .ok (L.setData acc (writeAt (writeAt (writeAt d2 109 (u32le 1)) 113 (u64le (rent TOKEN_ACCOUNT_LEN))) 64 (u64le v)))
  else do
    let _ ← unpackMint (L mint).data
    .ok (L.setData acc (writeAt (writeAt d2 109 (u32le 0)) 64 (u64le 0)))

/-- `InitializeMultisig`. -/
def tokInitMultisig (rent : Nat → UInt64) (L : Ledger) (acc : Pubkey) (m : UInt8) (keys : List Pubkey) : Res Ledger := do
  ensure ((L acc).owner = SPL_TOKEN_PROGRAM_ID ∧ (L acc).data.length = TOKEN_MULTISIG_LEN) (.cpi .invalidAccountData)
  ensure (readU8 (L acc).data 2 = 0) (.cpi .accountInUse)
  ensure ((rent TOKEN_MULTISIG_LEN).toNat ≤ (L acc).lamports.toNat) (.cpi .insufficientFunds)
  ensure (1 ≤ keys.length ∧ keys.length ≤ 11 ∧ 1 ≤ m.toNat ∧ m.toNat ≤ keys.length) (.cpi .invalidArgument)
  .ok (L.setData acc (writeAt (writeAt (L acc).data 0 [m, UInt8.ofNat keys.length, 1]) 3 (keys.flatMap (·.bytes))))

/-- `Transfer`.  The lamports of a native account move along. -/
def tokTransfer (sg : Pubkey → Bool) (L : Ledger) (src dst auth : Pubkey) (ms : List Pubkey) (amount : UInt64)
    (chk : Option (Pubkey × UInt8)) : Res Ledger := do
  let s ← needToken L src
  let t ← needToken L dst
  ensure (s.state ≠ .Frozen ∧ t.state ≠ .Frozen) (.cpi .frozen)
  ensure (amount.toNat ≤ s.amount.toNat) (.cpi .insufficientFunds)
  ensure (s.mint = t.mint) (.cpi .mintMismatch)
  checkDecimals L s.mint chk
  let sd ← checkDebit sg L s (L src).data auth ms amount (src = dst)
  if src = dst then .ok L
  else do
    let sa ← okOr (checkedSubU64 s.amount amount) (.cpi .overflow)
    let ta ← okOr (checkedAddU64 t.amount amount) (.cpi .overflow)
    let L1 := (L.setData src (writeAt sd TA_AMOUNT (u64le sa))).setData dst (writeAt (L dst).data TA_AMOUNT (u64le ta))
    if s.isNativeFlag = 1 then moveLamports L1 src dst amount else .ok L1

/-- `Approve`. -/
def tokApprove (sg : Pubkey → Bool) (L : Ledger) (src delegate auth : Pubkey) (ms : List Pubkey) (amount : UInt64)
    (chk : Option (Pubkey × UInt8)) : Res Ledger := do
  let s ← needToken L src
  ensure (s.state ≠ .Frozen) (.cpi .frozen)
  checkDecimals L s.mint chk
  checkOwner sg L s.owner auth ms
  .ok (L.setData src (writeAt (packKey (L src).data 72 (some delegate)) 121 (u64le amount)))

/-- `Revoke`, by the owner or the delegate. -/
def tokRevoke (sg : Pubkey → Bool) (L : Ledger) (src auth : Pubkey) (ms : List Pubkey) : Res Ledger := do
  let s ← needToken L src
  ensure (s.state ≠ .Frozen) (.cpi .frozen)
  checkOwner sg L (if s.delegateFlag = 1 ∧ s.delegate = auth then s.delegate else s.owner) auth ms
  .ok (L.setData src (writeAt (packKey (L src).data 72 none) 121 (u64le 0)))

/-- `SetAuthority` of a token account. -/
def tokSetAccountAuthority (sg : Pubkey → Bool) (L : Ledger) (acc : Pubkey) (ty : AuthorityType) (new : Option Pubkey)
    (auth : Pubkey) (ms : List Pubkey) : Res Ledger := do
  let t ← needToken L acc
  ensure (t.state ≠ .Frozen) (.cpi .frozen)
  match ty with
  | .accountOwner => do
    checkOwner sg L t.owner auth ms
    let k ← okOr new (.cpi .invalidArgument)
    let d := writeAt (packKey (writeAt (L acc).data 32 k.bytes) 72 none) 121 (u64le 0)
    .ok (L.setData acc (if t.isNativeFlag = 1 then packKey d 129 none else d))
  | .closeAccount => do
    checkOwner sg L (closer t) auth ms
    .ok (L.setData acc (packKey (L acc).data 129 new))
  | _ => .error (.cpi .invalidArgument)

/-- `SetAuthority` of a mint. -/
def tokSetMintAuthority (sg : Pubkey → Bool) (L : Ledger) (acc : Pubkey) (ty : AuthorityType) (new : Option Pubkey)
    (auth : Pubkey) (ms : List Pubkey) : Res Ledger := do
  let m ← needMint L acc
  match ty with
  | .mintTokens => do
    ensure (m.mintAuthorityFlag = 1) (.cpi .fixedSupply)
    checkOwner sg L m.mintAuthority auth ms
    .ok (L.setData acc (packKey (L acc).data 0 new))
  | .freezeAccount => do
    ensure (m.freezeAuthorityFlag = 1) (.cpi .cannotFreeze)
    checkOwner sg L m.freezeAuthority auth ms
    .ok (L.setData acc (packKey (L acc).data 46 new))
  | _ => .error (.cpi .invalidArgument)

/-- `MintTo`. -/
def tokMintTo (sg : Pubkey → Bool) (L : Ledger) (mint dst auth : Pubkey) (ms : List Pubkey) (amount : UInt64)
    (chk : Option (Pubkey × UInt8)) : Res Ledger := do
  let t ← needToken L dst
  ensure (t.state ≠ .Frozen) (.cpi .frozen)
  ensure (t.isNativeFlag = 0) (.cpi .nativeNotSupported)
  ensure (t.mint = mint) (.cpi .mintMismatch)
  let m ← needMint L mint
  checkDecimals L mint chk
  ensure (m.mintAuthorityFlag = 1) (.cpi .fixedSupply)
  checkOwner sg L m.mintAuthority auth ms
  let ta ← okOr (checkedAddU64 t.amount amount) (.cpi .overflow)
  let v ← okOr (checkedAddU64 m.supply amount) (.cpi .overflow)
  .ok ((L.setData dst (writeAt (L dst).data TA_AMOUNT (u64le ta))).setData mint
    (writeAt (L mint).data MINT_SUPPLY (u64le v)))

/-- Authority check of a burn; an account that nobody can sign for can be burnt by anyone. -/
def checkBurn (sg : Pubkey → Bool) (L : Ledger) (t : TokenAccount) (d : Bytes) (auth : Pubkey) (ms : List Pubkey)
    (amount : UInt64) : Res Bytes :=
  if burnable t then .ok d else checkDebit sg L t d auth ms amount false

/-- `Burn`. -/
def tokBurn (sg : Pubkey → Bool) (L : Ledger) (src mint auth : Pubkey) (ms : List Pubkey) (amount : UInt64)
    (chk : Option (Pubkey × UInt8)) : Res Ledger := do
  let s ← needToken L src
  let m ← needMint L mint
  ensure (s.state ≠ .Frozen) (.cpi .frozen)
  ensure (s.isNativeFlag = 0) (.cpi .nativeNotSupported)
  ensure (amount.toNat ≤ s.amount.toNat) (.cpi .insufficientFunds)
  ensure (s.mint = mint) (.cpi .mintMismatch)
  checkDecimals L mint chk
  let sd ← checkBurn sg L s (L src).data auth ms amount
  let sa ← okOr (checkedSubU64 s.amount amount) (.cpi .overflow)
  let v ← okOr (checkedSubU64 m.supply amount) (.cpi .overflow)
  .ok ((L.setData src (writeAt sd TA_AMOUNT (u64le sa))).setData mint
    (writeAt (L mint).data MINT_SUPPLY (u64le v)))

/-- Authority check of a close; the lamports of an account that nobody can sign for go to the incinerator. -/
def checkClose (sg : Pubkey → Bool) (L : Ledger) (t : TokenAccount) (dst auth : Pubkey) (ms : List Pubkey) : Res Unit :=
  if burnable t then ensure (dst = INCINERATOR_ID) (.cpi .invalidAccountData) else checkOwner sg L (closer t) auth ms

/-- `CloseAccount`: the lamports go to `dst` and the account ceases to exist. -/
def tokClose (sg : Pubkey → Bool) (L : Ledger) (src dst auth : Pubkey) (ms : List Pubkey) : Res Ledger := do
  ensure (src ≠ dst) (.cpi .invalidAccountData)
  let s ← needToken L src
  ensure (s.isNativeFlag = 1 ∨ s.amount = 0) (.cpi .nonZeroBalance)
  checkClose sg L s dst auth ms
  let v ← okOr (checkedAddU64 (L dst).lamports (L src).lamports) (.cpi .overflow)
  .ok ((L.setLamports dst v).set src ⟨0, SYSTEM_PROGRAM_ID, []⟩)

/-- `FreezeAccount` and `ThawAccount`. -/
def tokFreeze (sg : Pubkey → Bool) (L : Ledger) (acc mint auth : Pubkey) (ms : List Pubkey) (thaw : Bool) : Res Ledger := do
  let t ← needToken L acc
  ensure (t.state = .Frozen ↔ thaw = true) (.cpi .frozen)
  ensure (t.isNativeFlag = 0) (.cpi .nativeNotSupported)
  ensure (t.mint = mint) (.cpi .mintMismatch)
  let m ← unpackMint (L mint).data
  ensure (m.freezeAuthorityFlag = 1) (.cpi .cannotFreeze)
  checkOwner sg L m.freezeAuthority auth ms
  .ok (L.setData acc (writeAt (L acc).data 108 [if thaw then 1 else 2]))

/-- `SyncNative`. -/
def tokSync (L : Ledger) (acc : Pubkey) : Res Ledger := do
  let t ← needToken L acc
  ensure (t.isNativeFlag = 1) (.cpi .nativeNotSupported)
  let v ← okOr (checkedSubU64 (L acc).lamports t.nativeAmount) (.cpi .overflow)
  ensure (t.amount.toNat ≤ v.toNat) (.cpi .invalidArgument)
  .ok (L.setData acc (writeAt (L acc).data TA_AMOUNT (u64le v)))

/-- `WithdrawExcessLamports`: any token account, mint or multisig; whoever signs, the rent minimum stays. -/
def tokWithdrawExcess (rent : Nat → UInt64) (L : Ledger) (src dst : Pubkey) : Res Ledger := do
  ensure ((L src).owner = SPL_TOKEN_PROGRAM_ID) (.cpi .invalidOwner)
  let v ← okOr (checkedSubU64 (L src).lamports (rent (L src).data.length)) (.cpi .insufficientFunds)
  moveLamports L src dst v

/-- `UnwrapLamports`. -/
def tokUnwrap (sg : Pubkey → Bool) (L : Ledger) (src dst auth : Pubkey) (ms : List Pubkey) (amount : UInt64) :
    Res Ledger := do
  let s ← needToken L src
  ensure (s.isNativeFlag = 1) (.cpi .nativeNotSupported)
  let sd ← checkDebit sg L s (L src).data auth ms amount (src = dst)
  let sa ← okOr (checkedSubU64 s.amount amount) (.cpi .overflow)
  moveLamports (L.setData src (writeAt sd TA_AMOUNT (u64le sa))) src dst amount

/-- One instruction of the token program; `sg` are the keys that have signed. -/
def tokenExec (rent : Nat → UInt64) (sg : Pubkey → Bool) (L : Ledger) : TokenIx → Res Ledger
  | .initializeMint mint dec auth freeze => tokInitMint rent L mint dec auth freeze
  | .initializeAccount acc mint owner => tokInitAccount rent L acc mint owner
  | .initializeMultisig acc m keys => tokInitMultisig rent L acc m keys
  | .transfer src dst auth ms n chk => tokTransfer sg L src dst auth ms n chk
  | .approve src delegate auth ms n chk => tokApprove sg L src delegate auth ms n chk
  | .revoke src auth ms => tokRevoke sg L src auth ms
  | .setAuthority acc ty new auth ms =>
    if (L acc).data.length = TOKEN_ACCOUNT_LEN then tokSetAccountAuthority sg L acc ty new auth ms
    else tokSetMintAuthority sg L acc ty new auth ms
  | .mintTo mint dst auth ms n chk => tokMintTo sg L mint dst auth ms n chk
  | .burn src mint auth ms n chk => tokBurn sg L src mint auth ms n chk
  | .closeAccount src dst auth ms => tokClose sg L src dst auth ms
  | .freeze acc mint auth ms thaw => tokFreeze sg L acc mint auth ms thaw
  | .syncNative acc => tokSync L acc
  | .query => .ok L
  | .withdrawExcess src dst _ _ => tokWithdrawExcess rent L src dst
  | .unwrapLamports src dst auth ms n => tokUnwrap sg L src dst auth ms n

namespace Spec

/-! ### The rule for all other programs -/

/-- The account received lamports or nothing. -/
def Credited (a a' : Account) : Prop :=
  a'.owner = a.owner ∧ a'.data = a.data ∧ a.lamports.toNat ≤ a'.lamports.toNat

/-- What the runtime lets a program `p` do: it can only pay in to accounts of other programs, and can give one of its
own accounts away only with zeroed data.  The system program gives away only an account that `sg` allows: one that
signs, or one derived with a seed from a signer. -/
def ProgramRule (sg : Pubkey → Bool) (p : Pubkey) (L L' : Ledger) : Prop :=
  ∀ k, ((L k).owner ≠ p → Credited (L k) (L' k)) ∧
    ((L k).owner = p → (L' k).owner = p ∨ (AllZero (L' k).data ∧ (p = SYSTEM_PROGRAM_ID → sg k = true)))

/-- Nobody signs for a state address. -/
def NotPool (cr : Crypto) (sg : Pubkey → Bool) : Prop := ∀ k b, StateAddr cr k b → sg k = false

/-- One step of the rest of the chain. -/
inductive Outside (cr : Crypto) (L : Ledger) : Ledger → Prop
  /-- An instruction of the token program. -/
  | token {L' rent sg ix} : (∀ n, rent n ≠ 0) → NotPool cr sg → tokenExec rent sg L ix = .ok L' → Outside cr L L'
  /-- Anything done by a program other than the token program and the one verified here. -/
  | program {L' sg p} : p ≠ PROGRAM_ID → p ≠ SPL_TOKEN_PROGRAM_ID → NotPool cr sg → ProgramRule sg p L L' →
      Outside cr L L'
  /-- An account without lamports is removed. -/
  | purge {k} : (L k).lamports = 0 → Outside cr L (L.set k ⟨0, SYSTEM_PROGRAM_ID, []⟩)

/-- An account as the token program leaves it: with rent paid, and native only for the native mint. -/
structure TokenSound (a : Account) : Prop where
  paid : a.data.length = 165 → readU8 a.data 108 ≠ 0 → readU32 a.data 109 = 0 → a.lamports ≠ 0
  plain : a.data.length = 165 → readKey a.data 0 = XORCA_MINT_ID → readU32 a.data 109 = 0

/-- A ledger in which the xORCA mint exists and the token program has kept its rules. -/
structure Steady (cr : Crypto) (L : Ledger) : Prop where
  /-- The state address is unused or the program's. -/
  state : ∀ k b, StateAddr cr k b → (L k).owner = SYSTEM_PROGRAM_ID ∨ (L k).owner = PROGRAM_ID
  /-- The system program and the incinerator are not state addresses. -/
  nobody : ∀ b, ¬ StateAddr cr SYSTEM_PROGRAM_ID b ∧ ¬ StateAddr cr INCINERATOR_ID b
  sound : ∀ k, (L k).owner = SPL_TOKEN_PROGRAM_ID → TokenSound (L k)
  mint : (L XORCA_MINT_ID).owner = SPL_TOKEN_PROGRAM_ID ∧ (L XORCA_MINT_ID).data.length = 82 ∧
    readU8 (L XORCA_MINT_ID).data 45 = 1 ∧ (L XORCA_MINT_ID).lamports ≠ 0

/-- No two of the accounts hold 2^64 lamports together (far more than exist). -/
def LamportsFit (L : Ledger) (accs : List Meta) : Prop :=
  ∀ a ∈ accs, ∀ b ∈ accs, a.key ≠ b.key → (L a.key).lamports.toNat + (L b.key).lamports.toNat < 2 ^ 64

/-- A step of the world: a call of the program or a step of the rest of the chain. -/
inductive Entry.Real (cr : Crypto) : Entry → Prop
  | call {x accs ix logs L L'} : x.cr = cr → (∀ n, x.rentMin n ≠ 0) → SignersOk cr L accs → LamportsFit L accs →
      Runs x L accs ix L' logs → Entry.Real cr ⟨L, .call x accs ix logs, L'⟩
  | out {L L'} : Outside cr L L' → Entry.Real cr ⟨L, .env, L'⟩

/-- A sequence of such steps, newest first. -/
inductive World (cr : Crypto) (L : Ledger) : List Entry → Ledger → Prop
  | nil : World cr L [] L
  | step {h e} : World cr L h e.pre → e.Real cr → World cr L (e :: h) e.post

end Spec

end Xorca
