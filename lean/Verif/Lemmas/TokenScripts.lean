import Verif.Client.TokenScripts
import Verif.Lemmas.Scripts
import Verif.Lemmas.World
/-
What the token scripts send, and what their instructions do.
-/
namespace Xorca
open Spec Client

variable {cr : Crypto} {x : Ctx} {L L' : Ledger} {sg : Pubkey → Bool}

/-! ### Instructions of the token program, whoever signs -/

theorem checkOwner_expected {e a : Pubkey} {ms : List Pubkey} (h : checkOwner sg L e a ms = .ok ()) : e = a := by
  unfold checkOwner at h
  simp only [bind_eq_ok, exists_unit, ensure_eq_ok] at h
  exact h.1

theorem checkOwner_of {a : Pubkey} {ms : List Pubkey} (h : sg a = true) (hm : NotMultisig L a) :
    checkOwner sg L a a ms = .ok () := by
  unfold checkOwner
  simp only [bind_eq_ok, exists_unit, ensure_eq_ok]
  refine ⟨trivial, ?_⟩
  rw [if_neg (show ¬ ((L a).owner = SPL_TOKEN_PROGRAM_ID ∧ (L a).data.length = TOKEN_MULTISIG_LEN) from hm), ensure_eq_ok]
  exact h

/-- A debit: the bytes changed, and by whom. -/
theorem checkDebit_eff {t : TokenAccount} {d sd : Bytes} {st : TokenAccountState} {auth : Pubkey}
    {ms : List Pubkey} {n : UInt64} {keep : Bool} (ht : tokenAccountAt d st = t) (hl : d.length = 165)
    (h : checkDebit sg L t d auth ms n keep = .ok sd) :
    Touch (fun j => (72 ≤ j ∧ j < 76) ∨ (121 ≤ j ∧ j < 129)) d sd ∧
      (readKey d 32 = auth ∧ sd = d ∨ readU32 d 72 = 1 ∧ readKey d 76 = auth) := by
  subst ht
  unfold checkDebit at h
  split at h
  · next hd =>
    simp only [bind_eq_ok, exists_unit] at h
    obtain ⟨_, _, h⟩ := h
    refine ⟨?_, Or.inr hd⟩
    split at h
    · cases h; exact Touch.refl
    · simp only [TA_DELEGATE_AMOUNT, TA_DELEGATE_FLAG, Except.ok.injEq] at h
      subst h
      have t1 : Touch (fun j => (72 ≤ j ∧ j < 76) ∨ (121 ≤ j ∧ j < 129)) d
          (writeAt d 121 (u64le ((tokenAccountAt d st).delegateAmount - n))) :=
        Touch.refl.write (by simp; omega) (by intro j h1 h2; simp at h2; right; omega)
      split
      · exact t1.write (by simp; omega) (by intro j h1 h2; simp at h2; left; omega)
      · exact t1
  · simp only [bind_eq_ok, exists_unit, Except.ok.injEq] at h
    obtain ⟨h1, rfl⟩ := h
    exact ⟨Touch.refl, Or.inl ⟨checkOwner_expected h1, rfl⟩⟩

/-- What a transfer between two accounts did. -/
structure TokenMoved (L L' : Ledger) (src dst auth : Pubkey) (n : Nat) : Prop where
  prog : (L src).owner = SPL_TOKEN_PROGRAM_ID ∧ (L dst).owner = SPL_TOKEN_PROGRAM_ID
  len : (L src).data.length = 165 ∧ (L dst).data.length = 165
  same : mintOf L src = mintOf L dst
  by_ : ownerOf L src = auth ∨ readU32 (L src).data 72 = 1 ∧ readKey (L src).data 76 = auth
  enough : n ≤ balance L src
  self : src = dst → L' = L
  debit : src ≠ dst → balance L src = balance L' src + n
  credit : src ≠ dst → balance L' dst = balance L dst + n
  owners : ∀ k, (L' k).owner = (L k).owner
  other : ∀ k, k ≠ src → k ≠ dst → (L' k).data = (L k).data
  src_data : Touch (fun j => (64 ≤ j ∧ j < 76) ∨ (121 ≤ j ∧ j < 129)) (L src).data (L' src).data
  dst_data : src ≠ dst → Touch (fun j => 64 ≤ j ∧ j < 72) (L dst).data (L' dst).data
  lamports : readU32 (L src).data 109 = 0 → ∀ k, (L' k).lamports = (L k).lamports

theorem tokTransfer_eff {src dst auth : Pubkey} {ms : List Pubkey} {n : UInt64} {chk : Option (Pubkey × UInt8)}
    (h : tokTransfer sg L src dst auth ms n chk = .ok L') : TokenMoved L L' src dst auth n.toNat := by
  unfold tokTransfer at h
  simp only [bind_eq_ok, exists_unit, ensure_eq_ok] at h
  obtain ⟨s, hk, t, hk', _, hamt, hmint, _, sd, hsd, h⟩ := h
  obtain ⟨ho, hl, h108, ⟨st, _, rfl⟩, hnat, -⟩ := needToken_ok hk
  obtain ⟨ho', hl', h108', ⟨st', _, rfl⟩, -⟩ := needToken_ok hk'
  obtain ⟨c1, c2⟩ := checkDebit_eff rfl hl hsd
  have hby : ownerOf L src = auth ∨ readU32 (L src).data 72 = 1 ∧ readKey (L src).data 76 = auth :=
    c2.imp And.left id
  change n.toNat ≤ balance L src at hamt
  change mintOf L src = mintOf L dst at hmint
  split at h
  · next he =>
    cases h
    exact ⟨⟨ho, ho'⟩, ⟨hl, hl'⟩, hmint, hby, hamt, fun _ => rfl, fun hne => absurd he hne, fun hne => absurd he hne,
      fun _ => rfl, fun _ _ _ => rfl, Touch.refl, fun _ => Touch.refl, fun _ _ => rfl⟩
  next hne =>
  simp only [bind_eq_ok, okOr_eq_ok] at h
  obtain ⟨sa, hsa, ta, hta, h⟩ := h
  rw [checkedSubU64_eq_some] at hsa
  rw [checkedAddU64_eq_some] at hta
  change (readU64 (L src).data 64).toNat = _ at hsa
  change ta.toNat = (readU64 (L dst).data 64).toNat + _ at hta
  have ts : Touch (fun j => (64 ≤ j ∧ j < 76) ∨ (121 ≤ j ∧ j < 129)) (L src).data (writeAt sd 64 (u64le sa)) :=
    Touch.write ⟨c1.1, fun j hj => c1.2 j (by omega)⟩ (by simp; omega) (by intro j h1 h2; simp at h2; omega)
  have vs : readU64 (writeAt sd 64 (u64le sa)) 64 = sa := readU64_writeAt_same (by rw [c1.1]; omega)
  have td : Touch (fun j => 64 ≤ j ∧ j < 72) (L dst).data (writeAt (L dst).data 64 (u64le ta)) :=
    Touch.refl.write (by simp; omega) (by intro j h1 h2; simp at h2; omega)
  have vd : readU64 (writeAt (L dst).data 64 (u64le ta)) 64 = ta := readU64_writeAt_same (by omega)
  have e1 : ((L.setData src (writeAt sd TA_AMOUNT (u64le sa))).setData dst
      (writeAt (L dst).data TA_AMOUNT (u64le ta)) src).data = writeAt sd 64 (u64le sa) := by
    rw [Ledger.setData_other _ _ hne]; simp [TA_AMOUNT]
  have e2 : ∀ k, k ≠ src → k ≠ dst → (L.setData src (writeAt sd TA_AMOUNT (u64le sa))).setData dst
      (writeAt (L dst).data TA_AMOUNT (u64le ta)) k = L k := by
    intro k h1 h2; rw [Ledger.setData_other _ _ h2, Ledger.setData_other _ _ h1]
  obtain ⟨f1, f2, f3, f4, f6⟩ : (∀ k, (L' k).owner = (L k).owner) ∧ (∀ k, k ≠ src → k ≠ dst → (L' k).data = (L k).data) ∧
      (L' src).data = writeAt sd 64 (u64le sa) ∧ (L' dst).data = writeAt (L dst).data 64 (u64le ta) ∧
      (readU32 (L src).data 109 = 0 → ∀ k, (L' k).lamports = (L k).lamports) := by
    split at h
    · next hc =>
      obtain ⟨m1, m2, m3, m4⟩ := moveLamports_ok h
      refine ⟨fun k => by rw [(m1 k).1]; simp, fun k h1 h2 => by rw [(m1 k).2, e2 k h1 h2], by rw [(m1 _).2, e1],
        by rw [(m1 _).2]; simp [TA_AMOUNT], fun h0 => ?_⟩
      change readU32 (L src).data 109 = 1 at hc
      rw [h0] at hc; exact absurd hc (by decide)
    · simp only [Except.ok.injEq] at h
      subst h
      exact ⟨fun k => by simp, fun k h1 h2 => by rw [e2 k h1 h2], e1, by simp [TA_AMOUNT], fun _ k => by simp⟩
  refine ⟨⟨ho, ho'⟩, ⟨hl, hl'⟩, hmint, hby, hamt, fun he => absurd he hne, fun _ => ?_, fun _ => ?_, f1, f2,
    by rw [f3]; exact ts, fun _ => by rw [f4]; exact td, f6⟩
  · unfold balance; rw [f3, vs, hsa]; omega
  · unfold balance; rw [f4, vd, hta]

/-- A transfer by the owner of an ordinary account succeeds. -/
theorem tokTransfer_succeeds {src dst auth m o : Pubkey} {ms : List Pubkey} {n : UInt64} (hs : TokenOk L src m auth)
    (hd : TokenOk L dst m o) (hsig : sg auth = true) (hm : NotMultisig L auth) (hn : n.toNat ≤ balance L src)
    (hfit : src ≠ dst → balance L dst + n.toNat < 2 ^ 64) : ∃ L', tokTransfer sg L src dst auth ms n none = .ok L' := by
  have need : ∀ {k o : Pubkey}, TokenOk L k m o → needToken L k = .ok (tokenAccountAt (L k).data .Initialized) := by
    intro k o h
    unfold needToken
    simp only [bind_eq_ok, exists_unit, ensure_eq_ok, unpackTokenAccount_ok]
    exact ⟨h.prog, h.len, ⟨_, by rw [h.state]; decide, rfl⟩, ⟨h.delegate, Or.inl h.native, h.close⟩,
      by rw [h.state]; decide⟩
  unfold tokTransfer
  rw [need hs, need hd]
  simp only [bind_eq_ok, exists_unit, ensure_eq_ok, checkDecimals]
  have hdb : checkDebit sg L (tokenAccountAt (L src).data .Initialized) (L src).data auth ms n (decide (src = dst)) =
      .ok (L src).data := by
    unfold checkDebit
    have hu : ¬ ((tokenAccountAt (L src).data .Initialized).delegateFlag = 1 ∧
        (tokenAccountAt (L src).data .Initialized).delegate = auth) := hs.undelegated
    rw [if_neg hu]
    simp only [bind_eq_ok, exists_unit, and_true]
    have ho : (tokenAccountAt (L src).data .Initialized).owner = auth := hs.owner
    rw [ho]
    exact checkOwner_of hsig hm
  by_cases he : src = dst
  · refine ⟨L, _, rfl, _, rfl, ⟨nofun, nofun⟩, hn, ?_, trivial, _, hdb, ?_⟩
    · change mintOf L src = mintOf L dst; rw [hs.mint, hd.mint]
    · rw [if_pos he]
  · have hf := hfit he
    refine ⟨(L.setData src (writeAt (L src).data TA_AMOUNT (u64le (UInt64.ofNat (balance L src - n.toNat))))).setData dst
      (writeAt (L dst).data TA_AMOUNT (u64le (UInt64.ofNat (balance L dst + n.toNat)))), _, rfl, _, rfl, ⟨nofun, nofun⟩, hn, ?_, trivial, _, hdb, ?_⟩
    · change mintOf L src = mintOf L dst; rw [hs.mint, hd.mint]
    · rw [if_neg he]
      simp only [bind_eq_ok, okOr_eq_ok]
      refine ⟨UInt64.ofNat (balance L src - n.toNat), ?_, UInt64.ofNat (balance L dst + n.toNat), ?_, ?_⟩
      · rw [checkedSubU64_eq_some, UInt64.toNat_ofNat_of_lt' (by have := n.toNat_lt; unfold balance at *; have := (readU64 (L src).data 64).toNat_lt; change _ < 2 ^ 64; omega)]
        change balance L src = _
        omega
      · rw [checkedAddU64_eq_some, UInt64.toNat_ofNat_of_lt' hf]; rfl
      · rw [if_neg]
        change ¬ readU32 (L src).data 109 = 1
        rw [hs.native]; decide

/-- What the change of the mint authority did. -/
structure HandOver (L L' : Ledger) (m auth new : Pubkey) : Prop where
  prog : (L m).owner = SPL_TOKEN_PROGRAM_ID
  len : (L m).data.length = 82
  init : readU8 (L m).data 45 = 1
  flag : readU32 (L m).data 0 = 1
  auth : readKey (L m).data 4 = auth
  freeze : readU32 (L m).data 46 = 0 ∨ readU32 (L m).data 46 = 1
  flag' : readU32 (L' m).data 0 = 1
  auth' : readKey (L' m).data 4 = new
  data : SameExcept 0 36 (L m).data (L' m).data
  mint : (L' m).owner = (L m).owner ∧ (L' m).lamports = (L m).lamports
  other : ∀ k, k ≠ m → L' k = L k

theorem setMintAuthority_eff {rent : Nat → UInt64} {m auth new : Pubkey} {ms : List Pubkey}
    (h : tokenExec rent sg L (.setAuthority m .mintTokens (some new) auth ms) = .ok L') : HandOver L L' m auth new := by
  simp only [tokenExec] at h
  split at h
  · unfold tokSetAccountAuthority at h
    simp [bind_eq_ok] at h
  · unfold tokSetMintAuthority needMint at h
    simp only [bind_eq_ok, exists_unit, ensure_eq_ok, Except.ok.injEq, unpackMint_ok] at h
    obtain ⟨t, ⟨h1, h2, h3, h4, h5⟩, h6, h7, rfl⟩ := h
    subst h4
    have ho := checkOwner_expected h7
    change readU32 (L m).data 0 = 1 at h6
    change readKey (L m).data 4 = auth at ho
    have hk : new.bytes.length = 32 := new.len
    have hw : SameExcept 0 36 (L m).data (packKey (L m).data 0 (some new)) := by
      have := (Touch.refl (S := fun j => j < 36) (d := (L m).data)).pack (o := 0) (k := some new) (by rw [h2]; omega)
        (by intro j _ h; omega)
      exact ⟨this.1, fun j hj => this.2 j (by omega)⟩
    have e1 : (writeAt (L m).data 0 (u32le 1)).length = 82 := by
      rw [(sameExcept_writeAt (by simp; omega)).1, h2]
    refine ⟨h1, h2, h3, h6, ho, h5.2, ?_, ?_, ?_, ?_, ?_⟩
    · simp only [Ledger.setData_same]
      rw [packKey, readU32_writeAt_apart (by rw [hk, e1]; omega) (by unfold Apart; omega)]
      exact readU32_writeAt_same (by omega)
    · simp only [Ledger.setData_same]
      exact readKey_writeAt_same (by rw [e1]; omega)
    · simpa using hw
    · simp
    · intro k hk; exact Ledger.setData_other _ _ hk

/-! ### The scripts -/

theorem updateMintAuthority_iff {a : Pubkey} {s : Scripts.TokenSent} : Scripts.updateMintAuthority cr a = some s ↔
    ∃ st, (∃ b, StateAddr cr st b) ∧ s = ⟨.setAuthority XORCA_MINT_ID .mintTokens (some st) a [], a, none⟩ := by
  unfold Scripts.updateMintAuthority
  simp only [optBind_some, stateAccount_iff, skey_xorca, Option.some.injEq, exists_eq_left', eq_comm (a := s)]

theorem splAmount_iff {k : Pubkey} {n : UInt64} : Scripts.splAmount L k = some n ↔
    (L k).lamports ≠ 0 ∧ (L k).owner = SPL_TOKEN_PROGRAM_ID ∧ (L k).data.length = 165 ∧ n = readU64 (L k).data 64 := by
  unfold Scripts.splAmount
  simp only [optBind_some, skey_token, Option.some.injEq, exists_eq_left', getAccount_some]
  constructor
  · rintro ⟨a, ⟨h1, rfl⟩, h2⟩
    split at h2
    · next hc =>
      simp only [Option.some.injEq] at h2
      exact ⟨h1, hc.1, hc.2, h2.symm⟩
    · cases h2
  · rintro ⟨h1, h2, h3, rfl⟩
    exact ⟨_, ⟨h1, rfl⟩, by rw [if_pos ⟨h2, h3⟩]; rfl⟩

theorem splAmount_balance {k : Pubkey} {n : UInt64} (h : Scripts.splAmount L k = some n) : n.toNat = balance L k := by
  obtain ⟨_, _, _, rfl⟩ := splAmount_iff.1 h; rfl

theorem ataOnCurve_iff {m u k : Pubkey} : Scripts.ataOnCurve cr m u = some k ↔
    cr.onCurve u = true ∧ ∃ b, findProgramAddress cr [u.bytes, SPL_TOKEN_PROGRAM_ID.bytes, m.bytes]
      Xorca.ASSOCIATED_TOKEN_PROGRAM_ID = some (k, b) := by
  unfold Scripts.ataOnCurve
  split
  · next h => rw [ataOf_iff]; simp [h]
  · next h => simp [h]

theorem amountField_eq {lib : Int → Option UInt64} {i : Int} {n : UInt64} (h : Scripts.amountField lib i = some n)
    (h0 : 0 ≤ i) (h1 : i < 2 ^ 64) : (n.toNat : Int) = i := by
  unfold Scripts.amountField at h
  rw [if_pos ⟨h0, h1⟩, Option.some.injEq] at h
  subst h
  rw [UInt64.toNat_ofNat_of_lt' (show i.toNat < 2 ^ 64 by omega)]
  omega

theorem amountField_of {lib : Int → Option UInt64} {n : UInt64} : Scripts.amountField lib (n.toNat : Int) = some n := by
  unfold Scripts.amountField
  have := n.toNat_lt
  rw [if_pos ⟨by omega, by omega⟩, Int.toNat_natCast, UInt64.ofNat_toNat]

theorem transferOrcaToVault_iff {lib : Int → Option UInt64} {u : Pubkey} {t : List Char} {s : Scripts.TokenSent}
    {before : UInt64} : Scripts.transferOrcaToVault cr L lib u t = some (s, before) ↔
    ∃ a st v oa sb n, Scripts.parseInt true t = some a ∧ (∃ b, StateAddr cr st b) ∧ (∃ b, VaultAddr cr st v b) ∧
      Scripts.ataOnCurve cr ORCA_MINT_ID u = some oa ∧ Scripts.splAmount L oa = some sb ∧ ¬ (sb.toNat : Int) < a ∧
      Scripts.splAmount L v = some before ∧ Scripts.amountField lib a = some n ∧
      s = ⟨.transfer oa v u [] n none, u, none⟩ := by
  unfold Scripts.transferOrcaToVault
  simp only [optBind_some, stateAccount_iff, vaultAccount_iff, skey_orca, Option.some.injEq, exists_eq_left',
    ite_none_some, Prod.mk.injEq]
  constructor
  · rintro ⟨a, h1, st, h2, v, h3, oa, h4, sb, h5, h6, vb, h7, n, h8, h9, rfl⟩
    exact ⟨a, st, v, oa, sb, n, h1, h2, h3, h4, h5, h6, h7, h8, h9.symm⟩
  · rintro ⟨a, st, v, oa, sb, n, h1, h2, h3, h4, h5, h6, h7, h8, h9⟩
    exact ⟨a, h1, st, h2, v, h3, oa, h4, sb, h5, h6, before, h7, n, h8, h9.symm, rfl⟩

theorem transferOrca_iff {lib : Int → Option UInt64} {u w : Pubkey} {a : Int} {s : Scripts.TokenSent}
    {sb rb : UInt64} : Scripts.transferOrca cr L lib u w a = some (s, sb, rb) ↔
    ∃ oa ra n, Scripts.ataOnCurve cr ORCA_MINT_ID u = some oa ∧ Scripts.ataOnCurve cr ORCA_MINT_ID w = some ra ∧
      Scripts.tokenAmount L oa = some sb ∧ ¬ (sb.toNat : Int) < a ∧
      Scripts.balanceOrZero L ra = some rb ∧
      Scripts.amountField lib a = some n ∧
      s = ⟨.transfer oa ra u [] n none, u, if (getAccount L ra).isNone then some w else none⟩ := by
  unfold Scripts.transferOrca
  simp only [optBind_some, skey_orca, Option.some.injEq, exists_eq_left', ite_none_some, Prod.mk.injEq]
  constructor
  · rintro ⟨oa, h1, ra, h2, sb, h3, h4, rb, h5, n, h6, h7, rfl, rfl⟩
    exact ⟨oa, ra, n, h1, h2, h3, h4, h5, h6, h7.symm⟩
  · rintro ⟨oa, ra, n, h1, h2, h3, h4, h5, h6, h7⟩
    exact ⟨oa, h1, ra, h2, sb, h3, h4, rb, h5, n, h6, h7.symm, rfl, rfl⟩

theorem off_curve {seeds : List Bytes} {p k u : Pubkey} {b : UInt8} (h : findProgramAddress cr seeds p = some (k, b))
    (hu : cr.onCurve u = true) : u ≠ k := by
  rintro rfl
  have := (findProgramAddress_some h).2
  rw [hu] at this; cases this

/-- Only the sender signs, and the sender is no state address. -/
theorem signer_notPool {u : Pubkey} (hu : cr.onCurve u = true) : NotPool cr (fun k => decide (k = u)) := by
  intro k b h
  have := off_curve h hu
  simp [this.symm]

/-- The two instructions together: a new account of `w` is empty. -/
structure Funded (L L1 : Ledger) (ra w : Pubkey) : Prop where
  fresh : (L ra).data = []
  made : (L1 ra).owner = SPL_TOKEN_PROGRAM_ID ∧ balance L1 ra = 0 ∧ ownerOf L1 ra = w ∧ mintOf L1 ra = ORCA_MINT_ID
  other : ∀ k, k ≠ ra → (L1 k).data = (L k).data ∧ (L1 k).owner = (L k).owner

theorem runSent_none {ix : TokenIx} {u : Pubkey} : Scripts.runSent x L ⟨ix, u, none⟩ =
    tokenExec x.rentMin (fun k => decide (k = u)) L ix := rfl

theorem runSent_some {ix : TokenIx} {u w ra : Pubkey} {b : UInt8}
    (hra : findProgramAddress x.cr [w.bytes, SPL_TOKEN_PROGRAM_ID.bytes, ORCA_MINT_ID.bytes]
      ASSOCIATED_TOKEN_PROGRAM_ID = some (ra, b)) (hu : x.cr.onCurve u = true)
    (h : Scripts.runSent x L ⟨ix, u, some w⟩ = .ok L') :
    ∃ L1, Funded L L1 ra w ∧ tokenExec x.rentMin (fun k => decide (k = u)) L1 ix = .ok L' := by
  unfold Scripts.runSent Scripts.createAta at h
  simp only [Option.elim_some, bind_eq_ok, exists_unit, okOr_eq_ok, ensure_eq_ok, Prod.exists] at h
  obtain ⟨L1, ⟨k, b', hk, ho, hc⟩, h⟩ := h
  have hk' : findProgramAddress x.cr [w.bytes, SPL_TOKEN_PROGRAM_ID.bytes, ORCA_MINT_ID.bytes]
      ASSOCIATED_TOKEN_PROGRAM_ID = some (k, b') := hk
  rw [hra, Option.some.injEq, Prod.mk.injEq] at hk'
  obtain ⟨rfl, rfl⟩ := hk'
  have hne := off_curve hra hu
  obtain ⟨e, -, -⟩ := cpiCreateAtaIdempotent_eff hne ho hc
  refine ⟨L1, ⟨e.fresh, ?_, ?_⟩, h⟩
  · obtain ⟨v, hv, -⟩ := e.created
    obtain ⟨f1, f2, f3, f4, -⟩ := freshToken_fields (m := ORCA_MINT_ID) (o := w)
    unfold balance ownerOf mintOf
    rw [hv]
    exact ⟨rfl, by rw [f4]; rfl, f3, f2⟩
  · intro k hk
    by_cases hf : k = u
    · subst hf
      obtain ⟨v, hv, -⟩ := e.paid
      rw [hv]; exact ⟨rfl, rfl⟩
    · rw [e.other k hf hk]; exact ⟨rfl, rfl⟩

/-! ### The mint stays with the pool -/

theorem poolMint_step {e : Entry} (ok : e.Ok cr) (i : Inv cr e.pre) (hm : PoolMint cr (e.pre XORCA_MINT_ID)) :
    PoolMint cr (e.post XORCA_MINT_ID) := by
  have key : ∀ st v, Pool cr e.pre st v → PoolMint cr (e.post XORCA_MINT_ID) :=
    fun st v p => ((ok.inv i).2 st v p).mint
  cases ok with
  | env s => exact (s.poolMint hm).1
  | @call x accs ix logs L L' hcr hrent hs hr =>
    subst hcr
    have hd := hr.dispatch
    simp only at i hm key ⊢
    cases ix with
    | Stake a => obtain ⟨s, v, oa, xa, xm, st, om, tp, L1, m, r, f, p, _⟩ := i.stake hs hd; exact key _ _ p
    | Unstake a ixx =>
      obtain ⟨u, st, pw, xa, xm, om, v, sp, tp, L1, L3, w, e, ts, b, r, f, p, _⟩ := i.unstake hrent hs hd
      exact key _ _ p
    | Withdraw ixx =>
      obtain ⟨u, st, pw, oa, v, om, sp, tp, L1, L2, e, r, f, p, _⟩ := i.withdraw hs hd
      exact key _ _ p
    | Initialize c =>
      obtain ⟨p, au, st, v, xm, om, sp, tp, ap, L1, b, vb, r, f, hbl, p', _⟩ := i.initialize hrent hs hd
      exact p'.mint
    | Set ins => obtain ⟨a, st, v, r, p, _⟩ := i.set hd; exact key _ _ p

theorem poolMint_path {h : List Entry} (hp : Path cr L h L') (i : Inv cr L) (hm : PoolMint cr (L XORCA_MINT_ID)) :
    PoolMint cr (L' XORCA_MINT_ID) := by
  induction hp with
  | nil => exact hm
  | step q ok ih => exact poolMint_step ok (q.inv i).1 ih

/-! ### Hexadecimal text -/

theorem bufferFromHex_append {r : List Char} : ∀ {n : Nat} {t : List Char}, t.length = 2 * n →
    (∀ c ∈ t, Scripts.isHex c = true) → Scripts.bufferFromHex (t ++ r) = Scripts.bufferFromHex t ++ Scripts.bufferFromHex r ∧
      (Scripts.bufferFromHex t).length = n
  | 0, t, h, _ => by
    have : t = [] := List.length_eq_zero_iff.1 (by omega)
    subst this
    exact ⟨by simp [Scripts.bufferFromHex], by simp [Scripts.bufferFromHex]⟩
  | n + 1, [], h, _ => by simp at h
  | n + 1, [_], h, _ => by simp at h; omega
  | n + 1, a :: b :: t, h, hx => by
    obtain ⟨h1, h2⟩ := bufferFromHex_append (r := r) (n := n) (t := t) (by simp at h; omega)
      (fun c hc => hx c (by simp [hc]))
    have hc : Scripts.isHex a = true ∧ Scripts.isHex b = true := ⟨hx a (by simp), hx b (by simp)⟩
    simp only [List.cons_append, Scripts.bufferFromHex]
    rw [if_pos hc, if_pos hc, h1]
    exact ⟨by simp, by simp [h2]⟩

/-- Text that is no pair of digits ends the reading. -/
theorem bufferFromHex_stop {r : List Char} (h : ∀ a ∈ r.head?, Scripts.isHex a = false) : Scripts.bufferFromHex r = [] := by
  match r with
  | [] => rfl
  | [_] => rfl
  | a :: b :: r =>
    have := h a (by simp)
    simp [Scripts.bufferFromHex, this]

end Xorca
