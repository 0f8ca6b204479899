import Verif.Lemmas.TokenScripts
import Verif.Lemmas.DemoTokenScripts
import Verif.Props.Init
import Verif.Props.Scripts
/-
C80 to C84: the scripts that call the token program.
-/
namespace Xorca
open Spec

variable {cr : Crypto} {x : Ctx} {L L' : Ledger} {lib : Int → Option UInt64}

/-! ### C80: handing the xORCA mint to the pool -/

/-- `update-xorca-mint-authority.ts` sends one instruction, signed by the given authority only: the mint authority of
xORCA becomes the state address. -/
theorem C80_sent {a : Pubkey} {s : Scripts.TokenSent} (h : Scripts.updateMintAuthority cr a = some s) :
    ∃ st, (∃ b, StateAddr cr st b) ∧ s = ⟨.setAuthority XORCA_MINT_ID .mintTokens (some st) a [], a, none⟩ :=
  updateMintAuthority_iff.1 h

example : ∃ st, (∃ b, StateAddr Demo.cr st b) ∧
    Demo.sentMint = ⟨.setAuthority XORCA_MINT_ID .mintTokens (some st) Demo.US [], Demo.US, none⟩ :=
  C80_sent Demo.sentMint_eq

/-- Executed, it takes effect only if the signer was the mint authority; then the state address is, and nothing else
has changed: not the supply, not the freeze authority, no other account. -/
theorem C80_effect {a st : Pubkey} {b : UInt8} {s : Scripts.TokenSent} (h : Scripts.updateMintAuthority cr a = some s)
    (hst : StateAddr cr st b) (hrun : Scripts.runSent x L s = .ok L') :
    readU32 (L XORCA_MINT_ID).data 0 = 1 ∧ readKey (L XORCA_MINT_ID).data 4 = a ∧
      readU32 (L' XORCA_MINT_ID).data 0 = 1 ∧ readKey (L' XORCA_MINT_ID).data 4 = st ∧
      SameExcept 0 36 (L XORCA_MINT_ID).data (L' XORCA_MINT_ID).data ∧
      supply L' XORCA_MINT_ID = supply L XORCA_MINT_ID ∧
      (L' XORCA_MINT_ID).owner = (L XORCA_MINT_ID).owner ∧ (L' XORCA_MINT_ID).lamports = (L XORCA_MINT_ID).lamports ∧
      ∀ k, k ≠ XORCA_MINT_ID → L' k = L k := by
  obtain ⟨st', ⟨b', h1⟩, rfl⟩ := updateMintAuthority_iff.1 h
  obtain ⟨rfl, -⟩ := stateAddr_unique h1 hst
  have e := setMintAuthority_eff (runSent_none ▸ hrun)
  refine ⟨e.flag, e.auth, e.flag', e.auth', e.data, ?_, e.mint.1, e.mint.2, e.other⟩
  unfold supply readU64
  rw [e.data.slice (Or.inr (by omega))]

example : readKey (Demo.H0 XORCA_MINT_ID).data 4 = Demo.US ∧ readKey (Demo.H1 XORCA_MINT_ID).data 4 = Demo.ST :=
  have h := C80_effect Demo.sentMint_eq Demo.st_addr Demo.runH1
  ⟨h.2.1, h.2.2.2.1⟩

/-- If the signer is the mint authority (and no multisig), it succeeds. -/
theorem C80_succeeds {a : Pubkey} {s : Scripts.TokenSent} (h : Scripts.updateMintAuthority cr a = some s)
    (hm : MintOk L XORCA_MINT_ID) (hf : readU32 (L XORCA_MINT_ID).data 0 = 1) (ha : readKey (L XORCA_MINT_ID).data 4 = a)
    (hz : readU32 (L XORCA_MINT_ID).data 46 = 0 ∨ readU32 (L XORCA_MINT_ID).data 46 = 1) (hn : NotMultisig L a) :
    ∃ L', Scripts.runSent x L s = .ok L' := by
  obtain ⟨st, _, rfl⟩ := updateMintAuthority_iff.1 h
  rw [runSent_none]
  simp only [tokenExec]
  rw [if_neg (by rw [hm.len]; decide)]
  unfold tokSetMintAuthority needMint
  simp only [bind_eq_ok, exists_unit, ensure_eq_ok, unpackMint_ok]
  refine ⟨_, _, ⟨hm.prog, hm.len, hm.init, rfl, Or.inr hf, hz⟩, hf, ?_, rfl⟩
  have : (tokenMintAt (L XORCA_MINT_ID).data true).mintAuthority = a := ha
  rw [this]
  exact checkOwner_of (by simp) hn

example : ∃ L', Scripts.runSent (Demo.ctx 5) Demo.H0 Demo.sentMint = .ok L' :=
  C80_succeeds Demo.sentMint_eq ⟨by decide +kernel, by decide +kernel, by decide +kernel⟩ (by decide +kernel)
    (by decide +kernel) (by decide +kernel) (by unfold NotMultisig; decide +kernel)

/-- The script reports success exactly if the state address is the mint authority. -/
theorem C80_report {st : Pubkey} {b : UInt8} {ok : Bool} (hst : StateAddr cr st b)
    (h : Scripts.mintAuthorityReport cr L = some ok) :
    ok = true ↔ readU32 (L XORCA_MINT_ID).data 0 = 1 ∧ readKey (L XORCA_MINT_ID).data 4 = st := by
  unfold Scripts.mintAuthorityReport at h
  simp only [optBind_some, stateAccount_iff, skey_xorca, skey_token, Option.some.injEq, exists_eq_left',
    getAccount_some] at h
  obtain ⟨st', ⟨b', h1⟩, a, ⟨_, rfl⟩, h⟩ := h
  obtain ⟨rfl, -⟩ := stateAddr_unique h1 hst
  split at h
  · simp only [optBind_some, orNone_some, Option.some.injEq, unpackMint_ok] at h
    obtain ⟨m, ⟨_, _, rfl, _⟩, rfl⟩ := h
    rw [decide_eq_true_iff]; rfl
  · cases h

example : Scripts.mintAuthorityReport Demo.cr Demo.H1 = some true ∧
    Scripts.mintAuthorityReport Demo.cr Demo.H0 = some false := by decide +kernel

/-- An untouched mint is then as Initialize wants it. -/
theorem C80_ready {a st : Pubkey} {b : UInt8} {s : Scripts.TokenSent} (h : Scripts.updateMintAuthority cr a = some s)
    (hst : StateAddr cr st b) (hrun : Scripts.runSent x L s = .ok L')
    (h0 : supply L XORCA_MINT_ID = 0) (hd : readU8 (L XORCA_MINT_ID).data 44 = 6)
    (hf : readU32 (L XORCA_MINT_ID).data 46 = 0) (hk : readKey (L XORCA_MINT_ID).data 50 = DEFAULT_PUBKEY) :
    FreshMint L' st := by
  obtain ⟨st', ⟨b', h1⟩, rfl⟩ := updateMintAuthority_iff.1 h
  obtain ⟨rfl, -⟩ := stateAddr_unique h1 hst
  have e := setMintAuthority_eff (runSent_none ▸ hrun)
  refine ⟨⟨e.mint.1.trans e.prog, e.data.1.trans e.len, ?_⟩, e.flag', e.auth', ?_, ?_, ?_, ?_⟩
  · rw [readU8_congr (e.data.2 45 (Or.inr (by omega)))]; exact e.init
  · unfold supply readU64
    rw [e.data.slice (Or.inr (by omega))]; exact h0
  · rw [readU8_congr (e.data.2 44 (Or.inr (by omega)))]; exact hd
  · rw [readU32, e.data.slice (Or.inr (by omega))]; exact hf
  · rw [readKey, e.data.slice (Or.inr (by omega))]; exact hk

example : FreshMint Demo.H1 Demo.ST :=
  C80_ready Demo.sentMint_eq Demo.st_addr Demo.runH1 (by decide +kernel) (by decide +kernel) (by decide +kernel)
    (by decide +kernel)

/-- It cannot be undone: once the state address is the mint authority (and there is no freeze authority), it stays so
through every sequence of calls and steps of others, whether the program is initialised or not. -/
theorem C80_permanent {h : List Entry} {st : Pubkey} {b : UInt8} (hr : Reachable cr L) (hs : Steady cr L)
    (hst : StateAddr cr st b) (hm : PoolMint cr (L XORCA_MINT_ID)) (hw : World cr L h L') :
    readU32 (L' XORCA_MINT_ID).data 0 = 1 ∧ readKey (L' XORCA_MINT_ID).data 4 = st ∧
      readU32 (L' XORCA_MINT_ID).data 46 = 0 := by
  have p := poolMint_path (world_path hs hw).1 hr.inv hm
  obtain ⟨b', h1⟩ := p.auth
  exact ⟨p.flag, (stateAddr_unique h1 hst).1, p.freeze⟩

example : readKey (Demo.L4 XORCA_MINT_ID).data 4 = Demo.ST :=
  (C80_permanent Demo.reach0 Demo.steady0 Demo.st_addr Demo.poolMint0 Demo.world4).2.1

/-! ### C81: a blocked deployment takes the mint with it -/

/-- If the mint has been handed over, the program is not initialised, and the vault exists already (C56: anyone can bring
that about), then no xORCA is ever minted again and the mint never gets another authority. -/
theorem C81_mint_lost {st v : Pubkey} {b vb : UInt8} {h : List Entry} (hr : Reachable cr L)
    (hno : ∀ k, ¬ Initialised cr L k) (hst : StateAddr cr st b) (hv : VaultAddr cr st v vb)
    (ht : PoolToken cr (L v)) (hm : PoolMint cr (L XORCA_MINT_ID)) (hp : Path cr L h L') :
    supply L' XORCA_MINT_ID ≤ supply L XORCA_MINT_ID ∧
      readU32 (L' XORCA_MINT_ID).data 0 = 1 ∧ readKey (L' XORCA_MINT_ID).data 4 = st := by
  have hall := (C56_blocked_forever hr hno hst hv ht hp).1
  have key : PoolMint cr (L' XORCA_MINT_ID) ∧ supply L' XORCA_MINT_ID ≤ supply L XORCA_MINT_ID := by
    clear hst hv ht
    induction hp with
    | nil => exact ⟨hm, Nat.le_refl _⟩
    | @step h e q ok ih =>
      obtain ⟨i1, i2⟩ := ih (fun f hf => hall f (List.mem_cons_of_mem _ hf))
      have he := hall e (List.mem_cons_self ..)
      cases ok with
      | env s => exact ⟨(s.poolMint i1).1, Nat.le_trans (s.mint i1).2.2 i2⟩
      | call => cases he
  obtain ⟨b', h1⟩ := key.1.auth
  exact ⟨key.2, key.1.flag, (stateAddr_unique h1 hst).1⟩

/-- Right after the mint was handed over, one call of the associated token program by anyone brings that about: there
will never be any xORCA. -/
theorem C81_anyone {st v f : Pubkey} {b vb : UInt8} (hr : Reachable cr L) (hx : x.cr = cr)
    (hno : ∀ k, ¬ Initialised cr L k) (hst : StateAddr cr st b) (hv : VaultAddr cr st v vb)
    (bv : Blank (L v)) (hxm : FreshMint L st) (hom : OrcaMint L) (bf : Blank (L f)) (hf : f ≠ v)
    (hpay : max 1 (x.rentMin 165).toNat ≤ (L f).lamports.toNat + (L v).lamports.toNat) :
    ∃ L1, EnvStep cr L L1 ∧ ∀ h L', Path cr L1 h L' → supply L' XORCA_MINT_ID = 0 ∧
      readU32 (L' XORCA_MINT_ID).data 0 = 1 ∧ readKey (L' XORCA_MINT_ID).data 4 = st := by
  obtain ⟨L1, h1, es, hall⟩ := C56_anyone_can_block hr hx hno hst hv bv hxm hom bf hf hpay
  subst hx
  have e := (cpiCreateAtaIdempotent_eff hf bv.1 h1).1
  have hm : PoolMint x.cr (L XORCA_MINT_ID) :=
    ⟨hxm.ok.prog, hxm.ok.len, hxm.ok.init, hxm.flag, ⟨b, by rw [hxm.auth]; exact hst⟩, hxm.freeze⟩
  have hr1 : Reachable x.cr L1 := by
    obtain ⟨h0, L0, g, p⟩ := hr
    exact ⟨_, L0, g, .step (e := ⟨L, .env, L1⟩) p (.env es)⟩
  have hno1 := (hall [] L1 .nil).2
  have ht : PoolToken x.cr (L1 v) := by
    obtain ⟨l, hl, -⟩ := e.created
    obtain ⟨f1, f2, f3, f4, f5, f6, f7, f8⟩ := freshToken_fields ORCA_MINT_ID st
    rw [hl]
    exact ⟨rfl, f1, Or.inl f6, by rw [f3]; exact ⟨b, hst⟩, f5, f7, f8⟩
  refine ⟨L1, es, fun h L' hp => ?_⟩
  obtain ⟨r1, r2⟩ := C81_mint_lost hr1 hno1 hst hv ht (es.poolMint hm).1 hp
  have h0 := (es.mint hm).2.2
  have hz := hxm.supply
  exact ⟨by omega, r2⟩

/-- The demo chain before Initialize. -/
theorem C81_witness : ∃ V0, EnvStep Demo.cr Demo.L0 V0 ∧ ∀ h L', Path Demo.cr V0 h L' → supply L' XORCA_MINT_ID = 0 := by
  obtain ⟨V0, h1, h2⟩ := C81_anyone (x := Demo.ctx 999) (f := Demo.US) Demo.reach0 rfl Demo.not_init0
    Demo.st_addr Demo.va_addr
    ⟨by decide +kernel, by decide +kernel⟩ Demo.freshMint0 Demo.orcaMint0 ⟨by decide +kernel, by decide +kernel⟩
    (by decide +kernel) (by decide +kernel)
  exact ⟨V0, h1, fun h L' p => (h2 h L' p).1⟩

/-! ### C82: sending ORCA to the vault -/

/-- `transfer-orca-to-vault.ts` sends one transfer, signed by the sender only, from the sender's associated account to
the vault, of the number read from its argument, which is no more than the balance it saw.  (A negative number passes
the check; what becomes of it is up to the library.) -/
theorem C82_sent {u : Pubkey} {t : List Char} {s : Scripts.TokenSent} {before : UInt64}
    (h : Scripts.transferOrcaToVault cr L lib u t = some (s, before)) :
    ∃ (a : Int) (st v oa : Pubkey) (n : UInt64), Scripts.parseInt true t = some a ∧ (∃ b, StateAddr cr st b) ∧
      (∃ b, VaultAddr cr st v b) ∧ (∃ b, AtaAddr cr u ORCA_MINT_ID oa b) ∧ a ≤ balance L oa ∧
      before.toNat = balance L v ∧ s = ⟨.transfer oa v u [] n none, u, none⟩ ∧ (0 ≤ a → (n.toNat : Int) = a) := by
  obtain ⟨a, st, v, oa, sb, n, h1, h2, h3, h4, h5, h6, h7, h8, h9⟩ := transferOrcaToVault_iff.1 h
  have e := splAmount_balance h5
  have := sb.toNat_lt
  exact ⟨a, st, v, oa, n, h1, h2, h3, (ataOnCurve_iff.1 h4).2, by omega, splAmount_balance h7, h9,
    fun h0 => amountField_eq h8 h0 (by omega)⟩

/-- Executed, the vault gains exactly that amount and the sender's account loses it; the supply of xORCA, the amount owed
to pending withdrawals and the data of every other account stay as they are.  It is a step of the rest of the chain (C77),
so everything proved about histories applies. -/
theorem C82_effect {u st v : Pubkey} {b : UInt8} {t : List Char} {s : Scripts.TokenSent} {before : UInt64}
    (hr : Reachable cr L) (hi : Initialised cr L st) (hv : VaultAddr cr st v b) (hx : ∀ n, x.rentMin n ≠ 0)
    (h : Scripts.transferOrcaToVault cr L lib u t = some (s, before)) (hrun : Scripts.runSent x L s = .ok L') :
    ∃ (n : UInt64) (oa : Pubkey), s.ix = .transfer oa v u [] n none ∧ oa ≠ v ∧ balance L' v = balance L v + n.toNat ∧
      balance L oa = balance L' oa + n.toNat ∧ backing L' v st = backing L v st + n.toNat ∧
      supply L' XORCA_MINT_ID = supply L XORCA_MINT_ID ∧ escrow L' st = escrow L st ∧
      (∀ k, k ≠ oa → k ≠ v → (L' k).data = (L k).data) ∧ Outside cr L L' := by
  obtain ⟨a, st', v', oa, sb, n, h1, ⟨b1, h2⟩, ⟨b2, h3⟩, h4, h5, h6, h7, h8, rfl⟩ := transferOrcaToVault_iff.1 h
  obtain ⟨b0, h0⟩ := hi.1
  obtain ⟨rfl, -⟩ := stateAddr_unique h2 h0
  obtain ⟨rfl, -⟩ := vaultAddr_unique h3 hv
  obtain ⟨w, p⟩ := hr.inv.ofInitialised hi
  obtain ⟨rfl, -⟩ := vaultAddr_unique p.v_addr hv
  obtain ⟨hu, bo, ho⟩ := ataOnCurve_iff.1 h4
  rw [runSent_none] at hrun
  have e := tokTransfer_eff (show tokTransfer _ L oa w u [] n none = .ok L' from hrun)
  have hne : oa ≠ w := by
    rintro rfl
    rcases e.by_ with h | ⟨h, _⟩
    · rw [p.v_owner] at h
      exact off_curve h0 hu h.symm
    · rw [p.v_tok.delegate] at h; cases h
  have hmo : XORCA_MINT_ID ≠ oa ∧ XORCA_MINT_ID ≠ w := by
    constructor <;> rintro rfl
    · have := p.mint.len; rw [e.len.1] at this; cases this
    · have := p.mint.len; rw [e.len.2] at this; cases this
  have hso : st' ≠ oa ∧ st' ≠ w := by
    constructor <;> rintro rfl
    · exact token_ne_program (e.prog.1.symm.trans p.prog)
    · exact token_ne_program (e.prog.2.symm.trans p.prog)
  have hs : supply L' XORCA_MINT_ID = supply L XORCA_MINT_ID := by unfold supply; rw [e.other _ hmo.1 hmo.2]
  have hes : escrow L' st' = escrow L st' := by unfold escrow; rw [e.other _ hso.1 hso.2]
  have hb := e.credit hne
  have hbk := p.backed
  refine ⟨n, oa, rfl, hne, hb, e.debit hne, ?_, hs, hes, e.other, .token hx (signer_notPool hu) hrun⟩
  unfold backing
  rw [hes, hb]; omega

example : ∃ (n : UInt64) (oa : Pubkey), Demo.sentVault.1.ix = .transfer oa Demo.VA Demo.US [] n none ∧
    balance Demo.V5 Demo.VA = balance Demo.S4 Demo.VA + n.toNat := by
  obtain ⟨n, oa, h1, _, h2, _⟩ := C82_effect Demo.reachS4 Demo.initS4 Demo.va_addr Demo.rent_ne Demo.sentVault_eq Demo.runV5
  exact ⟨n, oa, h1, h2⟩
example : balance Demo.V5 Demo.VA = balance Demo.S4 Demo.VA + 300000 := by decide +kernel

/-- A price can only rise by it. -/
theorem C82_price {u st v : Pubkey} {b : UInt8} {t : List Char} {s : Scripts.TokenSent} {before : UInt64}
    (hr : Reachable cr L) (hi : Initialised cr L st) (hv : VaultAddr cr st v b) (hx : ∀ n, x.rentMin n ≠ 0)
    (h : Scripts.transferOrcaToVault cr L lib u t = some (s, before)) (hrun : Scripts.runSent x L s = .ok L') (q : Nat) :
    redeemFor q (backing L v st) (supply L XORCA_MINT_ID) ≤ redeemFor q (backing L' v st) (supply L' XORCA_MINT_ID) := by
  obtain ⟨n, oa, _, _, _, _, h1, h2, _⟩ := C82_effect hr hi hv hx h hrun
  rw [h1, h2]
  unfold redeemFor
  exact Nat.div_le_div_right (Nat.mul_le_mul_left _ (by omega))

example := C82_price Demo.reachS4 Demo.initS4 Demo.va_addr Demo.rent_ne Demo.sentVault_eq Demo.runV5 600000
example : redeemFor 600000 (backing Demo.S4 Demo.VA Demo.ST) (supply Demo.S4 XORCA_MINT_ID) <
    redeemFor 600000 (backing Demo.V5 Demo.VA Demo.ST) (supply Demo.V5 XORCA_MINT_ID) := by decide +kernel

/-- It works whenever it should: with an ordinary account and vault and an amount that is there, the script sends, and
the chain executes. -/
theorem C82_succeeds {u st v oa : Pubkey} {b vb ob : UInt8} {t : List Char} {n : UInt64}
    (hst : StateAddr cr st b) (hv : VaultAddr cr st v vb) (hu : cr.onCurve u = true) (ho : AtaAddr cr u ORCA_MINT_ID oa ob)
    (ht : Scripts.parseInt true t = some (n.toNat : Int)) (hoa : TokenOk L oa ORCA_MINT_ID u)
    (hva : TokenOk L v ORCA_MINT_ID st) (hlo : (L oa).lamports ≠ 0) (hlv : (L v).lamports ≠ 0) (hn : n.toNat ≤ balance L oa)
    (hm : NotMultisig L u) (hfit : balance L v + n.toNat < 2 ^ 64) :
    ∃ s before L', Scripts.transferOrcaToVault cr L lib u t = some (s, before) ∧ Scripts.runSent x L s = .ok L' := by
  refine ⟨⟨.transfer oa v u [] n none, u, none⟩, readU64 (L v).data 64, ?_⟩
  obtain ⟨L', h⟩ := tokTransfer_succeeds (sg := fun k => decide (k = u)) (ms := []) hoa hva (by simp) hm hn (fun _ => hfit)
  refine ⟨L', transferOrcaToVault_iff.2 ⟨_, st, v, oa, readU64 (L oa).data 64, n, ht, ⟨b, hst⟩, ⟨vb, hv⟩,
    ataOnCurve_iff.2 ⟨hu, ob, ho⟩, splAmount_iff.2 ⟨hlo, hoa.prog, hoa.len, rfl⟩, ?_,
    splAmount_iff.2 ⟨hlv, hva.prog, hva.len, rfl⟩, amountField_of, rfl⟩, h⟩
  change ¬ ((balance L oa : Nat) : Int) < _
  omega

example : ∃ s before L', Scripts.transferOrcaToVault Demo.cr Demo.S4 lib Demo.US "300000".toList = some (s, before) ∧
    Scripts.runSent (Demo.ctx 5) Demo.S4 s = .ok L' :=
  C82_succeeds (n := 300000) Demo.st_addr Demo.va_addr Demo.us_curve Demo.oa_addr (by decide +kernel)
    ⟨by decide +kernel, by decide +kernel, by decide +kernel, by decide +kernel, by decide +kernel, by decide +kernel,
      by decide +kernel, by decide +kernel, by decide +kernel⟩
    ⟨by decide +kernel, by decide +kernel, by decide +kernel, by decide +kernel, by decide +kernel, by decide +kernel,
      by decide +kernel, by decide +kernel, by decide +kernel⟩ (by decide +kernel) (by decide +kernel) (by decide +kernel)
    (by unfold NotMultisig; decide +kernel) (by decide +kernel)

/-- The text gives exactly its number up to 2^53. -/
theorem C82_amount_text {n : Nat} (h : n ≤ 2 ^ 53) : Scripts.parseInt true (toString n).toList = some (n : Int) := by
  rw [parseInt_toString, toNumber_small (by simpa using h)]

/-- Not every text does: larger numbers are rounded, an exponent or a comma ends the number. -/
theorem C82_amount_text_wrong : Scripts.parseInt true "9007199254740993".toList = some 9007199254740992 ∧
    Scripts.parseInt true "1e6".toList = some 1 ∧ Scripts.parseInt true "1,000,000".toList = some 1 ∧
    Scripts.parseInt true "0x10".toList = some 16 := by decide +kernel

example : Scripts.parseInt true (toString 300000).toList = some 300000 := C82_amount_text (by decide)

/-- The number printed as "Vault received" is the growth of the vault plus the amount once more: after the transfer alone
it is twice the amount, so it is right only for 0. -/
theorem C82_received_doubled {v : Pubkey} {before after : UInt64} {a : Int} (h1 : before.toNat = balance L v)
    (h2 : after.toNat = balance L' v) (h : (balance L' v : Int) = balance L v + a) :
    Scripts.vaultReceived after before a = 2 * a ∧
      (Scripts.vaultReceived after before a = (balance L' v : Int) - balance L v ↔ a = 0) := by
  unfold Scripts.vaultReceived
  rw [h1, h2]
  constructor <;> omega

/-- 300000 sent, 600000 reported. -/
theorem C82_received_witness : balance Demo.V5 Demo.VA = balance Demo.S4 Demo.VA + 300000 ∧
    Scripts.vaultReceived (readU64 (Demo.V5 Demo.VA).data 64) Demo.sentVault.2 300000 = 600000 := by decide +kernel

example := C82_received_doubled (L := Demo.S4) (L' := Demo.V5) (v := Demo.VA) (before := Demo.sentVault.2)
  (after := readU64 (Demo.V5 Demo.VA).data 64) (a := 300000) (by decide +kernel) rfl (by decide +kernel)

/-! ### C83: sending ORCA to somebody -/

/-- `transfer-orca.ts` sends one transfer between the associated accounts, signed by the sender only, and creates the
recipient's account before exactly if it is missing; the recipient is never a state address. -/
theorem C83_sent {u w : Pubkey} {a : Int} {s : Scripts.TokenSent} {sb rb : UInt64}
    (h : Scripts.transferOrca cr L lib u w a = some (s, sb, rb)) :
    ∃ (oa ra : Pubkey) (n : UInt64), (∃ b, AtaAddr cr u ORCA_MINT_ID oa b) ∧ (∃ b, AtaAddr cr w ORCA_MINT_ID ra b) ∧
      a ≤ balance L oa ∧ sb.toNat = balance L oa ∧ s.ix = .transfer oa ra u [] n none ∧ s.signer = u ∧
      (s.createsFor = some w ↔ (L ra).lamports = 0) ∧ (s.createsFor = none ↔ (L ra).lamports ≠ 0) ∧
      (0 ≤ a → (n.toNat : Int) = a) ∧ ∀ b, ¬ StateAddr cr w b := by
  obtain ⟨oa, ra, n, h1, h2, h3, h4, h5, h6, rfl⟩ := transferOrca_iff.1 h
  have e := tokenAmount_some h3
  have := sb.toNat_lt
  obtain ⟨hw, h2⟩ := ataOnCurve_iff.1 h2
  refine ⟨oa, ra, n, (ataOnCurve_iff.1 h1).2, h2, by omega, e, rfl, rfl, ?_, ?_,
    fun h0 => amountField_eq h6 h0 (by omega), fun b hs => off_curve hs hw rfl⟩
  · rw [← getAccount_isNone]; simp
  · rw [Ne, ← getAccount_isNone]; simp

/-- Executed, between two different accounts exactly that amount moves, and no other token account changes. -/
theorem C83_effect {u w oa ra : Pubkey} {a : Int} {n : UInt64} {s : Scripts.TokenSent} {sb rb : UInt64} (hx : x.cr = cr)
    (h : Scripts.transferOrca cr L lib u w a = some (s, sb, rb)) (hs : s.ix = .transfer oa ra u [] n none)
    (hne : oa ≠ ra) (hrun : Scripts.runSent x L s = .ok L') :
    balance L oa = balance L' oa + n.toNat ∧ balance L' ra = balance L ra + n.toNat ∧ rb.toNat = balance L ra ∧
      ∀ k, k ≠ oa → k ≠ ra → (L' k).data = (L k).data := by
  subst hx
  obtain ⟨oa', ra', n', h1, h2, h3, h4, h5, h6, rfl⟩ := transferOrca_iff.1 h
  simp only [TokenIx.transfer.injEq] at hs
  obtain ⟨rfl, rfl, _, _, rfl, _⟩ := hs
  obtain ⟨hu, bo, ho⟩ := ataOnCurve_iff.1 h1
  obtain ⟨hw, br, hra⟩ := ataOnCurve_iff.1 h2
  unfold Scripts.balanceOrZero at h5
  by_cases hc : (Client.getAccount L ra').isNone = true
  · rw [if_pos hc, Option.some.injEq] at h5
    rw [if_pos hc] at hrun
    obtain ⟨L1, f, hrun⟩ := runSent_some hra hu hrun
    have e := tokTransfer_eff (show tokTransfer _ L1 oa' ra' u [] n' none = .ok L' from hrun)
    have e1 := e.debit hne
    have e2 := e.credit hne
    have b0 : balance L ra' = 0 := by unfold balance; rw [f.fresh]; decide
    have b1 : balance L1 oa' = balance L oa' := by unfold balance; rw [(f.other _ hne).1]
    have b2 := f.made.2.1
    refine ⟨by omega, by omega, by rw [b0, ← h5]; rfl, fun k k1 k2 => ?_⟩
    rw [e.other k k1 k2, (f.other k k2).1]
  · rw [if_neg hc] at h5
    rw [if_neg hc, runSent_none] at hrun
    have e := tokTransfer_eff (show tokTransfer _ L oa' ra' u [] n' none = .ok L' from hrun)
    exact ⟨e.debit hne, e.credit hne, tokenAmount_some h5, e.other⟩

example : balance Demo.S4 Demo.OA = balance Demo.G5 Demo.OA + 1234 ∧ Demo.sentGift.1.createsFor = some DEPLOYER_ADDRESS := by
  decide +kernel

/-- Between two different accounts the script then reports success. -/
theorem C83_report {u w oa ra : Pubkey} {a : Int} {n fs fr : UInt64} {s : Scripts.TokenSent} {sb rb : UInt64}
    (hx : x.cr = cr) (h : Scripts.transferOrca cr L lib u w a = some (s, sb, rb))
    (hs : s.ix = .transfer oa ra u [] n none) (ha : 0 ≤ a) (hne : oa ≠ ra) (hrun : Scripts.runSent x L s = .ok L')
    (hfs : fs.toNat = balance L' oa) (hfr : fr.toNat = balance L' ra) : Scripts.transferReport sb rb fs fr a = true := by
  obtain ⟨e1, e2, e3, _⟩ := C83_effect hx h hs hne hrun
  obtain ⟨oa', ra', n', _, _, _, h4, h5, _, _, _, h8, _⟩ := C83_sent h
  rw [h5] at hs
  simp only [TokenIx.transfer.injEq] at hs
  obtain ⟨rfl, rfl, _, _, rfl, _⟩ := hs
  have := h8 ha
  unfold Scripts.transferReport
  simp only [decide_eq_true_eq]
  rw [hfs, hfr, h4, e3]
  constructor <;> omega

example : Scripts.transferReport Demo.sentGift.2.1 Demo.sentGift.2.2 (readU64 (Demo.G5 Demo.OA).data 64)
    (readU64 (Demo.G5 (match Demo.sentGift.1.ix with | .transfer _ d _ _ _ _ => d | _ => Demo.OA)).data 64) 1234 = true := by
  decide +kernel

/-- Sent to oneself, nothing changes, and the script reports a failure of a transaction that succeeded (unless the
amount is 0). -/
theorem C83_report_self {u oa ra : Pubkey} {a : Int} {n fs fr : UInt64} {s : Scripts.TokenSent} {sb rb : UInt64}
    (h : Scripts.transferOrca cr L lib u u a = some (s, sb, rb)) (hs : s.ix = .transfer oa ra u [] n none)
    (hrun : Scripts.runSent x L s = .ok L') (hfs : fs.toNat = balance L' oa) (hfr : fr.toNat = balance L' ra) :
    L' = L ∧ (Scripts.transferReport sb rb fs fr a = true ↔ a = 0) := by
  obtain ⟨oa', ra', n', h1, h2, h3, h4, h5, h6, rfl⟩ := transferOrca_iff.1 h
  simp only [TokenIx.transfer.injEq] at hs
  obtain ⟨rfl, rfl, _, _, rfl, _⟩ := hs
  rw [h1, Option.some.injEq] at h2
  subst h2
  have hl : ¬ (Client.getAccount L oa').isNone = true := by
    intro hc
    unfold Scripts.tokenAmount at h3
    obtain ⟨b, h, _⟩ := optBind_some.1 h3
    rw [h] at hc; cases hc
  unfold Scripts.balanceOrZero at h5
  rw [if_neg hl] at h5
  rw [if_neg hl, runSent_none] at hrun
  have e := (tokTransfer_eff (show tokTransfer _ L oa' oa' u [] n' none = .ok L' from hrun)).self rfl
  subst e
  have := tokenAmount_some h3
  rw [h3, Option.some.injEq] at h5
  subst h5
  refine ⟨rfl, ?_⟩
  unfold Scripts.transferReport
  simp only [decide_eq_true_eq]
  rw [hfs, hfr, this]
  constructor <;> omega

theorem C83_self_witness : Scripts.transferReport Demo.sentSelf.2.1 Demo.sentSelf.2.2 (readU64 (Demo.G6 Demo.OA).data 64)
    (readU64 (Demo.G6 Demo.OA).data 64) 1234 = false := by decide +kernel

example : Demo.G6 = Demo.S4 := (C83_report_self (oa := Demo.OA) (ra := Demo.OA) (n := 1234)
  (fs := readU64 (Demo.G6 Demo.OA).data 64) (fr := readU64 (Demo.G6 Demo.OA).data 64) Demo.sentSelf_eq
  (by obtain ⟨oa, ra, n, ⟨_, h1⟩, ⟨_, h2⟩, _, _, h3, _, _, _, h4, _⟩ := C83_sent Demo.sentSelf_eq
      have e1 := h1.symm.trans Demo.oa_addr
      have e2 := h2.symm.trans Demo.oa_addr
      simp only [Option.some.injEq, Prod.mk.injEq] at e1 e2
      rw [h3, e1.1, e2.1, show n = 1234 from UInt64.toNat_inj.1 (by have := h4 (by decide); change _ = 1234; omega)])
  Demo.runG6 rfl rfl).1

/-! ### C84: key files from text -/

/-- `generate-keypair.ts` takes 64 hexadecimal digits as 32 bytes, 128 as 64 bytes. -/
theorem C84_digits {t : List Char} (h : ∀ c ∈ t, Scripts.isHex c = true) (hl : t.length = 64 ∨ t.length = 128) :
    Scripts.keypairBytes t = some (Scripts.bufferFromHex t) ∧ 2 * (Scripts.bufferFromHex t).length = t.length := by
  have key : ∀ n, t.length = 2 * n → (Scripts.bufferFromHex t).length = n := fun n hn =>
    (bufferFromHex_append (r := []) hn h).2
  unfold Scripts.keypairBytes
  rcases hl with hl | hl
  · have := key 32 hl
    exact ⟨by simp [this], by omega⟩
  · have := key 64 hl
    exact ⟨by simp [this], by omega⟩

/-- What follows them is ignored from the first character that is no such digit: a mistyped key of more digits is taken
for a shorter one. -/
theorem C84_rest_ignored {t r : List Char} (h : ∀ c ∈ t, Scripts.isHex c = true) (hl : t.length = 64)
    (hr : ∀ c ∈ r.head?, Scripts.isHex c = false) : Scripts.keypairBytes (t ++ r) = Scripts.keypairBytes t := by
  have e := (bufferFromHex_append (r := r) (n := 32) hl h).1
  rw [bufferFromHex_stop hr, List.append_nil] at e
  unfold Scripts.keypairBytes
  rw [e]

example : (Scripts.keypairBytes (List.replicate 64 'a' ++ "g0000000000000000000000000000000000000000000000000000000".toList)).isSome =
    true := by decide +kernel

/-- The example in the script's own usage text is refused: it has 33 bytes. -/
theorem C84_own_example : Scripts.keypairBytes
    "403f4b8c8c8c8c8c8c8c8c8c8c8c8c8c8c8c8c8c8c8c8c8c8c8c8c8c8c8c8c8c8c".toList = none := by decide +kernel

example := C84_digits (t := List.replicate 64 'a') (by decide +kernel) (Or.inl rfl)
example := C84_rest_ignored (t := List.replicate 64 'a') (r := "xyz".toList) (by decide +kernel) rfl (by decide +kernel)

end Xorca
