import Verif.Lemmas.InitOk
import Verif.Lemmas.Demo
/-
C55, C56: when Initialize succeeds, and how others can block it.
-/
namespace Xorca
open Spec

variable {cr : Crypto} {x : Ctx} {L L' : Ledger} {accs : List Meta} {b vb : UInt8}

/-! ### C55: Initialize succeeds when it should -/

/-- On a prepared chain Initialize succeeds, whatever lamports the two new addresses already hold. -/
theorem C55_initialize_succeeds {p au st v xm om sp tp ap : Meta} {c : Int64}
    (hx : x.cr = cr) (hsig : SignersOk cr L accs) (hc : InitCall accs p au st v xm om sp tp ap)
    (hst : StateAddr cr st.key b) (hv : VaultAddr cr st.key v.key vb) (hne : st.key ≠ v.key)
    (bst : Blank (L st.key)) (bv : Blank (L v.key)) (bp : Blank (L p.key))
    (hxm : FreshMint L st.key) (hom : OrcaMint L) (hcool : 0 ≤ c.toInt)
    (hrent : ((x.rentMin 2048).toNat - (L st.key).lamports.toNat) +
      (max 1 (x.rentMin 165).toNat - (L v.key).lamports.toNat) ≤ (L p.key).lamports.toNat) :
    Succeeds x L accs (.Initialize c) := by
  subst hx
  intro data hd
  rw [entry_eq hd]
  exact initialize_succeeds hc hsig hst hv hne bst bv bp hxm hom hcool hrent

/-- The two addresses differ, or SHA-256 maps the two seed strings to the same value. -/
theorem C55_addresses_differ {st v : Pubkey} (hst : StateAddr cr st b) (hv : VaultAddr cr st v vb) :
    st ≠ v ∨ Clash cr (stateHashed b) (vaultHashed st vb) := by
  by_cases h : st = v
  · right
    refine ⟨fun he => ?_, ?_⟩
    · have := congrArg List.length he
      simp [stateHashed, vaultHashed, pdaMarker, st.len, SPL_TOKEN_PROGRAM_ID.len, ORCA_MINT_ID.len,
        PROGRAM_ID.len, ASSOCIATED_TOKEN_PROGRAM_ID.len] at this
    · have h1 := (findProgramAddress_some hst).1
      have h2 := (findProgramAddress_some hv).1
      calc cr.sha256 (stateHashed b) = st := by rw [h1]; rfl
        _ = v := h
        _ = cr.sha256 (vaultHashed st vb) := by rw [h2]; simp [deriveAddress, vaultHashed, pdaMarker, PDA_MARKER]
  · exact Or.inl h

namespace Demo

theorem initCall : InitCall initAccs ⟨DEPLOYER_ADDRESS, true, true⟩ ⟨US, true, true⟩ ⟨ST, false, true⟩
    ⟨VA, false, true⟩ ⟨XORCA_MINT_ID, false, false⟩ ⟨ORCA_MINT_ID, false, false⟩ ⟨SYSTEM_PROGRAM_ID, false, false⟩
    ⟨SPL_TOKEN_PROGRAM_ID, false, false⟩ ⟨ASSOCIATED_TOKEN_PROGRAM_ID, false, false⟩ :=
  ⟨⟨[], rfl⟩, rfl, rfl, rfl, rfl, rfl, rfl, rfl, rfl, rfl, rfl, rfl, rfl⟩

theorem freshMint0 : FreshMint L0 ST :=
  ⟨⟨by decide +kernel, by decide +kernel, by decide +kernel⟩, by decide +kernel, by decide +kernel,
    by decide +kernel, by decide +kernel, by decide +kernel, by decide +kernel⟩

theorem orcaMint0 : OrcaMint L0 :=
  ⟨⟨by decide +kernel, by decide +kernel, by decide +kernel⟩, by decide +kernel, Or.inr (by decide +kernel),
    Or.inl (by decide +kernel)⟩

/-- The chain before deployment meets all conditions. -/
example : Succeeds (ctx 1000) L0 initAccs (.Initialize 100) :=
  C55_initialize_succeeds (cr := Demo.cr) rfl signers1 initCall st_addr va_addr (by decide +kernel)
    ⟨by decide +kernel, by decide +kernel⟩ ⟨by decide +kernel, by decide +kernel⟩
    ⟨by decide +kernel, by decide +kernel⟩ freshMint0 orcaMint0 (by decide +kernel) (by decide +kernel)

/-- The conditions are needed: with a negative cool-down period it fails. -/
example : FailsWith (ctx 1000) L0 initAccs (.Initialize (-1)) (.custom .InvalidCoolDownPeriod) := by
  intro data hd
  rw [entry_eq hd]
  have h : (match dispatch (ctx 1000) L0 initAccs (.Initialize (-1)) with
    | .error e => decide (e = .custom .InvalidCoolDownPeriod)
    | .ok _ => false) = true := by decide +kernel
  split at h
  · next e he => rw [he]; simpa using h
  · cases h

end Demo

/-! ### C56: a vault created early blocks the program

`initialize.rs` requires the vault address to belong to the system program, although it creates the vault with
`CreateIdempotent`.  Anyone can create an associated token account for any wallet, so anyone can create the
vault before Initialize runs. -/

/-- Once the vault exists before Initialize, no call ever succeeds again. -/
theorem C56_blocked_forever {st v : Pubkey} {h : List Entry} (hr : Reachable cr L)
    (hno : ∀ k, ¬ Initialised cr L k) (hst : StateAddr cr st b) (hv : VaultAddr cr st v vb)
    (ht : PoolToken cr (L v)) (hp : Path cr L h L') :
    (∀ e ∈ h, e.label = .env) ∧ ∀ k, ¬ Initialised cr L' k := by
  have hz : ∀ k, (L k).owner = PROGRAM_ID → AllZero (L k).data := by
    rcases hr.inv.pool with ⟨k, w, q⟩ | h
    · exact absurd ⟨⟨_, q.acc.addr⟩, q.prog, q.acc.tag⟩ (hno k)
    · exact h
  obtain ⟨⟨_, h2, _⟩, h4⟩ := blocked hr.inv hz hst hv ht hp
  refine ⟨h4, fun k hk => ?_⟩
  exact absurd (h2 k hk.2.1) (not_allZero (o := 0) (by rw [hk.2.2]; decide))

/-- Anyone with a few lamports can bring this about, by one call of the associated token program. -/
theorem C56_anyone_can_block {st v f : Pubkey} (hr : Reachable cr L) (hx : x.cr = cr)
    (hno : ∀ k, ¬ Initialised cr L k) (hst : StateAddr cr st b) (hv : VaultAddr cr st v vb)
    (bv : Blank (L v)) (hxm : FreshMint L st) (hom : OrcaMint L) (bf : Blank (L f)) (hf : f ≠ v)
    (hpay : max 1 (x.rentMin 165).toNat ≤ (L f).lamports.toNat + (L v).lamports.toNat) :
    ∃ L1, cpiCreateAtaIdempotent x ⟨[⟨f, true, true⟩, ⟨v, false, true⟩, ⟨st, false, false⟩,
        ⟨ORCA_MINT_ID, false, false⟩, ⟨SYSTEM_PROGRAM_ID, false, false⟩, ⟨SPL_TOKEN_PROGRAM_ID, false, false⟩,
        ⟨ASSOCIATED_TOKEN_PROGRAM_ID, false, false⟩], []⟩ L f v st ORCA_MINT_ID = .ok L1 ∧
      EnvStep cr L L1 ∧
      ∀ h L', Path cr L1 h L' → (∀ e ∈ h, e.label = .env) ∧ ∀ k, ¬ Initialised cr L' k := by
  subst hx
  obtain ⟨L1, h1⟩ := cpiCreateAta_succeeds (x := x) (c := ⟨[⟨f, true, true⟩, ⟨v, false, true⟩, ⟨st, false, false⟩,
        ⟨ORCA_MINT_ID, false, false⟩, ⟨SYSTEM_PROGRAM_ID, false, false⟩, ⟨SPL_TOKEN_PROGRAM_ID, false, false⟩,
        ⟨ASSOCIATED_TOKEN_PROGRAM_ID, false, false⟩], []⟩) (L := L) (funder := f) (ata := v) (wallet := st)
    (mint := ORCA_MINT_ID) (b := vb) (by simp [Caller.has]) (by simp [Caller.writes, Caller.signs]) hv hf bv.1 bv.2
    bf.1 bf.2 ⟨hom.ok.prog, hom.ok.len, hom.ok.init, hom.flag, hom.freeze⟩ hpay
  have e := (cpiCreateAtaIdempotent_eff hf bv.1 h1).1
  have hvx : v ≠ XORCA_MINT_ID := by
    rintro rfl
    exact token_ne_system (hxm.ok.prog.symm.trans bv.1)
  have es : EnvStep x.cr L L1 := envStep_create hf e (Or.inl token_ne_program) hvx hr.inv.shape
  refine ⟨L1, h1, es, ?_⟩
  intro h L' hp
  have hr1 : Reachable x.cr L1 := by
    obtain ⟨h0, G, hg, hp0⟩ := hr
    exact ⟨_, G, hg, .step (e := ⟨L, .env, L1⟩) hp0 (.env es)⟩
  obtain ⟨w, hw, _⟩ := e.created
  obtain ⟨f1, f2, f3, f4, f5, f6, f7, f8⟩ := freshToken_fields ORCA_MINT_ID st
  refine C56_blocked_forever hr1 ?_ hst hv ?_ hp
  · intro k hk
    rcases es.given k hk.2.1 with hz | ⟨h2, h3⟩
    · exact absurd hz (not_allZero (o := 0) (by rw [hk.2.2]; decide))
    · exact hno k ⟨hk.1, h2, h3 ▸ hk.2.2⟩
  · rw [hw]
    exact ⟨rfl, f1, Or.inl f6, ⟨b, by rw [f3]; exact hst⟩, f5, f7, f8⟩

namespace Demo

theorem not_init0 (k : Pubkey) : ¬ Initialised Demo.cr L0 k := fun h =>
  absurd (genesis.blank k h.2.1) (not_allZero (o := 0) (by rw [h.2.2]; decide))

end Demo

/-- The user of the demo chain can block the deployment. -/
theorem C56_witness : ∃ V0, EnvStep Demo.cr Demo.L0 V0 ∧
    ∀ h L', Path Demo.cr V0 h L' → (∀ e ∈ h, e.label = .env) ∧ ∀ k, ¬ Initialised Demo.cr L' k := by
  obtain ⟨V0, _, h1, h2⟩ := C56_anyone_can_block (x := Demo.ctx 999) (f := Demo.US) Demo.reach0 rfl Demo.not_init0
    Demo.st_addr Demo.va_addr
    ⟨by decide +kernel, by decide +kernel⟩ Demo.freshMint0 Demo.orcaMint0 ⟨by decide +kernel, by decide +kernel⟩
    (by decide +kernel) (by decide +kernel)
  exact ⟨V0, h1, h2⟩

namespace Demo

/-- The call of the associated token program, evaluated, and the Initialize after it. -/
def vAccs : List Meta := [⟨US, true, true⟩, ⟨VA, false, true⟩, ⟨ST, false, false⟩,
  ⟨ORCA_MINT_ID, false, false⟩, ⟨SYSTEM_PROGRAM_ID, false, false⟩, ⟨SPL_TOKEN_PROGRAM_ID, false, false⟩,
  ⟨ASSOCIATED_TOKEN_PROGRAM_ID, false, false⟩]
def V0 : Ledger := outL (cpiCreateAtaIdempotent (ctx 999) ⟨vAccs, []⟩ L0 US VA ST ORCA_MINT_ID)

example : isOk (cpiCreateAtaIdempotent (ctx 999) ⟨vAccs, []⟩ L0 US VA ST ORCA_MINT_ID) = true ∧
    ownerOf V0 VA = ST ∧ mintOf V0 VA = ORCA_MINT_ID ∧
    (match entry (ctx 1000) PROGRAM_ID V0 initAccs (3 :: i64le 100) with
      | .error e => decide (e = .custom .IncorrectOwner)
      | .ok _ => false) = true := by decide +kernel

end Demo
end Xorca
