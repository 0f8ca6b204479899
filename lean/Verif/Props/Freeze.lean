import Verif.Lemmas.DemoFreeze
import Verif.Lemmas.DemoCalls
import Verif.Lemmas.Stake
import Verif.Lemmas.Withdraw
import Verif.Props.Liveness
/-
C109: who can freeze what, and what a frozen vault stops.
-/
namespace Xorca
open Spec

variable {cr : Crypto} {x : Ctx} {L0 L L' : Ledger} {st m k : Pubkey} {vb : UInt8} {h : List Entry} {accs : List Meta}

/-- A mint without a freeze authority never gets one again, and none of its accounts is ever frozen from then on,
whatever anybody does. -/
theorem C109_no_authority_no_freezing (hs : Steady cr L) (hm : Unfreezable (L m)) (hw : World cr L h L') :
    Unfreezable (L' m) ∧ ∀ k, FrozenToken m (L' k) → FrozenToken m (L k) :=
  ⟨(keepAll_world hs hm hw m).mint rfl hm, fun k => (keepAll_world hs hm hw k).froz⟩

example : ¬ FrozenToken ORCA_MINT_ID (Demo.L4 Demo.VA) := fun f =>
  Demo.thawn0 ((C109_no_authority_no_freezing Demo.steady0 Demo.unfreezable0 Demo.world4).2 _ f)

/-- The step in which an account gets frozen is no call of the program.  It is an instruction of the token program,
with the signature of the mint's freeze authority (or enough signatures of its members). -/
theorem C109_only_the_freeze_authority {e : Entry} (hs : Steady cr e.pre) (hr : e.Real cr)
    (h0 : ¬ FrozenToken m (e.pre k)) (h1 : FrozenToken m (e.post k)) :
    e.label = .env ∧ ∃ rent sg auth ms, NotPool cr sg ∧
      tokenExec rent sg e.pre (.freeze k m auth ms false) = .ok e.post ∧
      readU32 (e.pre m).data 46 = 1 ∧ readKey (e.pre m).data 50 = auth ∧ (NotMultisig e.pre auth → sg auth = true) :=
  freezing_step hs hr h0 h1

example : ∃ rent sg auth ms, NotPool Demo.cr sg ∧
    tokenExec rent sg Demo.F2 (.freeze Demo.VA ORCA_MINT_ID auth ms false) = .ok Demo.F3 ∧
    readU32 (Demo.F2 ORCA_MINT_ID).data 46 = 1 ∧ readKey (Demo.F2 ORCA_MINT_ID).data 50 = auth ∧
    (NotMultisig Demo.F2 auth → sg auth = true) := by
  have key := C109_only_the_freeze_authority (m := ORCA_MINT_ID) (k := Demo.VA) (e := ⟨Demo.F2, .env, Demo.F3⟩)
    (cr := Demo.cr)
  dsimp only at key
  exact (key Demo.steadyF2 Demo.realF3 Demo.thawnF2 Demo.frozenF3).2

/-- Once the pool is initialised, nobody can ever freeze an xORCA account. -/
theorem C109_xorca_never_frozen (hg : Genesis L0) (hs : Steady cr L0) {h0 : List Entry} (hw0 : World cr L0 h0 L)
    (hi : Initialised cr L st) (hw : World cr L h L') :
    Unfreezable (L' XORCA_MINT_ID) ∧ ∀ k, FrozenToken XORCA_MINT_ID (L' k) → FrozenToken XORCA_MINT_ID (L k) := by
  obtain ⟨hp, hs', -⟩ := world_path hs hw0
  have hr : Reachable cr L := ⟨h0, L0, hg, hp⟩
  obtain ⟨v, p⟩ := hr.inv.ofInitialised hi
  exact C109_no_authority_no_freezing hs'
    ⟨p.mint.prog, p.mint.len, p.mint.init, p.mint.freeze, hs'.mint.2.2.2⟩ hw

example : ¬ FrozenToken XORCA_MINT_ID (Demo.F5 Demo.UX) := fun f =>
  absurd ((C109_xorca_never_frozen Demo.genesisF Demo.steadyF Demo.worldF3 Demo.initF3 Demo.worldF5).2 _ f).state
    (by decide +kernel)

/-- If the ORCA mint has no freeze authority, the vault is never frozen. -/
theorem C109_vault_never_frozen {v : Pubkey} (hg : Genesis L0) (hs : Steady cr L0) (hm : Unfreezable (L0 ORCA_MINT_ID))
    (hv0 : ¬ FrozenToken ORCA_MINT_ID (L0 v)) (hw : World cr L0 h L) (hi : Initialised cr L st)
    (hv : VaultAddr cr st v vb) : readU8 (L v).data 108 = 1 := by
  have p := reachable_pool ⟨h, L0, hg, (world_path hs hw).1⟩ hi hv
  rcases p.v_tok.state with e | e
  · exact e
  · exact absurd ((C109_no_authority_no_freezing hs hm hw).2 v ⟨p.v_tok.prog, p.v_tok.len, p.v_mint, e⟩) hv0

example : readU8 (Demo.L4 Demo.VA).data 108 = 1 :=
  C109_vault_never_frozen Demo.genesis Demo.steady0 Demo.unfreezable0 Demo.thawn0 Demo.world4 Demo.init4 Demo.va_addr

/-- Then the owner of a matured record can always withdraw it, without any assumption on the vault or on the mint at
that time. -/
theorem C109_withdrawal_always_succeeds {u st pw oa v om sp tp : Meta} (hg : Genesis L0) (hs : Steady cr L0)
    (hm : Unfreezable (L0 ORCA_MINT_ID)) (hv0 : ¬ FrozenToken ORCA_MINT_ID (L0 v.key)) (hw : World cr L0 h L)
    (hx : x.cr = cr) (hsig : SignersOk cr L accs) (hi : Initialised cr L st.key) (hv : VaultAddr cr st.key v.key vb)
    (hc : WithdrawCall accs u st pw oa v om sp tp) (hrec : IsRecord L pw.key) (hown : recOwner L pw.key = u.key)
    (hmat : recTime L pw.key ≤ x.now.toInt) (hoa : TokenOk L oa.key ORCA_MINT_ID u.key)
    (hfit : balance L oa.key + recAmount L pw.key < 2 ^ 64) :
    Succeeds x L accs (.Withdraw (recIndex L pw.key)) :=
  C21_matured_withdrawal_succeeds ⟨h, L0, hg, (world_path hs hw).1⟩ hx hsig hi hv hc hrec hown hmat hoa hfit
    (C109_vault_never_frozen hg hs hm hv0 hw hi hv) (C109_no_authority_no_freezing hs hm hw).1.prog

example : Succeeds (Demo.ctx 1103) Demo.L8 (Demo.withdrawAccs Demo.R255) (.Withdraw 255) := by
  have h : recIndex Demo.L8 Demo.R255 = 255 := by decide +kernel
  have key := C109_withdrawal_always_succeeds (x := Demo.ctx 1103) (st := ⟨Demo.ST, false, true⟩)
    (v := ⟨Demo.VA, false, true⟩) Demo.genesis Demo.steady0 Demo.unfreezable0 Demo.thawn0 Demo.world8 rfl Demo.signers9
    Demo.init8 Demo.va_addr (Demo.withdrawCall Demo.R255) ⟨by decide +kernel, by decide +kernel, by decide +kernel⟩
    (by decide +kernel) (by decide +kernel) Demo.uo_ok8 (by decide +kernel)
  rw [h] at key
  exact key

/-- A frozen vault stops every Stake. -/
theorem C109_frozen_vault_stops_stake {s v oa xa xm st om tp : Meta} {rest : List Meta} {a : UInt64} {logs : List Bytes}
    (hsig : SignersOk x.cr L (s :: v :: oa :: xa :: xm :: st :: om :: tp :: rest)) (hf : FrozenToken m (L v.key)) :
    ¬ Runs x L (s :: v :: oa :: xa :: xm :: st :: om :: tp :: rest) (.Stake a) L' logs := by
  intro h
  obtain ⟨s', v', oa', xa', xm', st', om', tp', L1, q, r⟩ := processStake_run h.dispatch
  obtain ⟨rs, hr⟩ := r.accs_eq
  simp only [List.cons.injEq] at hr
  obtain ⟨rfl, rfl, rfl, rfl, rfl, rfl, rfl, rfl, rfl⟩ := hr
  have := (r.eff hsig).v_ok.state
  rw [hf.state] at this
  exact absurd this (by decide)

example {L' : Ledger} {logs : List Bytes} : ¬ Runs (Demo.ctx 1002) Demo.F3 Demo.stakeAccs (.Stake 1000) L' logs :=
  C109_frozen_vault_stops_stake (Demo.signersOk (by decide +kernel)) Demo.frozenF3

/-- A frozen vault stops every Withdraw. -/
theorem C109_frozen_vault_stops_withdraw {u st pw oa v om sp tp : Meta} {rest : List Meta} {i : UInt8} {logs : List Bytes}
    (hsig : SignersOk x.cr L (u :: st :: pw :: oa :: v :: om :: sp :: tp :: rest)) (hf : FrozenToken m (L v.key)) :
    ¬ Runs x L (u :: st :: pw :: oa :: v :: om :: sp :: tp :: rest) (.Withdraw i) L' logs := by
  intro h
  obtain ⟨u', st', pw', oa', v', om', sp', tp', L1, L2, e, r⟩ := processWithdraw_run h.dispatch
  obtain ⟨rs, hr⟩ := r.accs_eq
  simp only [List.cons.injEq] at hr
  obtain ⟨rfl, rfl, rfl, rfl, rfl, rfl, rfl, rfl, rfl⟩ := hr
  have := (r.eff hsig).1.v_ok.state
  rw [hf.state] at this
  exact absurd this (by decide)

example {L' : Ledger} {logs : List Bytes} :
    ¬ Runs (Demo.ctx 1200) Demo.F4 (Demo.withdrawAccs Demo.R255) (.Withdraw 255) L' logs :=
  C109_frozen_vault_stops_withdraw (Demo.signersOk (by decide +kernel)) Demo.frozenF4

/-- Initialize accepts an ORCA mint with a freeze authority.  Then that authority can freeze the vault; Unstake goes on
burning xORCA, and the matured record cannot be withdrawn until the vault is thawed.  The thaw makes it payable again. -/
theorem C109_freeze_authority_can_stop_payments :
    ∃ L0 L1 L3 L4 L5 L6 accs logs logs' data h0 h1 h5, ∃ x x' : Ctx, Genesis L0 ∧ Steady Demo.cr L0 ∧
      Runs (Demo.ctx 1000) L0 Demo.initAccs (.Initialize 100) L1 data ∧
      World Demo.cr L0 h0 L3 ∧ FrozenToken ORCA_MINT_ID (L3 Demo.VA) ∧
      Runs x L3 (Demo.unstakeAccs Demo.R255) (.Unstake 600000 255) L4 logs ∧ World Demo.cr L3 h1 L4 ∧
      recOwner L4 Demo.R255 = Demo.US ∧ recAmount L4 Demo.R255 = 600000 ∧ recTime L4 Demo.R255 ≤ x'.now.toInt ∧
      (∀ L' l, ¬ Runs x' L4 accs (.Withdraw 255) L' l) ∧
      World Demo.cr L4 h5 L5 ∧ Runs x' L5 accs (.Withdraw 255) L6 logs' ∧
      balance L6 Demo.UO = balance L5 Demo.UO + 600000 :=
  ⟨Demo.F0, Demo.F1, Demo.F3, Demo.F4, Demo.F5, Demo.F6, Demo.withdrawAccs Demo.R255, _, _, _, _, _, _, Demo.ctx 1003,
    Demo.ctx 1200, Demo.genesisF, Demo.steadyF, Demo.runF1, Demo.worldF3, Demo.frozenF3, Demo.runF4, Demo.worldF4,
    Demo.figuresF.2.1, Demo.figuresF.2.2.2.2.1, by rw [Demo.figuresF.2.2.2.1]; decide +kernel,
    fun _ _ => C109_frozen_vault_stops_withdraw (Demo.signersOk (by decide +kernel)) Demo.frozenF4,
    Demo.worldF45, Demo.runF6, Demo.figuresF.2.2.2.2.2.2.symm⟩

end Xorca
