import Verif.Props.NoProfit
import Verif.Lemmas.DemoWorld
/-
C77 – C79: the assumptions about the rest of the chain, derived from the instruction set of the token program and the
ownership rule of the runtime.
-/
namespace Xorca
open Spec

variable {cr : Crypto} {L L' L0 : Ledger} {st v : Pubkey} {b : UInt8} {h : List Entry}

/-! ### C77: what others do is an environment step -/

/-- Every instruction of the token program that the pool has not signed, everything another program may do, and the
removal of empty accounts is an environment step, keeps the ledger steady and keeps the books of xORCA in order. -/
theorem C77_outside_is_env (hs : Steady cr L) (ho : Outside cr L L') :
    EnvStep cr L L' ∧ Steady cr L' ∧ (Accounted L → Accounted L') :=
  harmless_outside hs ho

/-- A donation. -/
example : EnvStep Demo.cr Demo.L2 Demo.L3 :=
  (C77_outside_is_env Demo.steady2 Demo.out3).1

/-- A user approves a delegate, closes an empty account, or hands over an account: all possible. -/
example : Demo.isOk (tokenExec (Demo.ctx 0).rentMin Demo.usSigns Demo.L4 (.approve Demo.UX Demo.AU Demo.US [] 7 none)) = true ∧
    Demo.isOk (tokenExec (Demo.ctx 0).rentMin Demo.usSigns Demo.L0 (.closeAccount Demo.UX Demo.US Demo.US [])) = true ∧
    Demo.isOk (tokenExec (Demo.ctx 0).rentMin Demo.usSigns Demo.L4
      (.setAuthority Demo.UX .accountOwner (some Demo.AU) Demo.US [])) = true := by decide +kernel

/-- The vault cannot be used so, and xORCA cannot be minted. -/
example : Demo.err (tokenExec (Demo.ctx 0).rentMin Demo.usSigns Demo.L4 (.transfer Demo.VA Demo.UO Demo.US [] 1 none)) =
      some (.cpi .ownerMismatch) ∧
    Demo.err (tokenExec (Demo.ctx 0).rentMin Demo.usSigns Demo.L4 (.transfer Demo.VA Demo.UO Demo.ST [] 1 none)) =
      some (.cpi .notEnoughSigners) ∧
    Demo.err (tokenExec (Demo.ctx 0).rentMin Demo.usSigns Demo.L4 (.mintTo XORCA_MINT_ID Demo.UX Demo.US [] 1 none)) =
      some (.cpi .ownerMismatch) ∧
    Demo.err (tokenExec (Demo.ctx 0).rentMin Demo.usSigns Demo.L4
      (.setAuthority Demo.VA .accountOwner (some Demo.US) Demo.US [])) = some (.cpi .ownerMismatch) ∧
    Demo.err (tokenExec (Demo.ctx 0).rentMin Demo.usSigns Demo.L4 (.closeAccount Demo.VA Demo.US Demo.US [])) =
      some (.cpi .nonZeroBalance) := by decide +kernel

/-- A sequence of real steps is a path, ends in a steady ledger, and keeps the books. -/
theorem C77_world_is_path (hs : Steady cr L) (hw : World cr L h L') :
    Path cr L h L' ∧ Steady cr L' ∧ ∀ e ∈ h, KeepsBooks e :=
  world_path hs hw

example : Path Demo.cr Demo.L0 [Demo.e4, Demo.e3, Demo.e2, Demo.e1] Demo.L4 :=
  (C77_world_is_path Demo.steady0 Demo.world4).1

/-- What others can do to the pool: add ORCA to the vault, burn xORCA, nothing else. -/
theorem C77_pool_untouched (hr : Reachable cr L) (hi : Initialised cr L st) (hv : VaultAddr cr st v b)
    (hs : Steady cr L) (ho : Outside cr L L') :
    balance L v ≤ balance L' v ∧ ownerOf L' v = st ∧ mintOf L' v = ORCA_MINT_ID ∧
    supply L' XORCA_MINT_ID ≤ supply L XORCA_MINT_ID ∧ readKey (L' XORCA_MINT_ID).data 4 = st ∧
    (L' st).owner = PROGRAM_ID ∧ (L' st).data = (L st).data ∧
    (∀ k, IsRecord L k → (L' k).owner = PROGRAM_ID ∧ (L' k).data = (L k).data) ∧
    (∀ k, IsRecord L' k → (L k).owner = PROGRAM_ID ∧ (L' k).data = (L k).data) := by
  have e := (C77_outside_is_env hs ho).1
  have p := reachable_pool hr hi hv
  have p' := (hr.inv.env e).2 st v p
  obtain ⟨s1, s2, _⟩ := e.owned st p.prog p.acc.lam
  refine ⟨(e.token v p.v_tok).2.2.2.2, p'.v_owner, p'.v_mint, (e.mint p.mint).2.2, p'.m_auth, s1, s2, fun k hk => ?_,
    fun k hk => ?_⟩
  · have hl : (L k).lamports ≠ 0 := by
      rcases hr.inv.owned k hk.1 with h | h | h
      · exact absurd h (not_allZero (o := 0) (by rw [hk.2.2]; decide))
      · exact h.lam
      · exact h.lam
    obtain ⟨h1, h2, _⟩ := e.owned k hk.1 hl
    exact ⟨h1, h2⟩
  · exact (e.given k hk.1).resolve_left (not_allZero (o := 0) (by rw [hk.2.2]; decide))

example : balance Demo.L2 Demo.VA ≤ balance Demo.L3 Demo.VA :=
  (C77_pool_untouched Demo.reach2 Demo.init2 Demo.va_addr Demo.steady2 Demo.out3).1

/-! ### C78: the main results without assumptions about others -/

/-- In every ledger that real steps lead to, the vault covers what all holders of xORCA could redeem, all together, and
all pending withdrawals. -/
theorem C78_all_holders_covered (hg : Genesis L0) (hs : Steady cr L0) (ha : Accounted L0) (hw : World cr L0 h L)
    (hi : Initialised cr L st) (hv : VaultAddr cr st v b)
    (S : Finset Pubkey) {rs : List Pubkey} (hn : rs.Nodup) (hrec : ∀ k ∈ rs, IsRecord L k) :
    ∑ k ∈ S, redeemFor (tokensOf L XORCA_MINT_ID k) (backing L v st) (supply L XORCA_MINT_ID) +
      (rs.map (recAmount L)).sum ≤ balance L v := by
  obtain ⟨hp, _, hk⟩ := world_path hs hw
  have hr0 : Reachable cr L0 := ⟨[], L0, hg, .nil⟩
  exact C63_all_holders_covered ⟨h, L0, hg, hp⟩ hi hv (C63_books_in_order hr0 ha hp hk) S hn hrec

example : redeemFor (tokensOf Demo.L4 XORCA_MINT_ID Demo.UX) (backing Demo.L4 Demo.VA Demo.ST)
    (supply Demo.L4 XORCA_MINT_ID) ≤ balance Demo.L4 Demo.VA := by
  have := C78_all_holders_covered Demo.genesis Demo.steady0 Demo.accounted0 Demo.world4 Demo.init4 Demo.va_addr
    {Demo.UX} (rs := []) List.nodup_nil (by simp)
  simpa using this

/-- From one initialised ledger to a later one, real steps do not lower what xORCA is worth, unless somebody stakes into
a pool without xORCA. -/
theorem C78_no_dilution (hg : Genesis L0) (hs : Steady cr L0) {h0 : List Entry} (hw0 : World cr L0 h0 L)
    (hi : Initialised cr L st) (hv : VaultAddr cr st v b) (hw : World cr L h L')
    (hno : ∀ e ∈ h, ¬ OrphanStake e st v) :
    (backing L v st + 100) * (supply L' XORCA_MINT_ID + 100) ≤
      (backing L' v st + 100) * (supply L XORCA_MINT_ID + 100) := by
  obtain ⟨hp0, hs1, _⟩ := world_path hs hw0
  exact (C09_no_dilution ⟨h0, L0, hg, hp0⟩ hi hv (world_path hs1 hw).1 hno).1

/-- The donation and the second stake raise the price. -/
example := C78_no_dilution Demo.genesis Demo.steady0 Demo.world2 Demo.init2 Demo.va_addr Demo.world24 Demo.noOrphan24
example : (backing Demo.L2 Demo.VA Demo.ST + 100) * (supply Demo.L4 XORCA_MINT_ID + 100) <
    (backing Demo.L4 Demo.VA Demo.ST + 100) * (supply Demo.L2 XORCA_MINT_ID + 100) := by decide +kernel

/-! ### C79: the token operations of the program's calls -/

/-- A transfer, mint or burn as the program's calls make it is an instruction of the full token program. -/
theorem C79_token_calls_agree {sg : Pubkey → Bool} {rent : Nat → UInt64} {x y auth : Pubkey} {n : UInt64}
    (hsg : sg auth = true) :
    (splTransfer L x y auth n = .ok L' → tokenExec rent sg L (.transfer x y auth [] n none) = .ok L') ∧
    (splMintTo L x y auth n = .ok L' → tokenExec rent sg L (.mintTo x y auth [] n none) = .ok L') ∧
    (splBurn L x y auth n = .ok L' → tokenExec rent sg L (.burn x y auth [] n none) = .ok L') :=
  ⟨transfer_agrees hsg, mintTo_agrees hsg, burn_agrees hsg⟩

example : tokenExec (Demo.ctx 0).rentMin Demo.usSigns Demo.L2 (.transfer Demo.UO Demo.VA Demo.US [] 500000 none) =
    .ok Demo.L3 := (C79_token_calls_agree (by decide)).1 Demo.transfer3
example : tokenExec (Demo.ctx 0).rentMin Demo.usSigns Demo.L3 (.burn Demo.UX XORCA_MINT_ID Demo.US [] 1000000 none) =
    .ok Demo.B4 := (C79_token_calls_agree (by decide)).2.2 Demo.burnB4

end Xorca
