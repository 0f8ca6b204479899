import Verif.Lemmas.NoProfitAux
import Verif.Props.Histories
import Verif.Props.Conservation
import Verif.Props.Liveness
import Verif.Lemmas.DemoBooks
import Mathlib.Algebra.BigOperators.Ring.Finset
import Mathlib.Algebra.Order.BigOperators.Group.Finset
/-
C63, C64: what the holders together can get out of the pool, and what a coalition can gain.
-/
namespace Xorca
open Spec

variable {cr : Crypto} {L L' : Ledger} {st v : Pubkey} {b : UInt8} {h : List Entry}

/-! ### C64: no profit -/

/-- Along any path from a reachable ledger in which nobody stakes into an ownerless pool: let the others hold `y`
xORCA at both ends.  What the rest of the xORCA is worth at the end, plus all ORCA set aside on the way, is at most
all ORCA staked and donated on the way, plus what the rest of the xORCA was worth at the start (exactly
`(supply - y) * (backing + 100) / (supply + 100)`, so both sides are multiplied by `supply + 100`). -/
theorem C64_no_coalition_profits {y : Nat} (hr : Reachable cr L) (hi : Initialised cr L st) (hv : VaultAddr cr st v b)
    (hp : Path cr L h L') (hno : ∀ e ∈ h, ¬ OrphanStake e st v)
    (hy : y ≤ supply L XORCA_MINT_ID) (hy' : y ≤ supply L' XORCA_MINT_ID) :
    (redeemFor (supply L' XORCA_MINT_ID - y) (backing L' v st) (supply L' XORCA_MINT_ID) +
        (h.map (setAside st v)).sum) * (supply L XORCA_MINT_ID + 100) ≤
      ((h.map staked).sum + (h.map (donated st v)).sum) * (supply L XORCA_MINT_ID + 100) +
        (supply L XORCA_MINT_ID - y) * (backing L v st + 100) := by
  obtain ⟨h0, hh⟩ := hr
  have hf := backing_flow hh hi hv hp
  exact no_profit_arith hy hy' (by omega) (C09_no_dilution ⟨h0, hh⟩ hi hv hp hno).1

/-- A donation of 500000 and a stake of 300000 while the holders of 1000000 xORCA keep 700000 of it. -/
example := C64_no_coalition_profits (y := 700000) Demo.reach2 Demo.init2 Demo.va_addr Demo.path24 Demo.noOrphan24
  (by decide +kernel) (by decide +kernel)

/-- Who starts with no xORCA, while all others keep what they have, never gets out more than was put in. -/
theorem C64_no_profit_from_nothing (hr : Reachable cr L) (hi : Initialised cr L st) (hv : VaultAddr cr st v b)
    (hp : Path cr L h L') (hno : ∀ e ∈ h, ¬ OrphanStake e st v)
    (hs : supply L XORCA_MINT_ID ≤ supply L' XORCA_MINT_ID) :
    redeemFor (supply L' XORCA_MINT_ID - supply L XORCA_MINT_ID) (backing L' v st) (supply L' XORCA_MINT_ID) +
        (h.map (setAside st v)).sum ≤ (h.map staked).sum + (h.map (donated st v)).sum := by
  have key := C64_no_coalition_profits hr hi hv hp hno (le_refl _) hs
  rw [Nat.sub_self, Nat.zero_mul, Nat.add_zero] at key
  exact Nat.le_of_mul_le_mul_right key (by omega)

example := C64_no_profit_from_nothing Demo.reach2 Demo.init2 Demo.va_addr Demo.path24 Demo.noOrphan24 (by decide +kernel)

/-- If the pool ends up with no more ORCA than at the start, it has no more xORCA either. -/
theorem C64_no_free_supply (hr : Reachable cr L) (hi : Initialised cr L st) (hv : VaultAddr cr st v b)
    (hp : Path cr L h L') (hno : ∀ e ∈ h, ¬ OrphanStake e st v) (hb : backing L' v st ≤ backing L v st) :
    supply L' XORCA_MINT_ID ≤ supply L XORCA_MINT_ID := by
  have key := (C09_no_dilution hr hi hv hp hno).1
  have h1 : (backing L v st + 100) * (supply L' XORCA_MINT_ID + 100) ≤
      (backing L v st + 100) * (supply L XORCA_MINT_ID + 100) :=
    le_trans key (Nat.mul_le_mul_right _ (by omega))
  have := Nat.le_of_mul_le_mul_left h1 (by omega)
  omega

example := C64_no_free_supply Demo.reach4 Demo.init4 Demo.va_addr Demo.path49 Demo.noOrphan49 (by decide +kernel)

/-! ### C63: all holders are covered -/

/-- The program keeps the books of xORCA in order, in every history whose other steps do. -/
theorem C63_books_in_order (hr : Reachable cr L) (ha : Accounted L) (hp : Path cr L h L')
    (hk : ∀ e ∈ h, KeepsBooks e) : Accounted L' := by
  have i0 := hr.inv
  induction hp with
  | nil => exact ha
  | @step h e q ok ih =>
    have h1 := ih (fun e he => hk e (List.mem_cons_of_mem _ he))
    have i1 := (q.inv i0).1
    have hke := hk e (by simp)
    cases ok with
    | env he => exact hke rfl h1
    | @call x accs ix logs M M' hx hrent hs hrun =>
      subst hx
      refine h1.of (A := (accs.map (·.key)).toFinset) fun S hS => ?_
      exact le_of_eq (C33_xorca_follows_supply hrun hs (mintOk_of_runs i1 hrun) fun m hm => hS (by
        simp only [List.mem_toFinset, List.mem_map]; exact ⟨m, hm, rfl⟩))

theorem accounted4 : Accounted Demo.L4 := C63_books_in_order Demo.reach0 Demo.accounted0 Demo.path04 Demo.keeps04
theorem accounted6 : Accounted Demo.L6 :=
  C63_books_in_order Demo.reach4 accounted4 (Demo.path_call Demo.path45 Demo.signers6 Demo.run6) (by
    intro e he
    simp only [List.mem_cons, List.not_mem_nil, or_false] at he
    rcases he with rfl | rfl
    · exact Demo.keeps_call
    · exact Demo.keeps_call)

/-- When the books are in order, the vault covers the redemption of all xORCA and all open records at once. -/
theorem C63_all_holders_covered (hr : Reachable cr L) (hi : Initialised cr L st) (hv : VaultAddr cr st v b)
    (ha : Accounted L) (S : Finset Pubkey) {rs : List Pubkey} (hn : rs.Nodup) (hrec : ∀ k ∈ rs, IsRecord L k) :
    ∑ k ∈ S, redeemFor (tokensOf L XORCA_MINT_ID k) (backing L v st) (supply L XORCA_MINT_ID) +
      (rs.map (recAmount L)).sum ≤ balance L v := by
  have p := reachable_pool hr hi hv
  have hb := p.backed
  obtain ⟨all, h1, h2, h3⟩ := p.records
  have hsub : rs.Subperm all := List.subperm_of_subset hn (fun k hk => (h2 k).2 (hrec k hk))
  obtain ⟨l, hl1, hl2⟩ := hsub
  have hsum : (rs.map (recAmount L)).sum ≤ escrow L st := by
    rw [← (hl1.map (recAmount L)).sum_eq, ← h3]
    exact (hl2.map (recAmount L)).sum_le_sum (fun _ _ => Nat.zero_le _)
  have hle := sum_redeemFor_le (backing L v st) (supply L XORCA_MINT_ID) (tokensOf L XORCA_MINT_ID) S
  have htot := ha S
  have hred : redeemFor (∑ k ∈ S, tokensOf L XORCA_MINT_ID k) (backing L v st) (supply L XORCA_MINT_ID) ≤ backing L v st :=
    redeemFor_le (by unfold backing; omega) htot
  have : backing L v st = balance L v - escrow L st := rfl
  omega

/-- One holder and two open records. -/
example := C63_all_holders_covered Demo.reach6 Demo.init6 Demo.va_addr accounted6 {Demo.UX} (rs := [Demo.R0, Demo.R255])
  (by decide +kernel) (by
    intro k hk
    simp only [List.mem_cons, List.not_mem_nil, or_false] at hk
    rcases hk with rfl | rfl
    · exact ⟨by decide +kernel, by decide +kernel, by decide +kernel⟩
    · exact ⟨by decide +kernel, by decide +kernel, by decide +kernel⟩)

/-- When the books are in order, a holder can unstake any part of their balance; nothing is asked of the supply. -/
theorem C63_holder_can_unstake {x : Ctx} {accs : List Meta} {u st pw xa xm om v sp tp : Meta} {a : UInt64} {i b vb : UInt8}
    (hr : Reachable cr L) (ha : Accounted L) (hx : x.cr = cr) (hsig : SignersOk cr L accs)
    (hi : Initialised cr L st.key) (hv : VaultAddr cr st.key v.key vb)
    (hc : UnstakeCall accs u st pw xa xm om v sp tp)
    (hpw : RecordAddr cr u.key i pw.key b)
    (hfree : (L pw.key).owner = SYSTEM_PROGRAM_ID ∧ (L pw.key).data = [])
    (hxa : TokenOk L xa.key XORCA_MINT_ID u.key)
    (hu : (L u.key).owner = SYSTEM_PROGRAM_ID ∧ (L u.key).data = [])
    (hrent : (x.rentMin 1024).toNat ≤ (L u.key).lamports.toNat + (L pw.key).lamports.toNat)
    (h0 : 0 < a.toNat) (hbal : a.toNat ≤ balance L xa.key)
    (hclk : x.now.toInt + coolDown L st.key < 2 ^ 63)
    (hfit : a.toNat * (backing L v.key st.key + 100) < 2 ^ 128) (hom : MintOk L ORCA_MINT_ID) :
    Succeeds x L accs (.Unstake a i) := by
  have h1 := ha {xa.key}
  unfold totalTokens at h1
  rw [Finset.sum_singleton, tokensOf_mint hxa.mint hxa.prog hxa.len, if_pos rfl] at h1
  exact C48_unstake_succeeds hr hx hsig hi hv hc hpw hfree hxa hu hrent h0 hbal (by omega) hfit hclk hom

example : Succeeds (Demo.ctx 1003) Demo.L4 (Demo.unstakeAccs Demo.R255) (.Unstake 600000 255) :=
  C63_holder_can_unstake Demo.reach4 accounted4 rfl Demo.signers5 Demo.init4 Demo.va_addr (Demo.unstakeCall Demo.R255)
    Demo.r255_addr (by decide +kernel) Demo.ux_ok4 Demo.us_blank4 (by decide +kernel) (by decide +kernel)
    (by decide +kernel) (by decide +kernel) (by decide +kernel) Demo.orca_ok4

end Xorca
