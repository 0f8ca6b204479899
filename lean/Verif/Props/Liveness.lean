import Verif.Lemmas.LivenessAux
import Verif.Lemmas.DemoCalls
import Verif.Lemmas.Success
import Verif.Lemmas.Trace
/-
C21, C28, C47, C48: well-formed calls are accepted in every reachable state, dust is refused.
-/
namespace Xorca
open Spec

variable {cr : Crypto} {x : Ctx} {L : Ledger} {accs : List Meta} {vb : UInt8}

/-- In every reachable state the owner of a matured record can withdraw it, to any usable ORCA account of
theirs; nothing that others did can prevent it.  (Freezing the vault or closing the ORCA mint would be acts
of the ORCA mint's freeze authority, not of the pool.) -/
theorem C21_matured_withdrawal_succeeds {u st pw oa v om sp tp : Meta}
    (hr : Reachable cr L) (hx : x.cr = cr) (hsig : SignersOk cr L accs)
    (hi : Initialised cr L st.key) (hv : VaultAddr cr st.key v.key vb)
    (hc : WithdrawCall accs u st pw oa v om sp tp)
    (hrec : IsRecord L pw.key) (hown : recOwner L pw.key = u.key)
    (hmat : recTime L pw.key ≤ x.now.toInt)
    (hoa : TokenOk L oa.key ORCA_MINT_ID u.key)
    (hfit : balance L oa.key + recAmount L pw.key < 2 ^ 64)
    (hthaw : readU8 (L v.key).data 108 = 1) (hom : (L ORCA_MINT_ID).owner = SPL_TOKEN_PROGRAM_ID) :
    Succeeds x L accs (.Withdraw (recIndex L pw.key)) := by
  subst hx
  intro data hd
  rw [entry_eq hd]
  exact withdraw_succeeds hc (reachable_pool hr hi hv) hsig hrec (hr.inv.isRec hrec) hown rfl hoa hom hthaw
    hmat hfit

example : Succeeds (Demo.ctx 1103) Demo.L8 (Demo.withdrawAccs Demo.R255) (.Withdraw 255) := by
  have h : recIndex Demo.L8 Demo.R255 = 255 := by decide +kernel
  have key := C21_matured_withdrawal_succeeds (x := Demo.ctx 1103) (st := ⟨Demo.ST, false, true⟩)
    (v := ⟨Demo.VA, false, true⟩) Demo.reach8 rfl Demo.signers9 Demo.init8 Demo.va_addr
    (Demo.withdrawCall Demo.R255) ⟨by decide +kernel, by decide +kernel, by decide +kernel⟩ (by decide +kernel)
    (by decide +kernel) Demo.uo_ok8 (by decide +kernel) (by decide +kernel) (by decide +kernel)
  rw [h] at key
  exact key

/-- In every reachable state a Stake with well-formed accounts, enough ORCA and a non-zero, representable
result succeeds. -/
theorem C47_stake_succeeds {s v oa xa xm st om tp : Meta} {a : UInt64}
    (hr : Reachable cr L) (hx : x.cr = cr) (hsig : SignersOk cr L accs)
    (hi : Initialised cr L st.key) (hv : VaultAddr cr st.key v.key vb)
    (hc : StakeCall accs s v oa xa xm st om tp)
    (hoa : TokenOk L oa.key ORCA_MINT_ID s.key) (hxa : TokenOk L xa.key XORCA_MINT_ID s.key)
    (hms : NotMultisig L s.key)
    (ha : a.toNat ≤ balance L oa.key)
    (hm : 0 < mintFor a.toNat (backing L v.key st.key) (supply L XORCA_MINT_ID))
    (hfit : balance L v.key + a.toNat < 2 ^ 64)
    (hfit2 : balance L xa.key + mintFor a.toNat (backing L v.key st.key) (supply L XORCA_MINT_ID) < 2 ^ 64)
    (hthaw : readU8 (L v.key).data 108 = 1) (hom : (L ORCA_MINT_ID).owner = SPL_TOKEN_PROGRAM_ID) :
    Succeeds x L accs (.Stake a) := by
  subst hx
  intro data hd
  rw [entry_eq hd]
  exact stake_succeeds hc (reachable_pool hr hi hv) hsig hoa hxa hthaw hms hom ha hm hfit hfit2

example : Succeeds (Demo.ctx 1001) Demo.L1 Demo.stakeAccs (.Stake 1000000) :=
  C47_stake_succeeds Demo.reach1 rfl Demo.signers2 Demo.init1 Demo.va_addr Demo.stakeCall Demo.uo_ok1 Demo.ux_ok1
    (by decide +kernel) (by decide +kernel) (by decide +kernel) (by decide +kernel) (by decide +kernel)
    (by decide +kernel) (by decide +kernel)

/-- In every reachable state an Unstake of a positive amount with well-formed accounts, a free index and the
rent for the record succeeds, whatever lamports the record address already holds. -/
theorem C48_unstake_succeeds {u st pw xa xm om v sp tp : Meta} {a : UInt64} {i b : UInt8}
    (hr : Reachable cr L) (hx : x.cr = cr) (hsig : SignersOk cr L accs)
    (hi : Initialised cr L st.key) (hv : VaultAddr cr st.key v.key vb)
    (hc : UnstakeCall accs u st pw xa xm om v sp tp)
    (hpw : RecordAddr cr u.key i pw.key b)
    (hfree : (L pw.key).owner = SYSTEM_PROGRAM_ID ∧ (L pw.key).data = [])
    (hxa : TokenOk L xa.key XORCA_MINT_ID u.key)
    (hu : (L u.key).owner = SYSTEM_PROGRAM_ID ∧ (L u.key).data = [])
    (hrent : (x.rentMin 1024).toNat ≤ (L u.key).lamports.toNat + (L pw.key).lamports.toNat)
    (h0 : 0 < a.toNat) (ha : a.toNat ≤ balance L xa.key) (has : a.toNat ≤ supply L XORCA_MINT_ID)
    (hfit : a.toNat * (backing L v.key st.key + 100) < 2 ^ 128) (hclk : x.now.toInt + coolDown L st.key < 2 ^ 63)
    (hom : MintOk L ORCA_MINT_ID) :
    Succeeds x L accs (.Unstake a i) := by
  subst hx
  intro data hd
  rw [entry_eq hd]
  exact unstake_succeeds hc (reachable_pool hr hi hv) hsig hpw hfree.1 hfree.2 hxa hom hu.1 hu.2 h0 ha has hfit
    hclk hrent

example : Succeeds (Demo.ctx 1003) Demo.L4 (Demo.unstakeAccs Demo.R255) (.Unstake 600000 255) :=
  C48_unstake_succeeds Demo.reach4 rfl Demo.signers5 Demo.init4 Demo.va_addr (Demo.unstakeCall Demo.R255)
    Demo.r255_addr (by decide +kernel) Demo.ux_ok4 Demo.us_blank4 (by decide +kernel) (by decide +kernel)
    (by decide +kernel) (by decide +kernel) (by decide +kernel) (by decide +kernel) Demo.orca_ok4

/-! ### C28: dust -/

/-- Stake reports dust only when the amount to mint rounds to zero (in any ledger). -/
theorem C28_stake_dust_only {s v oa xa xm st om tp : Meta} {rest : List Meta} {a : UInt64}
    (h : Fails x L (s :: v :: oa :: xa :: xm :: st :: om :: tp :: rest) (.Stake a)
      (.custom .InsufficientStakeAmount)) :
    mintFor a.toNat (balance L v.key - escrow L st.key) (supply L XORCA_MINT_ID) = 0 := by
  obtain ⟨s', v', oa', xa', xm', st', om', tp', c, _, h2⟩ := stake_fail_dust h.dispatch
  obtain ⟨r, hr⟩ := c.accs_eq
  simp only [List.cons.injEq] at hr
  obtain ⟨rfl, rfl, rfl, rfl, rfl, rfl, rfl, rfl, rfl⟩ := hr
  exact h2

/-- One unit of ORCA buys less than one unit of xORCA at a price of 1.5. -/
example := C28_stake_dust_only (a := 1) (Demo.fails (x := Demo.ctx 1002) (L := Demo.L3) (accs := Demo.stakeAccs) (0 :: u64le 1)
  (by decide +kernel) (by decide +kernel))

/-- A well-formed Stake whose mint amount rounds to zero is refused as dust. -/
theorem C28_stake_dust_refused {s v oa xa xm st om tp : Meta} {a : UInt64}
    (hr : Reachable cr L) (hx : x.cr = cr)
    (hi : Initialised cr L st.key) (hv : VaultAddr cr st.key v.key vb)
    (hc : StakeCall accs s v oa xa xm st om tp)
    (hoa : TokenOk L oa.key ORCA_MINT_ID s.key) (hxa : TokenOk L xa.key XORCA_MINT_ID s.key)
    (ha : a.toNat ≤ balance L oa.key)
    (hm : mintFor a.toNat (backing L v.key st.key) (supply L XORCA_MINT_ID) = 0)
    (hom : (L ORCA_MINT_ID).owner = SPL_TOKEN_PROGRAM_ID) :
    FailsWith x L accs (.Stake a) (.custom .InsufficientStakeAmount) := by
  subst hx
  intro data hd
  rw [entry_eq hd]
  exact stake_dust hc (reachable_pool hr hi hv) hoa hxa hom ha hm

example : FailsWith (Demo.ctx 1002) Demo.L3 Demo.stakeAccs (.Stake 1) (.custom .InsufficientStakeAmount) :=
  C28_stake_dust_refused Demo.reach3 rfl Demo.init3 Demo.va_addr Demo.stakeCall (by decide +kernel) (by decide +kernel)
    (by decide +kernel) (by decide +kernel) (by decide +kernel)

/-- Unstake reports dust only when the redemption rounds to zero (in any ledger). -/
theorem C28_unstake_dust_only {u st pw xa xm om v sp tp : Meta} {rest : List Meta} {a : UInt64} {i : UInt8}
    (h : Fails x L (u :: st :: pw :: xa :: xm :: om :: v :: sp :: tp :: rest) (.Unstake a i)
      (.custom .InsufficientUnstakeAmount)) :
    redeemFor a.toNat (balance L v.key - escrow L st.key) (supply L XORCA_MINT_ID) = 0 := by
  obtain ⟨u', st', pw', xa', xm', om', v', sp', tp', c, _, _, _, h2⟩ := unstake_fail_dust h.dispatch
  obtain ⟨r, hr⟩ := c.accs_eq
  simp only [List.cons.injEq] at hr
  obtain ⟨rfl, rfl, rfl, rfl, rfl, rfl, rfl, rfl, rfl, rfl⟩ := hr
  exact h2

/-- Unstaking nothing.  (A positive amount is never dust in a reachable state.) -/
example := C28_unstake_dust_only (a := 0) (i := 255) (Demo.fails (x := Demo.ctx 1003) (L := Demo.L4) (accs := Demo.unstakeAccs Demo.R255)
    (1 :: u64le 0 ++ [255]) (by decide +kernel) (by decide +kernel))

/-- A well-formed Unstake whose redemption rounds to zero is refused as dust. -/
theorem C28_unstake_dust_refused {u st pw xa xm om v sp tp : Meta} {a : UInt64} {i b : UInt8}
    (hr : Reachable cr L) (hx : x.cr = cr)
    (hi : Initialised cr L st.key) (hv : VaultAddr cr st.key v.key vb)
    (hc : UnstakeCall accs u st pw xa xm om v sp tp)
    (hpw : RecordAddr cr u.key i pw.key b) (hfree : (L pw.key).owner = SYSTEM_PROGRAM_ID)
    (hxa : TokenOk L xa.key XORCA_MINT_ID u.key) (ha : a.toNat ≤ balance L xa.key)
    (hs : supply L XORCA_MINT_ID ≠ 0)
    (hm : redeemFor a.toNat (backing L v.key st.key) (supply L XORCA_MINT_ID) = 0)
    (hom : MintOk L ORCA_MINT_ID) :
    FailsWith x L accs (.Unstake a i) (.custom .InsufficientUnstakeAmount) := by
  subst hx
  intro data hd
  rw [entry_eq hd]
  exact unstake_dust hc (reachable_pool hr hi hv) hpw hfree hxa hom ha hs hm

example : FailsWith (Demo.ctx 1003) Demo.L4 (Demo.unstakeAccs Demo.R255) (.Unstake 0 255)
    (.custom .InsufficientUnstakeAmount) :=
  C28_unstake_dust_refused Demo.reach4 rfl Demo.init4 Demo.va_addr (Demo.unstakeCall Demo.R255) Demo.r255_addr
    (by decide +kernel) Demo.ux_ok4 (by decide +kernel) (by decide +kernel) (by decide +kernel) Demo.orca_ok4

end Xorca
