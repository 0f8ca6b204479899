import Verif.Lemmas.TwiceAux
import Verif.Props.Effects
import Verif.Props.ErrorOrder
import Verif.Props.Errors
/-
C117: what happens if a call is sent twice.
-/
namespace Xorca
open Spec

variable {x y : Ctx} {L L' L1 L2 : Ledger} {accs : List Meta} {logs : List Bytes} {cr : Crypto} {st v : Pubkey} {b : UInt8}

/-- The same accounts and index, any amount and time: the record exists already. -/
theorem C117_unstake_again {a a' : UInt64} {i : UInt8} (h : Runs x L accs (.Unstake a i) L' logs) (hs : SignersOk x.cr L accs) :
    FailsWith y L' accs (.Unstake a' i) (.custom .IncorrectOwner) := by
  obtain ⟨u, st, pw, xa, xm, om, v, sp, tp, _, _, _, _, _, _, r⟩ := processUnstake_run h.dispatch
  obtain ⟨rest, rfl⟩ := r.accs_eq
  obtain ⟨-, -, -, -, -, -, hv, -, hrec, -, -, -, -, -, -, -, -, -, hown, -, -⟩ := Props.C15_unstake_effects h hs
  have hall := (C96_success_passes_all h).1
  have hv5 : (readU8 (L v.key).data 108).toNat ≤ 2 := (hall (contents (165 ≤ (L v.key).data.length ∧
    (readU8 (L v.key).data 108).toNat ≤ 2)) (by simp [checks, unstakeChecks, tokenReads])).2
  have hst : st.key ≠ pw.key := fun he => by
    have := r.pw_prog
    rw [← he, r.st_prog] at this
    exact absurd this (by decide +kernel)
  exact C96_first_failed_check_is_reported
    (.there ⟨r.signer, r.u_w⟩ <| .there r.xm_key <| .there r.om_key <| .there r.tp_key <| .there r.sp_key <|
      .there r.st_w <| .there ((hown _ hst).trans r.st_prog) <| .there (by rw [hv]; exact r.v_prog) <|
      .there (by rw [hv]; exact ⟨r.v_len, hv5⟩) <| .there (by rw [ownerOf, hv]; exact r.v_owner) <|
      .there (by rw [mintOf, hv, r.om_key]; exact r.v_mint) <| .there r.pw_w <|
      .here (by rw [hrec.1]; decide +kernel))

example : FailsWith (Demo.ctx 1003) Demo.L5 (Demo.unstakeAccs Demo.R255) (.Unstake 600000 255) (.custom .IncorrectOwner) :=
  C117_unstake_again Demo.run5 Demo.signers5

/-- The record is gone. -/
theorem C117_withdraw_again {i : UInt8} (h : Runs x L accs (.Withdraw i) L' logs) (hs : SignersOk x.cr L accs)
    (hy : y.cr = x.cr) : FailsWith y L' accs (.Withdraw i) (.custom .IncorrectOwner) := by
  obtain ⟨u, st, pw, oa, v, om, sp, tp, _, _, _, r⟩ := processWithdraw_run h.dispatch
  obtain ⟨rest, rfl⟩ := r.accs_eq
  obtain ⟨-, -, -, -, -, -, -, -, hpw, -, hst, -, -, -, -, hown, -, -⟩ := Props.C14_withdraw_effects h hs
  have hall := (C96_success_passes_all h).1
  have e6 : readU8 (L' st.key).data 6 = readU8 (L st.key).data 6 := by
    rw [readU8, readU8, List.getD_eq_getElem?_getD, List.getD_eq_getElem?_getD, hst.2 6 (by omega)]
  have e7 : readU8 (L' st.key).data 7 = readU8 (L st.key).data 7 := by
    rw [readU8, readU8, List.getD_eq_getElem?_getD, List.getD_eq_getElem?_getD, hst.2 7 (by omega)]
  have e0 : readU8 (L' st.key).data 0 = readU8 (L st.key).data 0 := by
    rw [readU8, readU8, List.getD_eq_getElem?_getD, List.getD_eq_getElem?_getD, hst.2 0 (by omega)]
  have hsa : (stateAddress x.cr L st).1 := hall _ (by simp [checks, withdrawChecks])
  have hva : (vaultAddress x.cr L st v).1 := hall _ (by simp [checks, withdrawChecks])
  have hstp : (L' st.key).owner = PROGRAM_ID := by
    by_cases he : st.key = pw.key
    · have := hst.1
      rw [he, hpw] at this
      have h2 := r.st_len
      rw [he] at h2
      simp only [List.length_nil] at this
      omega
    · rw [hown _ he]; exact r.st_prog
  have hom : (L' ORCA_MINT_ID).owner = SPL_TOKEN_PROGRAM_ID := by
    have he : ORCA_MINT_ID ≠ pw.key := fun he => by
      have := r.pw_prog
      rw [← he, r.om_prog] at this
      exact absurd this (by decide +kernel)
    rw [hown _ he]; exact r.om_prog
  exact C96_first_failed_check_is_reported
    (.there ⟨r.signer, r.u_w⟩ <| .there r.om_key <| .there (by rw [r.om_key]; exact hom) <| .there r.st_w <|
      .there hstp <| .there ⟨by rw [hst.1]; exact r.st_len, by rw [e0]; exact r.st_disc⟩ <|
      .there (by rw [hy, e6]; exact hsa) <| .there (by rw [hy, e7]; exact hva) <| .there r.pw_w <|
      .here (by rw [hpw]; decide +kernel))

example : FailsWith (Demo.ctx 1103) Demo.L9 (Demo.withdrawAccs Demo.R255) (.Withdraw 255) (.custom .IncorrectOwner) :=
  C117_withdraw_again Demo.run9 Demo.signers9 rfl

/-- There is a state already. -/
theorem C117_initialize_again {c c' : Int64} (h : Runs x L accs (.Initialize c) L' logs) (hs : SignersOk x.cr L accs)
    (hy : y.cr = x.cr) : FailsWith y L' accs (.Initialize c') (.custom .StateAccountAlreadyInitialized) := by
  obtain ⟨p, au, st, v, xm, om, sp, tp, ap, _, _, _, r⟩ := processInitialize_run h.dispatch
  obtain ⟨rest, rfl⟩ := r.accs_eq
  obtain ⟨-, -, -, -, b, vb, hsa, -, -, -, -, -, -, hd, -⟩ := Props.C25_initialize_effects h hs
  exact C96_first_failed_check_is_reported
    (.there ⟨r.signer, r.p_w⟩ <| .there r.deployer <| .there r.st_w <| .there ⟨_, _, by rw [hy]; exact hsa⟩ <|
      .there ⟨_, by rw [hy]; exact hsa⟩ <| .here fun hn => by
        rw [hd, List.append_eq_nil_iff] at hn
        simpa using hn.1)

example : FailsWith (Demo.ctx 1000) Demo.L1 Demo.initAccs (.Initialize 100) (.custom .StateAccountAlreadyInitialized) :=
  C117_initialize_again Demo.run1 Demo.signers1 rfl

/-- To set the same period again succeeds and changes nothing. -/
theorem C117_set_period_again {c : Int64} (h : Runs x L accs (.Set (.UpdateCoolDownPeriod c)) L' logs) (hy : y.cr = x.cr) :
    Runs y L' accs (.Set (.UpdateCoolDownPeriod c)) L' [] := by
  obtain ⟨au, st, r, -, -, -⟩ := processSet_coolDown_run h.dispatch
  obtain ⟨rest, rfl⟩ := r.accs_eq
  obtain ⟨r, hc, hL, -⟩ := h.set_coolDown
  have hl : 16 + (i64le c).length ≤ (L st.key).data.length := by have := r.st_len; simp; omega
  have hd : (L' st.key).data = writeAt (L st.key).data 16 (i64le c) := by rw [hL]; simp
  have hk := set_refused (x := y) (L := L') (u := .UpdateCoolDownPeriod c) (accs := au :: st :: rest)
    ⟨⟨rest, rfl⟩, r.signer, r.a_w, r.st_w⟩ (by rw [hL, Ledger.setData_owner]; exact r.st_prog)
    (by rw [hd, writeAt_length hl]; exact r.st_len)
    (by rw [hd, readU8_writeAt_apart hl (by simp [Apart])]; exact r.st_disc)
    (by rw [hy, hd, readU8_writeAt_apart hl (by simp [Apart])]; exact r.st_addr)
  obtain ⟨L2, logs2, h2⟩ := hk.2 (by
      rw [r.auth, authority, authority, hd, readKey_writeAt_apart hl (by simp [Apart])])
    (fun c' hc' => by cases hc'; exact hc)
  obtain ⟨data, hdata, -⟩ := h
  have h3 : Runs y L' (au :: st :: rest) (.Set (.UpdateCoolDownPeriod c)) L2 logs2 :=
    ⟨data, hdata, by rw [entry_eq hdata]; exact h2⟩
  obtain ⟨-, -, e1, e2⟩ := h3.set_coolDown
  rw [hL, setData_again hl, ← hL] at e1
  subst e1 e2
  exact h3

example : Runs (Demo.ctx 1005) Demo.L7 Demo.setAccs (.Set (.UpdateCoolDownPeriod 50)) Demo.L7 [] :=
  C117_set_period_again Demo.run7 rfl

/-- To hand over the authority again is refused, unless it was handed over to oneself. -/
theorem C117_hand_over_again {k : Pubkey} {au st' : Meta} {rest : List Meta}
    (h : Runs x L (au :: st' :: rest) (.Set (.UpdateUpdateAuthority k)) L' logs) (hk : au.key ≠ k) (u : StateUpdateInstruction) :
    FailsWith x L' (au :: st' :: rest) (.Set u) (.custom .IncorrectAccountAddress) := by
  obtain ⟨r, -, -⟩ := h.set_authority
  exact (C53_rotation_is_immediate h rfl ⟨⟨rest, rfl⟩, r.signer, r.a_w, r.st_w⟩ u).1 hk

example : FailsWith (Demo.ctx 1006) Demo.L8 Demo.setAccs (.Set (.UpdateUpdateAuthority Demo.AU)) (.custom .IncorrectAccountAddress) :=
  C117_hand_over_again Demo.run8 (by decide +kernel) _

/-- To hand it over to oneself twice: the second call succeeds, changes nothing, and reports the hand-over again. -/
theorem C117_keep_again {au st' : Meta} {rest : List Meta}
    (h : Runs x L (au :: st' :: rest) (.Set (.UpdateUpdateAuthority au.key)) L' logs) :
    Runs x L' (au :: st' :: rest) (.Set (.UpdateUpdateAuthority au.key)) L' logs := by
  obtain ⟨r, hL, hlog⟩ := h.set_authority
  have hk := au.key.len
  have hl : 24 + au.key.bytes.length ≤ (L st'.key).data.length := by have := r.st_len; omega
  have hd : (L' st'.key).data = writeAt (L st'.key).data 24 au.key.bytes := by rw [hL]; simp
  have hA : authority L' st'.key = au.key := by rw [authority, hd]; exact readKey_writeAt_same (by omega)
  have h2 := (C53_rotation_is_immediate h rfl ⟨⟨rest, rfl⟩, r.signer, r.a_w, r.st_w⟩ (.UpdateUpdateAuthority au.key)).2 rfl
    (fun c hc => by cases hc)
  obtain ⟨data, hdata, -⟩ := h
  obtain ⟨L2, logs2, h2⟩ := h2 data hdata
  have h3 : Runs x L' (au :: st' :: rest) (.Set (.UpdateUpdateAuthority au.key)) L2 logs2 := ⟨data, hdata, h2⟩
  obtain ⟨-, e1, e2⟩ := h3.set_authority
  rw [hL, setData_again hl, ← hL] at e1
  rw [hA] at e2
  rw [← r.auth] at hlog
  subst e1 hlog e2
  exact h3

example : Runs (Demo.ctx 1005) Demo.kept Demo.setAccs (.Set (.UpdateUpdateAuthority Demo.US)) Demo.kept Demo.keptLogs :=
  C117_keep_again Demo.runKept

/-- The second of two equal stakes mints as much as the first or one unit less. -/
theorem C117_stake_again {a : UInt64} {m m' : Nat} (hr : Reachable cr L) (hi : Initialised cr L st) (hv : VaultAddr cr st v b)
    (h0 : supply L XORCA_MINT_ID ≠ 0) (h1 : Took cr L (.Stake a) L1) (h2 : Took cr L1 (.Stake a) L2)
    (hm : supply L1 XORCA_MINT_ID = supply L XORCA_MINT_ID + m) (hm' : supply L2 XORCA_MINT_ID = supply L1 XORCA_MINT_ID + m') :
    m' ≤ m ∧ m ≤ m' + 1 := by
  have p := reachable_pool hr hi hv
  obtain ⟨s1, s2, -⟩ := h1.stake hr p
  obtain ⟨t1, -, -⟩ := h2.stake (h1.reach hr) (h1.pool hr p)
  have hb := backed p
  have e1 : m = mintFor a.toNat (backing L v st) (supply L XORCA_MINT_ID) := by omega
  have e2 : m' = mintFor a.toNat (backing L v st + a.toNat) (supply L XORCA_MINT_ID + m) := by rw [s2] at t1; rw [hm] at t1 hm'; omega
  rw [mintFor, if_neg (by omega)] at e1 e2
  have k := mint_again (a := a.toNat) (N := backing L v st + 100) (S := supply L XORCA_MINT_ID + 100) (m := m) (by omega)
    (by rw [e1]; exact Nat.div_mul_le_self _ _)
    (by rw [e1]; exact Nat.lt_mul_of_div_lt (Nat.lt_succ_self _) (by omega))
  rw [show supply L XORCA_MINT_ID + 100 + m = supply L XORCA_MINT_ID + m + 100 by omega,
    show backing L v st + 100 + a.toNat = backing L v st + a.toNat + 100 by omega, ← e2] at k
  exact k

/-- Stakes of 300000 at a price of about 1.5: both mint 200006. -/
example := C117_stake_again (m := 200006) (m' := 200006) Demo.reach3 Demo.init3 Demo.va_addr
  (by rw [Demo.supplyTwice.1]; decide) (Demo.took_run Demo.signers4 Demo.run4) Demo.tookTwice
  (by rw [Demo.supplyTwice.1, Demo.supplyTwice.2.1]) (by rw [Demo.supplyTwice.2.1, Demo.supplyTwice.2.2.1])

/-- The second of two equal unstakes (with another index) sets aside as much as the first or one unit more. -/
theorem C117_unstake_twice {a : UInt64} {i i' : UInt8} {w w' : Nat} (hr : Reachable cr L) (hi : Initialised cr L st)
    (hv : VaultAddr cr st v b) (h1 : Took cr L (.Unstake a i) L1) (h2 : Took cr L1 (.Unstake a i') L2)
    (hw : escrow L1 st = escrow L st + w) (hw' : escrow L2 st = escrow L1 st + w') : w ≤ w' ∧ w' ≤ w + 1 := by
  have p := reachable_pool hr hi hv
  obtain ⟨s1, s2, s3⟩ := h1.unstake hr p
  obtain ⟨t1, -, t3⟩ := h2.unstake (h1.reach hr) (h1.pool hr p)
  have hb := backed p
  have e1 : w = redeemFor a.toNat (backing L v st) (supply L XORCA_MINT_ID) := by omega
  have e2 : w' = redeemFor a.toNat (backing L v st - w) (supply L XORCA_MINT_ID - a.toNat) := by
    rw [show backing L1 v st = backing L v st - w by omega,
      show supply L1 XORCA_MINT_ID = supply L XORCA_MINT_ID - a.toNat by omega] at t3
    omega
  have k := redeem_again (a := a.toNat) (N := backing L v st + 100) (S := supply L XORCA_MINT_ID + 100) (w := w)
    (by rw [e1]; exact redeemFor_mul_le _ _ _) (by rw [e1]; exact lt_redeemFor_succ_mul _ _ _) (by omega) (by omega)
  rw [show backing L v st + 100 - w = backing L v st - w + 100 by omega,
    show supply L XORCA_MINT_ID + 100 - a.toNat = supply L XORCA_MINT_ID - a.toNat + 100 by omega] at k
  rw [redeemFor] at e2
  rw [← e2] at k
  exact k

/-- Unstakes of 2000: both set 2999 aside. -/
example := C117_unstake_twice (w := 2999) (w' := 2999) Demo.reach4 Demo.init4 Demo.va_addr Demo.tookEarly Demo.tookTwiceOut
  Demo.dueEarly Demo.supplyTwice.2.2.2.1

end Xorca
