import Verif.Demo
import Verif.Lemmas.EnvOk
/-
Facts about the concrete chain of `Verif/Demo.lean`, by evaluation in the kernel.
-/
namespace Xorca.Demo
open Xorca.Spec

/-- The table agrees with SHA-256 and the curve test. -/
theorem table_ok : ∀ e ∈ table, Real.crypto.sha256 e.1 = e.2.1 ∧ Real.crypto.onCurve e.2.1 = e.2.2 := by
  decide +kernel

/-- The hash functions of the demo are the real ones. -/
theorem cr_eq : cr = Real.crypto := by
  have h1 : cr.sha256 = Real.crypto.sha256 := by
    funext m
    change (match table.find? (fun e => e.1 = m) with
      | some e => e.2.1
      | none => Real.crypto.sha256 m) = _
    split
    · next e he =>
      have h := List.find?_some he
      simp only [decide_eq_true_eq] at h
      rw [← h, (table_ok e (List.mem_of_find?_eq_some he)).1]
    · rfl
  have h2 : cr.onCurve = Real.crypto.onCurve := by
    funext m
    change (match table.find? (fun e => e.2.1 = m) with
      | some e => e.2.2
      | none => Real.crypto.onCurve m) = _
    split
    · next e he =>
      have h := List.find?_some he
      simp only [decide_eq_true_eq] at h
      rw [← h, (table_ok e (List.mem_of_find?_eq_some he)).2]
    · rfl
  calc cr = ⟨cr.sha256, cr.onCurve⟩ := rfl
    _ = Real.crypto := by rw [h1, h2]

/-! ### Addresses -/

theorem st_addr : StateAddr cr ST 250 := by unfold StateAddr; decide +kernel
theorem va_addr : VaultAddr cr ST VA 254 := by unfold VaultAddr; decide +kernel
theorem r0_addr : RecordAddr cr US 0 R0 252 := by unfold RecordAddr; decide +kernel
theorem r255_addr : RecordAddr cr US 255 R255 255 := by unfold RecordAddr; decide +kernel

/-- A point of the curve is no derived address, so its owner can sign. -/
theorem onCurve_ne {seeds : List Bytes} {p k : Pubkey} {b : UInt8} (hc : cr.onCurve k = true)
    (h : findProgramAddress cr seeds p = some (k, b)) : False := by
  have := (findProgramAddress_some h).2
  rw [hc] at this
  cases this

theorem us_curve : cr.onCurve US = true := by decide +kernel
theorem deployer_curve : cr.onCurve DEPLOYER_ADDRESS = true := by decide +kernel

theorem us_ne_st (b : UInt8) : ¬ StateAddr cr US b := fun h => onCurve_ne us_curve h

/-- Signers that are points of the curve and do not belong to the program. -/
def Sign (L : Ledger) (accs : List Meta) : Prop :=
  ∀ m ∈ accs, m.isSigner = true → cr.onCurve m.key = true ∧ (L m.key).owner ≠ PROGRAM_ID

instance {L : Ledger} {accs : List Meta} : Decidable (Sign L accs) :=
  inferInstanceAs (Decidable (∀ m ∈ accs, m.isSigner = true → cr.onCurve m.key = true ∧ (L m.key).owner ≠ PROGRAM_ID))

theorem signersOk {L : Ledger} {accs : List Meta} (h : Sign L accs) : SignersOk cr L accs := fun m hm hs =>
  ⟨fun ho => absurd ho (h m hm hs).2, fun _ e => onCurve_ne (h m hm hs).1 e,
    fun _ _ _ _ e => onCurve_ne (h m hm hs).1 e, fun _ _ e => onCurve_ne (h m hm hs).1 e⟩

theorem rent_ne {now : Int64} (n : Nat) : (ctx now).rentMin n ≠ 0 := by
  intro h0
  have h2 : UInt64.ofNat (min ((n + 128) * 6960) 18446744073709551615) = 0 := h0
  have h1 : (UInt64.ofNat (min ((n + 128) * 6960) 18446744073709551615)).toNat =
      min ((n + 128) * 6960) 18446744073709551615 :=
    UInt64.toNat_ofNat_of_lt' (by change _ < 18446744073709551616; omega)
  rw [h2] at h1
  change 0 = _ at h1
  omega

/-! ### The steps -/

theorem out_eq {r : Res Outcome} (h : isOk r = true) : r = .ok (outLedger r, outLogs r) := by
  cases r with
  | ok o => rfl
  | error e => cases h

theorem outL_eq {r : Res Ledger} (h : isOk r = true) : r = .ok (outL r) := by
  cases r with
  | ok o => rfl
  | error e => cases h

def logs1 : List Bytes := outLogs r1
def logs2 : List Bytes := outLogs r2
def logs4 : List Bytes := outLogs r4
def logs5 : List Bytes := outLogs r5
def logs6 : List Bytes := outLogs r6
def logs7 : List Bytes := outLogs r7
def logs8 : List Bytes := outLogs r8
def logs9 : List Bytes := outLogs r9
def logs10 : List Bytes := outLogs r10
def logs11 : List Bytes := outLogs r11
def logsW2 : List Bytes := outLogs w2
def logsB5 : List Bytes := outLogs b5

/-- What is used of the ledgers, evaluated together so that the kernel computes each of them once. -/
theorem steps :
    (isOk r1 = true ∧ Sign L0 initAccs) ∧
    (isOk r2 = true ∧ Sign L1 stakeAccs) ∧
    (isOk r4 = true ∧ Sign L3 stakeAccs) ∧
    (isOk r5 = true ∧ Sign L4 (unstakeAccs R255)) ∧
    (isOk r6 = true ∧ Sign L5 (unstakeAccs R0)) ∧
    (isOk r7 = true ∧ Sign L6 setAccs) ∧
    (isOk r8 = true ∧ Sign L7 setAccs) ∧
    (isOk r9 = true ∧ Sign L8 (withdrawAccs R255)) ∧
    (isOk r10 = true ∧ Sign L9 (unstakeAccs R255)) ∧
    (isOk r11 = true ∧ Sign L10 (withdrawAccs R255)) ∧
    (isOk w2 = true ∧ Sign W1 stakeAccs) ∧
    (isOk b5 = true ∧ Sign B4 stakeAccs) ∧
    (isOk r3 = true ∧ (L2 XORCA_MINT_ID).data.length = 82 ∧ readU8 (L2 XORCA_MINT_ID).data 45 = 1) ∧
    (isOk b4 = true ∧ (L3 XORCA_MINT_ID).data.length = 82 ∧ readU8 (L3 XORCA_MINT_ID).data 45 = 1) ∧
    ((L1 UO).owner = SPL_TOKEN_PROGRAM_ID ∧ readKey (L1 UO).data 32 = US ∧
      (L1 XORCA_MINT_ID).data.length = 82 ∧ readU8 (L1 XORCA_MINT_ID).data 45 = 1) ∧
    ((W2 UO).owner = SPL_TOKEN_PROGRAM_ID ∧ readKey (W2 UO).data 32 = US ∧
      (W2 XORCA_MINT_ID).data.length = 82 ∧ readU8 (W2 XORCA_MINT_ID).data 45 = 1) ∧
    (balance L4 UO = 8200000 ∧ balance L4 VA = 1800000 ∧ balance L4 UX = 1200006 ∧
    supply L4 XORCA_MINT_ID = 1200006 ∧ escrow L4 ST = 0) := by decide +kernel
theorem step1 : (isOk r1 = true ∧ Sign L0 initAccs) := steps.1
theorem step2 : (isOk r2 = true ∧ Sign L1 stakeAccs) := steps.2.1
theorem step4 : (isOk r4 = true ∧ Sign L3 stakeAccs) := steps.2.2.1
theorem step5 : (isOk r5 = true ∧ Sign L4 (unstakeAccs R255)) := steps.2.2.2.1
theorem step6 : (isOk r6 = true ∧ Sign L5 (unstakeAccs R0)) := steps.2.2.2.2.1
theorem step7 : (isOk r7 = true ∧ Sign L6 setAccs) := steps.2.2.2.2.2.1
theorem step8 : (isOk r8 = true ∧ Sign L7 setAccs) := steps.2.2.2.2.2.2.1
theorem step9 : (isOk r9 = true ∧ Sign L8 (withdrawAccs R255)) := steps.2.2.2.2.2.2.2.1
theorem step10 : (isOk r10 = true ∧ Sign L9 (unstakeAccs R255)) := steps.2.2.2.2.2.2.2.2.1
theorem step11 : (isOk r11 = true ∧ Sign L10 (withdrawAccs R255)) := steps.2.2.2.2.2.2.2.2.2.1
theorem stepW2 : (isOk w2 = true ∧ Sign W1 stakeAccs) := steps.2.2.2.2.2.2.2.2.2.2.1
theorem stepB5 : (isOk b5 = true ∧ Sign B4 stakeAccs) := steps.2.2.2.2.2.2.2.2.2.2.2.1
theorem step3 : (isOk r3 = true ∧ (L2 XORCA_MINT_ID).data.length = 82 ∧ readU8 (L2 XORCA_MINT_ID).data 45 = 1) := steps.2.2.2.2.2.2.2.2.2.2.2.2.1
theorem stepB4 : (isOk b4 = true ∧ (L3 XORCA_MINT_ID).data.length = 82 ∧ readU8 (L3 XORCA_MINT_ID).data 45 = 1) := steps.2.2.2.2.2.2.2.2.2.2.2.2.2.1
theorem stepW1 : ((L1 UO).owner = SPL_TOKEN_PROGRAM_ID ∧ readKey (L1 UO).data 32 = US ∧
      (L1 XORCA_MINT_ID).data.length = 82 ∧ readU8 (L1 XORCA_MINT_ID).data 45 = 1) := steps.2.2.2.2.2.2.2.2.2.2.2.2.2.2.1
theorem stepW3 : ((W2 UO).owner = SPL_TOKEN_PROGRAM_ID ∧ readKey (W2 UO).data 32 = US ∧
      (W2 XORCA_MINT_ID).data.length = 82 ∧ readU8 (W2 XORCA_MINT_ID).data 45 = 1) := steps.2.2.2.2.2.2.2.2.2.2.2.2.2.2.2.1
theorem figures4 : (balance L4 UO = 8200000 ∧ balance L4 VA = 1800000 ∧ balance L4 UX = 1200006 ∧
    supply L4 XORCA_MINT_ID = 1200006 ∧ escrow L4 ST = 0) := steps.2.2.2.2.2.2.2.2.2.2.2.2.2.2.2.2

theorem run1 : Runs (ctx 1000) L0 initAccs (.Initialize 100) L1 logs1 :=
  ⟨_, by decide +kernel, out_eq (r := r1) step1.1⟩
theorem run2 : Runs (ctx 1001) L1 stakeAccs (.Stake 1000000) L2 logs2 :=
  ⟨_, by decide +kernel, out_eq (r := r2) step2.1⟩
theorem run4 : Runs (ctx 1002) L3 stakeAccs (.Stake 300000) L4 logs4 :=
  ⟨_, by decide +kernel, out_eq (r := r4) step4.1⟩
theorem run5 : Runs (ctx 1003) L4 (unstakeAccs R255) (.Unstake 600000 255) L5 logs5 :=
  ⟨_, by decide +kernel, out_eq (r := r5) step5.1⟩
theorem run6 : Runs (ctx 1004) L5 (unstakeAccs R0) (.Unstake 1000 0) L6 logs6 :=
  ⟨_, by decide +kernel, out_eq (r := r6) step6.1⟩
theorem run7 : Runs (ctx 1005) L6 setAccs (.Set (.UpdateCoolDownPeriod 50)) L7 logs7 :=
  ⟨_, by decide +kernel, out_eq (r := r7) step7.1⟩
theorem run8 : Runs (ctx 1006) L7 setAccs (.Set (.UpdateUpdateAuthority AU)) L8 logs8 :=
  ⟨_, by decide +kernel, out_eq (r := r8) step8.1⟩
theorem run9 : Runs (ctx 1103) L8 (withdrawAccs R255) (.Withdraw 255) L9 logs9 :=
  ⟨_, by decide +kernel, out_eq (r := r9) step9.1⟩
theorem run10 : Runs (ctx 1104) L9 (unstakeAccs R255) (.Unstake 2000 255) L10 logs10 :=
  ⟨_, by decide +kernel, out_eq (r := r10) step10.1⟩
theorem run11 : Runs (ctx 1154) L10 (withdrawAccs R255) (.Withdraw 255) L11 logs11 :=
  ⟨_, by decide +kernel, out_eq (r := r11) step11.1⟩
theorem runW2 : Runs (ctx 1001) W1 stakeAccs (.Stake 18446744073709551600) W2 logsW2 :=
  ⟨_, by decide +kernel, out_eq (r := w2) stepW2.1⟩
theorem runB5 : Runs (ctx 1002) B4 stakeAccs (.Stake 1000) B5 logsB5 :=
  ⟨_, by decide +kernel, out_eq (r := b5) stepB5.1⟩

theorem transfer3 : splTransfer L2 UO VA US 500000 = .ok L3 := outL_eq (r := r3) step3.1
theorem burnB4 : splBurn L3 UX XORCA_MINT_ID US 1000000 = .ok B4 := outL_eq (r := b4) stepB4.1

theorem signers1 : SignersOk cr L0 initAccs := signersOk step1.2
theorem signers2 : SignersOk cr L1 stakeAccs := signersOk step2.2
theorem signers4 : SignersOk cr L3 stakeAccs := signersOk step4.2
theorem signers5 : SignersOk cr L4 (unstakeAccs R255) := signersOk step5.2
theorem signers6 : SignersOk cr L5 (unstakeAccs R0) := signersOk step6.2
theorem signers7 : SignersOk cr L6 setAccs := signersOk step7.2
theorem signers8 : SignersOk cr L7 setAccs := signersOk step8.2
theorem signers9 : SignersOk cr L8 (withdrawAccs R255) := signersOk step9.2
theorem signers10 : SignersOk cr L9 (unstakeAccs R255) := signersOk step10.2
theorem signers11 : SignersOk cr L10 (withdrawAccs R255) := signersOk step11.2
theorem signersW2 : SignersOk cr W1 stakeAccs := signersOk stepW2.2
theorem signersB5 : SignersOk cr B4 stakeAccs := signersOk stepB5.2

/-- A property of all accounts of a listed ledger. -/
theorem ledgerOf_forall {P : Account → Prop} {l : List (Pubkey × Account)} (h0 : P ⟨0, SYSTEM_PROGRAM_ID, []⟩)
    (h : ∀ e ∈ l, P e.2) (k : Pubkey) : P (ledgerOf l k) := by
  unfold ledgerOf
  split
  · next e he => exact h e (List.mem_of_find?_eq_some he)
  · exact h0

theorem genesis : Genesis L0 where
  blank k h := by
    exfalso
    revert h
    exact ledgerOf_forall (P := fun a => a.owner ≠ PROGRAM_ID) (by decide +kernel) (by decide +kernel) k
  shape := fun _ => Or.inr (by decide +kernel)

theorem shape {a : Account} (h : a.data.length = 82 ∧ readU8 a.data 45 = 1) : MintShape a := fun _ => Or.inr h

theorem env3 : EnvStep cr L2 L3 := envStep_transfer transfer3 us_ne_st (shape step3.2)

theorem sys_ne_st (b : UInt8) : ¬ StateAddr cr SYSTEM_PROGRAM_ID b := fun h => by
  have := st_addr.symm.trans h
  revert this
  simp only [Option.some.injEq, Prod.mk.injEq]
  intro e; exact absurd e.1 (by decide +kernel)
theorem inc_ne_st (b : UInt8) : ¬ StateAddr cr INCINERATOR_ID b := fun h => by
  have := st_addr.symm.trans h
  revert this
  simp only [Option.some.injEq, Prod.mk.injEq]
  intro e; exact absurd e.1 (by decide +kernel)

theorem envB4 : EnvStep cr L3 B4 :=
  envStep_burn burnB4 us_ne_st sys_ne_st inc_ne_st (shape stepB4.2)

/-- Others change the amount of a token account of a user. -/
theorem envStep_amount {L : Ledger} {k : Pubkey} {n : UInt64} (h0 : (L k).owner = SPL_TOKEN_PROGRAM_ID)
    (h1 : ∀ b, ¬ StateAddr cr (readKey (L k).data 32) b) (hx : k ≠ XORCA_MINT_ID)
    (hs : MintShape (L XORCA_MINT_ID)) : EnvStep cr L (withAmount L k n) where
  owned q hq _ := by
    have : q ≠ k := fun e => by rw [e, h0] at hq; exact absurd hq (by decide +kernel)
    rw [withAmount, Ledger.set_other _ _ this]; exact ⟨hq, rfl, Nat.le_refl _⟩
  given q hq := by
    by_cases e : q = k
    · subst e
      rw [withAmount, Ledger.set_same] at hq
      exact absurd (h0.symm.trans hq) (by decide +kernel)
    · rw [withAmount, Ledger.set_other _ _ e] at hq ⊢; exact Or.inr ⟨hq, rfl⟩
  token q hq := by
    have : q ≠ k := fun e => by subst e; obtain ⟨b, hb⟩ := hq.owner; exact h1 b hb
    have e : withAmount L k n q = L q := by rw [withAmount, Ledger.set_other _ _ this]
    unfold balance
    rw [e]
    exact ⟨hq.prog, hq.len, fun _ _ _ _ => rfl, hq.state, Nat.le_refl _⟩
  mint hq := by
    have e : withAmount L k n XORCA_MINT_ID = L XORCA_MINT_ID := by rw [withAmount, Ledger.set_other _ _ (Ne.symm hx)]
    unfold supply
    rw [e]
    exact ⟨hq.prog, ⟨rfl, fun _ _ => rfl⟩, Nat.le_refl _⟩
  shape := by rw [withAmount, Ledger.set_other _ _ (Ne.symm hx)]; exact hs

theorem envW1 : EnvStep cr L1 W1 :=
  envStep_amount stepW1.1 (by rw [stepW1.2.1]; exact us_ne_st) (by decide +kernel) (shape stepW1.2.2)
theorem envW3 : EnvStep cr W2 W3 :=
  envStep_amount stepW3.1 (by rw [stepW3.2.1]; exact us_ne_st) (by decide +kernel) (shape stepW3.2.2)

/-! ### Histories -/

def e1 : Entry := ⟨L0, .call (ctx 1000) initAccs (.Initialize 100) logs1, L1⟩
def e2 : Entry := ⟨L1, .call (ctx 1001) stakeAccs (.Stake 1000000) logs2, L2⟩
def e3 : Entry := ⟨L2, .env, L3⟩
def e4 : Entry := ⟨L3, .call (ctx 1002) stakeAccs (.Stake 300000) logs4, L4⟩
def e5 : Entry := ⟨L4, .call (ctx 1003) (unstakeAccs R255) (.Unstake 600000 255) logs5, L5⟩
def e6 : Entry := ⟨L5, .call (ctx 1004) (unstakeAccs R0) (.Unstake 1000 0) logs6, L6⟩
def e7 : Entry := ⟨L6, .call (ctx 1005) setAccs (.Set (.UpdateCoolDownPeriod 50)) logs7, L7⟩
def e8 : Entry := ⟨L7, .call (ctx 1006) setAccs (.Set (.UpdateUpdateAuthority AU)) logs8, L8⟩
def e9 : Entry := ⟨L8, .call (ctx 1103) (withdrawAccs R255) (.Withdraw 255) logs9, L9⟩
def e10 : Entry := ⟨L9, .call (ctx 1104) (unstakeAccs R255) (.Unstake 2000 255) logs10, L10⟩
def e11 : Entry := ⟨L10, .call (ctx 1154) (withdrawAccs R255) (.Withdraw 255) logs11, L11⟩
def eB4 : Entry := ⟨L3, .env, B4⟩
def eB5 : Entry := ⟨B4, .call (ctx 1002) stakeAccs (.Stake 1000) logsB5, B5⟩

theorem hist0 : Hist cr [] L0 := ⟨L0, genesis, .nil⟩
/-- One more call. -/
theorem hist_call {h : List Entry} {L L' : Ledger} {now : Int64} {accs : List Meta} {ix : Instruction}
    {logs : List Bytes} (hh : Hist cr h L) (hs : SignersOk cr L accs) (hr : Runs (ctx now) L accs ix L' logs) :
    Hist cr (⟨L, .call (ctx now) accs ix logs, L'⟩ :: h) L' := by
  obtain ⟨G, hg, hp⟩ := hh
  exact ⟨G, hg, .step hp (.call rfl rent_ne hs hr)⟩
/-- One more step of the environment. -/
theorem hist_env {h : List Entry} {L L' : Ledger} (hh : Hist cr h L) (he : EnvStep cr L L') :
    Hist cr (⟨L, .env, L'⟩ :: h) L' := by
  obtain ⟨G, hg, hp⟩ := hh
  exact ⟨G, hg, .step hp (.env he)⟩

theorem hist1 : Hist cr [e1] L1 := hist_call hist0 signers1 run1
theorem hist2 : Hist cr [e2, e1] L2 := hist_call hist1 signers2 run2
theorem hist3 : Hist cr [e3, e2, e1] L3 := hist_env hist2 env3
theorem hist4 : Hist cr [e4, e3, e2, e1] L4 := hist_call hist3 signers4 run4
theorem hist5 : Hist cr [e5, e4, e3, e2, e1] L5 := hist_call hist4 signers5 run5
theorem hist6 : Hist cr [e6, e5, e4, e3, e2, e1] L6 := hist_call hist5 signers6 run6
theorem hist7 : Hist cr [e7, e6, e5, e4, e3, e2, e1] L7 := hist_call hist6 signers7 run7
theorem hist8 : Hist cr [e8, e7, e6, e5, e4, e3, e2, e1] L8 := hist_call hist7 signers8 run8
theorem hist9 : Hist cr [e9, e8, e7, e6, e5, e4, e3, e2, e1] L9 := hist_call hist8 signers9 run9
theorem hist10 : Hist cr [e10, e9, e8, e7, e6, e5, e4, e3, e2, e1] L10 := hist_call hist9 signers10 run10
theorem hist11 : Hist cr [e11, e10, e9, e8, e7, e6, e5, e4, e3, e2, e1] L11 := hist_call hist10 signers11 run11
theorem histB4 : Hist cr [eB4, e3, e2, e1] B4 := hist_env hist3 envB4
theorem histB5 : Hist cr [eB5, eB4, e3, e2, e1] B5 := hist_call histB4 signersB5 runB5

theorem reach0 : Reachable cr L0 := ⟨_, hist0⟩
theorem reach1 : Reachable cr L1 := ⟨_, hist1⟩
theorem reach2 : Reachable cr L2 := ⟨_, hist2⟩
theorem reach3 : Reachable cr L3 := ⟨_, hist3⟩
theorem reach4 : Reachable cr L4 := ⟨_, hist4⟩
theorem reach5 : Reachable cr L5 := ⟨_, hist5⟩
theorem reach6 : Reachable cr L6 := ⟨_, hist6⟩
theorem reach7 : Reachable cr L7 := ⟨_, hist7⟩
theorem reach8 : Reachable cr L8 := ⟨_, hist8⟩
theorem reach9 : Reachable cr L9 := ⟨_, hist9⟩
theorem reach10 : Reachable cr L10 := ⟨_, hist10⟩
theorem reachW3 : Reachable cr W3 := ⟨_, hist_env (hist_call (hist_env hist1 envW1) signersW2 runW2) envW3⟩
theorem reachB4 : Reachable cr B4 := ⟨_, histB4⟩
theorem reachB5 : Reachable cr B5 := ⟨_, histB5⟩

end Xorca.Demo
