import Verif.Lemmas.BankRun
import Verif.Lemmas.DemoBank
import Verif.Lemmas.DemoBooks
import Verif.Lemmas.DemoCalls
/-
The chain with two holders: the donation attack whose price is taken back from the empty pool.
-/
namespace Xorca.Demo
open Xorca.Spec

def leaverA0 : Leaver := ⟨US, UX, UO, R0, 0, 252, 1⟩
def leaverA1 : Leaver := ⟨US, UX, UO, R255, 255, 255, 4900000⟩
def leaverV : Leaver := ⟨DEPLOYER_ADDRESS, DX, DO, RD, 4, 255, 1⟩

/-! The attacker stakes 1 unit and gives 5 ORCA to the vault; the victim stakes 0.098 ORCA for 1 unit of xORCA. -/

def p2 : Res Outcome := entry (ctx 1001) PROGRAM_ID M1 (leaverA0.stakeAccs ST VA) (0 :: u64le 1)
def P2 : Ledger := outLedger p2
def p3 : Res Ledger := splTransfer P2 UO VA US 5000000
def P3 : Ledger := outL p3
def p4 : Res Outcome := entry (ctx 1002) PROGRAM_ID P3 (leaverV.stakeAccs ST VA) (0 :: u64le 98000)
def P4 : Ledger := outLedger p4

/-! Both leave; the attacker stakes again and leaves again. -/

def p5 : Res Outcome := entry (ctx 1003) PROGRAM_ID P4 (leaverA0.unstakeAccs ST VA) (1 :: u64le 1 ++ [0])
def P5 : Ledger := outLedger p5
def p6 : Res Outcome := entry (ctx 1004) PROGRAM_ID P5 (leaverV.unstakeAccs ST VA) (1 :: u64le 1 ++ [4])
def P6 : Ledger := outLedger p6
def p7 : Res Outcome := entry (ctx 1005) PROGRAM_ID P6 (leaverA1.stakeAccs ST VA) (0 :: u64le 4900000)
def P7 : Ledger := outLedger p7
def p8 : Res Outcome := entry (ctx 1006) PROGRAM_ID P7 (leaverA1.unstakeAccs ST VA) (1 :: u64le 4900000 ++ [255])
def P8 : Ledger := outLedger p8

/-! All requests are paid. -/

def p9 : Res Outcome := entry (ctx 1200) PROGRAM_ID P8 (leaverA0.withdrawAccs ST VA) [2, 0]
def P9 : Ledger := outLedger p9
def p10 : Res Outcome := entry (ctx 1200) PROGRAM_ID P9 (leaverV.withdrawAccs ST VA) [2, 4]
def P10 : Ledger := outLedger p10
def p11 : Res Outcome := entry (ctx 1200) PROGRAM_ID P10 (leaverA1.withdrawAccs ST VA) [2, 255]
def P11 : Ledger := outLedger p11

/-! The attacker leaves before the victim has come. -/

def o4 : Res Outcome := entry (ctx 1003) PROGRAM_ID P3 (leaverA0.unstakeAccs ST VA) (1 :: u64le 1 ++ [0])
def O4 : Ledger := outLedger o4

/-- What is used of the ledgers, evaluated together so that the kernel computes each of them once. -/
theorem stepsP :
    (isOk p2 = true ∧ Sign M1 (leaverA0.stakeAccs ST VA)) ∧
    (isOk p3 = true ∧ (P2 XORCA_MINT_ID).data.length = 82 ∧ readU8 (P2 XORCA_MINT_ID).data 45 = 1) ∧
    (isOk p4 = true ∧ Sign P3 (leaverV.stakeAccs ST VA)) ∧
    (isOk p5 = true ∧ Sign P4 (leaverA0.unstakeAccs ST VA)) ∧
    (isOk p6 = true ∧ Sign P5 (leaverV.unstakeAccs ST VA)) ∧
    (isOk p7 = true ∧ Sign P6 (leaverA1.stakeAccs ST VA)) ∧
    (isOk p8 = true ∧ Sign P7 (leaverA1.unstakeAccs ST VA)) ∧
    (isOk p9 = true ∧ Sign P8 (leaverA0.withdrawAccs ST VA)) ∧
    (isOk p10 = true ∧ Sign P9 (leaverV.withdrawAccs ST VA)) ∧
    (isOk p11 = true ∧ Sign P10 (leaverA1.withdrawAccs ST VA)) ∧
    ((M1 ST).owner = PROGRAM_ID ∧ readU8 (M1 ST).data 0 = 1) ∧
    ((P3 ST).owner = PROGRAM_ID ∧ readU8 (P3 ST).data 0 = 1) ∧
    ((P5 ST).owner = PROGRAM_ID ∧ readU8 (P5 ST).data 0 = 1) ∧
    ((P6 ST).owner = PROGRAM_ID ∧ readU8 (P6 ST).data 0 = 1) ∧
    (supply M1 XORCA_MINT_ID = 0 ∧ balance M1 VA = 0 ∧ balance M1 UO = 10000000 ∧ balance M1 DO = 5000000 ∧
    supply P11 XORCA_MINT_ID = 0 ∧ balance P11 UX = 0 ∧ balance P11 DX = 0 ∧
    balance P11 UO = 10047917 ∧ balance P11 DO = 4951981) ∧
    (isOk o4 = true ∧ Sign P3 (leaverA0.unstakeAccs ST VA)) ∧
    err (entry (ctx 1002) PROGRAM_ID P3 stakeAccsD (0 :: u64le 49000)) = some (.custom .InsufficientStakeAmount) ∧
    ((P2 ST).owner = PROGRAM_ID ∧ readU8 (P2 ST).data 0 = 1) ∧
    supply P2 XORCA_MINT_ID ≠ 0 ∧ (1 : UInt64).toNat ≤ supply P2 XORCA_MINT_ID ∧
    supply P3 XORCA_MINT_ID = supply P2 XORCA_MINT_ID ∧ balance P3 VA = balance P2 VA + 5000000 ∧
    supply P4 XORCA_MINT_ID = supply P3 XORCA_MINT_ID + (1 : UInt64).toNat ∧ escrow P5 ST = escrow P4 ST + 49981 ∧
    escrow P6 ST = escrow P5 ST + 49981 := by decide +kernel
theorem stepP2 : isOk p2 = true ∧ Sign M1 (leaverA0.stakeAccs ST VA) := stepsP.1
theorem stepP3 : isOk p3 = true ∧ (P2 XORCA_MINT_ID).data.length = 82 ∧ readU8 (P2 XORCA_MINT_ID).data 45 = 1 :=
  stepsP.2.1
theorem stepP4 : isOk p4 = true ∧ Sign P3 (leaverV.stakeAccs ST VA) := stepsP.2.2.1
theorem stepP5 : isOk p5 = true ∧ Sign P4 (leaverA0.unstakeAccs ST VA) := stepsP.2.2.2.1
theorem stepP6 : isOk p6 = true ∧ Sign P5 (leaverV.unstakeAccs ST VA) := stepsP.2.2.2.2.1
theorem stepP7 : isOk p7 = true ∧ Sign P6 (leaverA1.stakeAccs ST VA) := stepsP.2.2.2.2.2.1
theorem stepP8 : isOk p8 = true ∧ Sign P7 (leaverA1.unstakeAccs ST VA) := stepsP.2.2.2.2.2.2.1
theorem stepP9 : isOk p9 = true ∧ Sign P8 (leaverA0.withdrawAccs ST VA) := stepsP.2.2.2.2.2.2.2.1
theorem stepP10 : isOk p10 = true ∧ Sign P9 (leaverV.withdrawAccs ST VA) := stepsP.2.2.2.2.2.2.2.2.1
theorem stepP11 : isOk p11 = true ∧ Sign P10 (leaverA1.withdrawAccs ST VA) := stepsP.2.2.2.2.2.2.2.2.2.1
theorem startedM1 : (M1 ST).owner = PROGRAM_ID ∧ readU8 (M1 ST).data 0 = 1 := stepsP.2.2.2.2.2.2.2.2.2.2.1
theorem startedP3 : (P3 ST).owner = PROGRAM_ID ∧ readU8 (P3 ST).data 0 = 1 := stepsP.2.2.2.2.2.2.2.2.2.2.2.1
theorem startedP5 : (P5 ST).owner = PROGRAM_ID ∧ readU8 (P5 ST).data 0 = 1 := stepsP.2.2.2.2.2.2.2.2.2.2.2.2.1
theorem startedP6 : (P6 ST).owner = PROGRAM_ID ∧ readU8 (P6 ST).data 0 = 1 := stepsP.2.2.2.2.2.2.2.2.2.2.2.2.2.1
theorem figuresP : supply M1 XORCA_MINT_ID = 0 ∧ balance M1 VA = 0 ∧ balance M1 UO = 10000000 ∧ balance M1 DO = 5000000 ∧
    supply P11 XORCA_MINT_ID = 0 ∧ balance P11 UX = 0 ∧ balance P11 DX = 0 ∧
    balance P11 UO = 10047917 ∧ balance P11 DO = 4951981 :=
  stepsP.2.2.2.2.2.2.2.2.2.2.2.2.2.2.1
theorem stepO4 : isOk o4 = true ∧ Sign P3 (leaverA0.unstakeAccs ST VA) := stepsP.2.2.2.2.2.2.2.2.2.2.2.2.2.2.2.1
theorem stepR : err (entry (ctx 1002) PROGRAM_ID P3 stakeAccsD (0 :: u64le 49000)) = some (.custom .InsufficientStakeAmount) :=
  stepsP.2.2.2.2.2.2.2.2.2.2.2.2.2.2.2.2.1
theorem figuresG : ((P2 ST).owner = PROGRAM_ID ∧ readU8 (P2 ST).data 0 = 1) ∧
    supply P2 XORCA_MINT_ID ≠ 0 ∧ (1 : UInt64).toNat ≤ supply P2 XORCA_MINT_ID ∧
    supply P3 XORCA_MINT_ID = supply P2 XORCA_MINT_ID ∧ balance P3 VA = balance P2 VA + 5000000 ∧
    supply P4 XORCA_MINT_ID = supply P3 XORCA_MINT_ID + (1 : UInt64).toNat ∧ escrow P5 ST = escrow P4 ST + 49981 ∧
    escrow P6 ST = escrow P5 ST + 49981 :=
  stepsP.2.2.2.2.2.2.2.2.2.2.2.2.2.2.2.2.2

theorem runP2 : Runs (ctx 1001) M1 (leaverA0.stakeAccs ST VA) (.Stake 1) P2 (outLogs p2) :=
  ⟨_, by decide +kernel, out_eq (r := p2) stepP2.1⟩
theorem transferP3 : splTransfer P2 UO VA US 5000000 = .ok P3 := outL_eq (r := p3) stepP3.1
theorem runP4 : Runs (ctx 1002) P3 (leaverV.stakeAccs ST VA) (.Stake 98000) P4 (outLogs p4) :=
  ⟨_, by decide +kernel, out_eq (r := p4) stepP4.1⟩
theorem runP5 : Runs (ctx 1003) P4 (leaverA0.unstakeAccs ST VA) (.Unstake 1 0) P5 (outLogs p5) :=
  ⟨_, by decide +kernel, out_eq (r := p5) stepP5.1⟩
theorem runP6 : Runs (ctx 1004) P5 (leaverV.unstakeAccs ST VA) (.Unstake 1 4) P6 (outLogs p6) :=
  ⟨_, by decide +kernel, out_eq (r := p6) stepP6.1⟩
theorem runP7 : Runs (ctx 1005) P6 (leaverA1.stakeAccs ST VA) (.Stake 4900000) P7 (outLogs p7) :=
  ⟨_, by decide +kernel, out_eq (r := p7) stepP7.1⟩
theorem runP8 : Runs (ctx 1006) P7 (leaverA1.unstakeAccs ST VA) (.Unstake 4900000 255) P8 (outLogs p8) :=
  ⟨_, by decide +kernel, out_eq (r := p8) stepP8.1⟩
theorem runP9 : Runs (ctx 1200) P8 (leaverA0.withdrawAccs ST VA) (.Withdraw 0) P9 (outLogs p9) :=
  ⟨_, by decide +kernel, out_eq (r := p9) stepP9.1⟩
theorem runP10 : Runs (ctx 1200) P9 (leaverV.withdrawAccs ST VA) (.Withdraw 4) P10 (outLogs p10) :=
  ⟨_, by decide +kernel, out_eq (r := p10) stepP10.1⟩
theorem runP11 : Runs (ctx 1200) P10 (leaverA1.withdrawAccs ST VA) (.Withdraw 255) P11 (outLogs p11) :=
  ⟨_, by decide +kernel, out_eq (r := p11) stepP11.1⟩

theorem signersP2 : SignersOk cr M1 (leaverA0.stakeAccs ST VA) := signersOk stepP2.2
theorem signersP4 : SignersOk cr P3 (leaverV.stakeAccs ST VA) := signersOk stepP4.2
theorem signersP5 : SignersOk cr P4 (leaverA0.unstakeAccs ST VA) := signersOk stepP5.2
theorem signersP6 : SignersOk cr P5 (leaverV.unstakeAccs ST VA) := signersOk stepP6.2
theorem signersP7 : SignersOk cr P6 (leaverA1.stakeAccs ST VA) := signersOk stepP7.2
theorem signersP8 : SignersOk cr P7 (leaverA1.unstakeAccs ST VA) := signersOk stepP8.2
theorem signersP9 : SignersOk cr P8 (leaverA0.withdrawAccs ST VA) := signersOk stepP9.2
theorem signersP10 : SignersOk cr P9 (leaverV.withdrawAccs ST VA) := signersOk stepP10.2
theorem signersP11 : SignersOk cr P10 (leaverA1.withdrawAccs ST VA) := signersOk stepP11.2

/-- The transfer is a step of the environment. -/
theorem envP3 : EnvStep cr P2 P3 := envStep_transfer transferP3 us_ne_st (shape stepP3.2)

/-- The whole attack, newest step first. -/
def attack : List Entry := [
  ⟨P10, .call (ctx 1200) (leaverA1.withdrawAccs ST VA) (.Withdraw 255) (outLogs p11), P11⟩,
  ⟨P9, .call (ctx 1200) (leaverV.withdrawAccs ST VA) (.Withdraw 4) (outLogs p10), P10⟩,
  ⟨P8, .call (ctx 1200) (leaverA0.withdrawAccs ST VA) (.Withdraw 0) (outLogs p9), P9⟩,
  ⟨P7, .call (ctx 1006) (leaverA1.unstakeAccs ST VA) (.Unstake 4900000 255) (outLogs p8), P8⟩,
  ⟨P6, .call (ctx 1005) (leaverA1.stakeAccs ST VA) (.Stake 4900000) (outLogs p7), P7⟩,
  ⟨P5, .call (ctx 1004) (leaverV.unstakeAccs ST VA) (.Unstake 1 4) (outLogs p6), P6⟩,
  ⟨P4, .call (ctx 1003) (leaverA0.unstakeAccs ST VA) (.Unstake 1 0) (outLogs p5), P5⟩,
  ⟨P3, .call (ctx 1002) (leaverV.stakeAccs ST VA) (.Stake 98000) (outLogs p4), P4⟩,
  ⟨P2, .env, P3⟩,
  ⟨M1, .call (ctx 1001) (leaverA0.stakeAccs ST VA) (.Stake 1) (outLogs p2), P2⟩]

theorem path_attack : Path cr M1 attack P11 :=
  path_call (path_call (path_call (path_call (path_call (path_call (path_call (path_call (path_env (path_call .nil
    signersP2 runP2) envP3) signersP4 runP4) signersP5 runP5) signersP6 runP6) signersP7 runP7) signersP8 runP8)
    signersP9 runP9) signersP10 runP10) signersP11 runP11

theorem histM1 : Hist cr [⟨M0, .call (ctx 1000) initAccs (.Initialize 100) (outLogs m1), M1⟩] M1 :=
  hist_call ⟨M0, genesisM, .nil⟩ signersM1 runM1
theorem reachP3 : Reachable cr P3 := ⟨_, hist_env (hist_call histM1 signersP2 runP2) envP3⟩
theorem reachP2 : Reachable cr P2 := ⟨_, hist_call histM1 signersP2 runP2⟩
theorem initP2 : Initialised cr P2 ST := ⟨⟨_, st_addr⟩, figuresG.1⟩
theorem reachM1 : Reachable cr M1 := ⟨_, histM1⟩
theorem initM1 : Initialised cr M1 ST := ⟨⟨_, st_addr⟩, startedM1⟩
theorem reachP5 : Reachable cr P5 := by
  obtain ⟨_, hh⟩ := reachP3
  exact ⟨_, hist_call (hist_call hh signersP4 runP4) signersP5 runP5⟩
theorem reachP6 : Reachable cr P6 := by
  obtain ⟨_, hh⟩ := reachP5
  exact ⟨_, hist_call hh signersP6 runP6⟩
theorem initP3 : Initialised cr P3 ST := ⟨⟨_, st_addr⟩, startedP3⟩
theorem initP5 : Initialised cr P5 ST := ⟨⟨_, st_addr⟩, startedP5⟩
theorem initP6 : Initialised cr P6 ST := ⟨⟨_, st_addr⟩, startedP6⟩


/-! The attacker leaves before the victim has come, who is refused with half the amount. -/

theorem runO4 : Runs (ctx 1003) P3 (leaverA0.unstakeAccs ST VA) (.Unstake 1 0) O4 (outLogs o4) :=
  ⟨_, by decide +kernel, out_eq (r := o4) stepO4.1⟩
theorem pathO4 : Path cr P3 [⟨P3, .call (ctx 1003) (leaverA0.unstakeAccs ST VA) (.Unstake 1 0) (outLogs o4), O4⟩] O4 :=
  path_call .nil (signersOk stepO4.2) runO4
theorem refused : Fails (ctx 1002) P3 stakeAccsD (.Stake 49000) (.custom .InsufficientStakeAmount) :=
  fails (0 :: u64le 49000) (by decide +kernel) stepR

/-! A token account of the incinerator receives the only unit of xORCA. -/

def IX : Pubkey := ⟨6 :: List.replicate 31 7, rfl⟩

def Q0 : Ledger := ledgerOf [
  (DEPLOYER_ADDRESS, ⟨1000000000, SYSTEM_PROGRAM_ID, []⟩),
  (US, ⟨1000000000, SYSTEM_PROGRAM_ID, []⟩),
  (ORCA_MINT_ID, ⟨1461600, SPL_TOKEN_PROGRAM_ID, mintData US 100000000⟩),
  (XORCA_MINT_ID, ⟨1461600, SPL_TOKEN_PROGRAM_ID, mintData ST 0⟩),
  (UO, ⟨2039280, SPL_TOKEN_PROGRAM_ID, tokenData ORCA_MINT_ID US 10000000⟩),
  (UX, ⟨2039280, SPL_TOKEN_PROGRAM_ID, tokenData XORCA_MINT_ID US 0⟩),
  (IX, ⟨2039280, SPL_TOKEN_PROGRAM_ID, tokenData XORCA_MINT_ID INCINERATOR_ID 0⟩)]

def q1 : Res Outcome := entry (ctx 1000) PROGRAM_ID Q0 initAccs (3 :: i64le 100)
def Q1 : Ledger := outLedger q1
def q2 : Res Outcome := entry (ctx 1001) PROGRAM_ID Q1 stakeAccs (0 :: u64le 1)
def Q2 : Ledger := outLedger q2
def q3 : Res Ledger := splTransfer Q2 UX IX US 1
def Q3 : Ledger := outL q3

/-- What is used of the ledgers, evaluated together so that the kernel computes each of them once. -/
theorem stepsQ :
    (isOk q1 = true ∧ Sign Q0 initAccs) ∧
    (isOk q2 = true ∧ Sign Q1 stakeAccs) ∧
    (isOk q3 = true ∧ (Q2 XORCA_MINT_ID).data.length = 82 ∧ readU8 (Q2 XORCA_MINT_ID).data 45 = 1) ∧
    ((Q3 ST).owner = PROGRAM_ID ∧ readU8 (Q3 ST).data 0 = 1) ∧
    TokenOk Q3 IX XORCA_MINT_ID INCINERATOR_ID := by decide +kernel
theorem stepQ1 : isOk q1 = true ∧ Sign Q0 initAccs := stepsQ.1
theorem stepQ2 : isOk q2 = true ∧ Sign Q1 stakeAccs := stepsQ.2.1
theorem stepQ3 : isOk q3 = true ∧ (Q2 XORCA_MINT_ID).data.length = 82 ∧ readU8 (Q2 XORCA_MINT_ID).data 45 = 1 :=
  stepsQ.2.2.1
theorem startedQ3 : (Q3 ST).owner = PROGRAM_ID ∧ readU8 (Q3 ST).data 0 = 1 := stepsQ.2.2.2.1
theorem incinerated : TokenOk Q3 IX XORCA_MINT_ID INCINERATOR_ID := stepsQ.2.2.2.2

theorem runQ1 : Runs (ctx 1000) Q0 initAccs (.Initialize 100) Q1 (outLogs q1) :=
  ⟨_, by decide +kernel, out_eq (r := q1) stepQ1.1⟩
theorem runQ2 : Runs (ctx 1001) Q1 stakeAccs (.Stake 1) Q2 (outLogs q2) :=
  ⟨_, by decide +kernel, out_eq (r := q2) stepQ2.1⟩
theorem transferQ3 : splTransfer Q2 UX IX US 1 = .ok Q3 := outL_eq (r := q3) stepQ3.1

theorem reachQ3 : Reachable cr Q3 := by
  have g : Genesis Q0 := by
    refine ⟨fun k h => ?_, fun _ => Or.inr (by decide +kernel)⟩
    exfalso
    revert h
    exact ledgerOf_forall (P := fun a => a.owner ≠ PROGRAM_ID) (by decide +kernel) (by decide +kernel) k
  exact ⟨_, hist_env (hist_call (hist_call ⟨Q0, g, .nil⟩ (signersOk stepQ1.2) runQ1)
    (signersOk stepQ2.2) runQ2) (envStep_transfer transferQ3 us_ne_st (shape stepQ3.2))⟩

theorem initQ3 : Initialised cr Q3 ST := ⟨⟨_, st_addr⟩, startedQ3⟩

end Xorca.Demo
