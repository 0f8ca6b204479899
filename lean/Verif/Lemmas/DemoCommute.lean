import Verif.Lemmas.BankRun
import Verif.Lemmas.DemoBank
/-
The chain with two holders, one step further: the user has asked to leave, and the calls of `Props/Commute.lean`.
-/
namespace Xorca.Demo
open Xorca.Spec

def m5 : Res Outcome := entry (ctx 1003) PROGRAM_ID M4 (leaverU.unstakeAccs ST VA) (1 :: u64le 1000000 ++ [255])
def M5 : Ledger := outLedger m5

/-! The user's Withdraw, the other's Stake and the other's Unstake, all on `M5`. -/

def m6 : Res Outcome := entry (ctx 1103) PROGRAM_ID M5 (leaverU.withdrawAccs ST VA) [2, 255]
def m7 : Res Outcome := entry (ctx 1103) PROGRAM_ID M5 (leaverD.stakeAccs ST VA) (0 :: u64le 70000)
def m8 : Res Outcome := entry (ctx 1103) PROGRAM_ID M5 (leaverD.unstakeAccs ST VA) (1 :: u64le 200006 ++ [4])

/-! Two Stakes on `M4` in the two orders. -/

def s1 : Res Outcome := entry (ctx 1003) PROGRAM_ID M4 (leaverU.stakeAccs ST VA) (0 :: u64le 3000000)
def s2 : Res Outcome := entry (ctx 1003) PROGRAM_ID (outLedger s1) (leaverD.stakeAccs ST VA) (0 :: u64le 2)
def t1 : Res Outcome := entry (ctx 1003) PROGRAM_ID M4 (leaverD.stakeAccs ST VA) (0 :: u64le 2)
def t2 : Res Outcome := entry (ctx 1003) PROGRAM_ID (outLedger t1) (leaverU.stakeAccs ST VA) (0 :: u64le 3000000)

/-- What is used of the ledgers, evaluated together so that the kernel computes each of them once. -/
theorem stepsC :
    isOk m5 = true ∧
    isOk m6 = true ∧
    isOk m7 = true ∧
    isOk m8 = true ∧
    isOk s1 = true ∧
    isOk s2 = true ∧
    isOk t1 = true ∧
    isOk t2 = true ∧
    balance M5 leaverU.orca + recAmount M5 leaverU.record < 2 ^ 64 ∧
    MintOk M5 ORCA_MINT_ID ∧
    balance (outLedger s2) UX = balance (outLedger t2) UX + 1 := by decide +kernel
theorem okM5 : isOk m5 = true := stepsC.1
theorem okM6 : isOk m6 = true := stepsC.2.1
theorem okM7 : isOk m7 = true := stepsC.2.2.1
theorem okM8 : isOk m8 = true := stepsC.2.2.2.1
theorem okS1 : isOk s1 = true := stepsC.2.2.2.2.1
theorem okS2 : isOk s2 = true := stepsC.2.2.2.2.2.1
theorem okT1 : isOk t1 = true := stepsC.2.2.2.2.2.2.1
theorem okT2 : isOk t2 = true := stepsC.2.2.2.2.2.2.2.1
theorem fits5 : balance M5 leaverU.orca + recAmount M5 leaverU.record < 2 ^ 64 := stepsC.2.2.2.2.2.2.2.2.1
theorem orcaM5 : MintOk M5 ORCA_MINT_ID := stepsC.2.2.2.2.2.2.2.2.2.1
theorem stakes_differ : balance (outLedger s2) UX = balance (outLedger t2) UX + 1 := stepsC.2.2.2.2.2.2.2.2.2.2

theorem runM5 : Runs (ctx 1003) M4 (leaverU.unstakeAccs ST VA) (.Unstake 1000000 255) M5 (outLogs m5) :=
  ⟨_, by decide +kernel, out_eq (r := m5) okM5⟩

theorem pool4 : Pool cr M4 ST VA := reachable_pool reachM4 initM4 va_addr

theorem reachM5 : Reachable cr M5 := (Leaver.unstake_one pool4 canU runM5 rfl reachM4 rent_ne).1
theorem pool5 : Pool cr M5 ST VA := (Leaver.unstake_one pool4 canU runM5 rfl reachM4 rent_ne).2.1
theorem initM5 : Initialised cr M5 ST := ⟨⟨_, pool5.acc.addr⟩, pool5.prog, pool5.acc.tag⟩

theorem can5 : leaverU.CanWithdraw cr M5 := by
  obtain ⟨-, -, -, -, -, -, -, h1, h2, h3, h4, -⟩ := Leaver.unstake_one pool4 canU runM5 rfl reachM4 rent_ne
  exact ⟨h1, h2, h3, h4, fits5⟩

theorem canD5 : leaverD.CanUnstake cr ((ctx 1103).rentMin 1024).toNat M5 :=
  Leaver.CanUnstake.next pool4 canU runM5 rfl canD ⟨by decide +kernel, by decide +kernel⟩

theorem canS5 : leaverD.CanStake cr M5 := ⟨canD5.signer, canD5.wallet, canD5.orca, canD5.xorca⟩

theorem runM6 : Runs (ctx 1103) M5 (leaverU.withdrawAccs ST VA) (.Withdraw 255) (outLedger m6) (outLogs m6) :=
  ⟨_, by decide +kernel, out_eq (r := m6) okM6⟩
theorem runM7 : Runs (ctx 1103) M5 (leaverD.stakeAccs ST VA) (.Stake 70000) (outLedger m7) (outLogs m7) :=
  ⟨_, by decide +kernel, out_eq (r := m7) okM7⟩
theorem runM8 : Runs (ctx 1103) M5 (leaverD.unstakeAccs ST VA) (.Unstake 200006 4) (outLedger m8) (outLogs m8) :=
  ⟨_, by decide +kernel, out_eq (r := m8) okM8⟩

theorem runS1 : Runs (ctx 1003) M4 (leaverU.stakeAccs ST VA) (.Stake 3000000) (outLedger s1) (outLogs s1) :=
  ⟨_, by decide +kernel, out_eq (r := s1) okS1⟩
theorem runS2 : Runs (ctx 1003) (outLedger s1) (leaverD.stakeAccs ST VA) (.Stake 2) (outLedger s2) (outLogs s2) :=
  ⟨_, by decide +kernel, out_eq (r := s2) okS2⟩
theorem runT1 : Runs (ctx 1003) M4 (leaverD.stakeAccs ST VA) (.Stake 2) (outLedger t1) (outLogs t1) :=
  ⟨_, by decide +kernel, out_eq (r := t1) okT1⟩
theorem runT2 : Runs (ctx 1003) (outLedger t1) (leaverU.stakeAccs ST VA) (.Stake 3000000) (outLedger t2) (outLogs t2) :=
  ⟨_, by decide +kernel, out_eq (r := t2) okT2⟩


end Xorca.Demo
