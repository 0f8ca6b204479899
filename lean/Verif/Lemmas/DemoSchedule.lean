import Verif.Lemmas.DemoCommute
import Verif.Lemmas.DemoBooks
/-
The chain with two holders: the user makes two requests and withdraws both to one account.
-/
namespace Xorca.Demo
open Xorca.Spec

def leaverU0 : Leaver := ⟨US, UX, UO, R0, 0, 252, 400000⟩
def leaverU1 : Leaver := ⟨US, UX, UO, R255, 255, 255, 600000⟩

def n5 : Res Outcome := entry (ctx 1003) PROGRAM_ID M4 (leaverU0.unstakeAccs ST VA) (1 :: u64le 400000 ++ [0])
def N5 : Ledger := outLedger n5
def n6 : Res Outcome := entry (ctx 1004) PROGRAM_ID N5 (leaverU1.unstakeAccs ST VA) (1 :: u64le 600000 ++ [255])
def N6 : Ledger := outLedger n6
def n7 : Res Outcome := entry (ctx 1200) PROGRAM_ID N6 (leaverU1.withdrawAccs ST VA) [2, 255]
def N7 : Ledger := outLedger n7
def n8 : Res Outcome := entry (ctx 1200) PROGRAM_ID N7 (leaverU0.withdrawAccs ST VA) [2, 0]
def N8 : Ledger := outLedger n8

/-- What a holder with an open request must have. -/
def Asks (g : Leaver) : Prop :=
  Blank (N6 g.user) ∧ IsRecord N6 g.record ∧ recOwner N6 g.record = g.user ∧ recIndex N6 g.record = g.index

instance {g : Leaver} : Decidable (Asks g) := inferInstanceAs (Decidable (_ ∧ _))

/-- What is used of the ledgers, evaluated together so that the kernel computes each of them once. -/
theorem stepsN :
    (isOk n5 = true ∧ Sign M4 (leaverU0.unstakeAccs ST VA)) ∧
    (isOk n6 = true ∧ Sign N5 (leaverU1.unstakeAccs ST VA)) ∧
    (isOk n7 = true ∧ Sign N6 (leaverU1.withdrawAccs ST VA)) ∧
    (isOk n8 = true ∧ Sign N7 (leaverU0.withdrawAccs ST VA)) ∧
    ((N6 ST).owner = PROGRAM_ID ∧ readU8 (N6 ST).data 0 = 1) ∧
    MintOk N6 ORCA_MINT_ID ∧
    TokenOk N6 UO ORCA_MINT_ID US ∧
    Asks leaverU0 ∧
    Asks leaverU1 := by decide +kernel
theorem stepN5 : isOk n5 = true ∧ Sign M4 (leaverU0.unstakeAccs ST VA) := stepsN.1
theorem stepN6 : isOk n6 = true ∧ Sign N5 (leaverU1.unstakeAccs ST VA) := stepsN.2.1
theorem stepN7 : isOk n7 = true ∧ Sign N6 (leaverU1.withdrawAccs ST VA) := stepsN.2.2.1
theorem stepN8 : isOk n8 = true ∧ Sign N7 (leaverU0.withdrawAccs ST VA) := stepsN.2.2.2.1
theorem startedN6 : (N6 ST).owner = PROGRAM_ID ∧ readU8 (N6 ST).data 0 = 1 := stepsN.2.2.2.2.1
theorem orcaN6 : MintOk N6 ORCA_MINT_ID := stepsN.2.2.2.2.2.1
theorem orcaU6 : TokenOk N6 UO ORCA_MINT_ID US := stepsN.2.2.2.2.2.2.1
theorem asksU0 : Asks leaverU0 := stepsN.2.2.2.2.2.2.2.1
theorem asksU1 : Asks leaverU1 := stepsN.2.2.2.2.2.2.2.2

theorem runN5 : Runs (ctx 1003) M4 (leaverU0.unstakeAccs ST VA) (.Unstake 400000 0) N5 (outLogs n5) :=
  ⟨_, by decide +kernel, out_eq (r := n5) stepN5.1⟩
theorem runN6 : Runs (ctx 1004) N5 (leaverU1.unstakeAccs ST VA) (.Unstake 600000 255) N6 (outLogs n6) :=
  ⟨_, by decide +kernel, out_eq (r := n6) stepN6.1⟩
theorem runN7 : Runs (ctx 1200) N6 (leaverU1.withdrawAccs ST VA) (.Withdraw 255) N7 (outLogs n7) :=
  ⟨_, by decide +kernel, out_eq (r := n7) stepN7.1⟩
theorem runN8 : Runs (ctx 1200) N7 (leaverU0.withdrawAccs ST VA) (.Withdraw 0) N8 (outLogs n8) :=
  ⟨_, by decide +kernel, out_eq (r := n8) stepN8.1⟩

theorem signersN5 : SignersOk cr M4 (leaverU0.unstakeAccs ST VA) := signersOk stepN5.2
theorem signersN6 : SignersOk cr N5 (leaverU1.unstakeAccs ST VA) := signersOk stepN6.2
theorem signersN7 : SignersOk cr N6 (leaverU1.withdrawAccs ST VA) := signersOk stepN7.2
theorem signersN8 : SignersOk cr N7 (leaverU0.withdrawAccs ST VA) := signersOk stepN8.2

theorem reachN6 : Reachable cr N6 := by
  obtain ⟨h, hh⟩ := reachM4
  exact ⟨_, hist_call (hist_call hh signersN5 runN5) signersN6 runN6⟩

theorem initN6 : Initialised cr N6 ST := ⟨⟨_, st_addr⟩, startedN6⟩

theorem requestU0 : leaverU0.HasRequest cr N6 where
  signer := signer_of_curve us_curve
  wallet := asksU0.1
  addr := r0_addr
  orca := orcaU6
  isRecord := asksU0.2.1
  owner := asksU0.2.2.1
  index := asksU0.2.2.2

theorem requestU1 : leaverU1.HasRequest cr N6 where
  signer := signer_of_curve us_curve
  wallet := asksU1.1
  addr := r255_addr
  orca := orcaU6
  isRecord := asksU1.2.1
  owner := asksU1.2.2.1
  index := asksU1.2.2.2

/-! One and the same Unstake before and after some other calls. -/

def late : Ledger := after 1104 L9 (unstakeAccs R255) (1 :: u64le 2000 ++ [255])
def early : Ledger := after 1104 L4 (unstakeAccs R255) (1 :: u64le 2000 ++ [255])
/-- What is used of the ledgers, evaluated together so that the kernel computes each of them once. -/
theorem stepsLate :
    (Sign L9 (unstakeAccs R255) ∧
      isOk (entry (ctx 1104) PROGRAM_ID L9 (unstakeAccs R255) (1 :: u64le 2000 ++ [255])) = true) ∧
    (Sign L4 (unstakeAccs R255) ∧
      isOk (entry (ctx 1104) PROGRAM_ID L4 (unstakeAccs R255) (1 :: u64le 2000 ++ [255])) = true) ∧
    escrow late ST = escrow L9 ST + 2999 ∧
    escrow early ST = escrow L4 ST + 2999 := by decide +kernel
theorem stepLate : Sign L9 (unstakeAccs R255) ∧
      isOk (entry (ctx 1104) PROGRAM_ID L9 (unstakeAccs R255) (1 :: u64le 2000 ++ [255])) = true := stepsLate.1
theorem stepEarly : Sign L4 (unstakeAccs R255) ∧
      isOk (entry (ctx 1104) PROGRAM_ID L4 (unstakeAccs R255) (1 :: u64le 2000 ++ [255])) = true := stepsLate.2.1
theorem dueLate : escrow late ST = escrow L9 ST + 2999 := stepsLate.2.2.1
theorem dueEarly : escrow early ST = escrow L4 ST + 2999 := stepsLate.2.2.2
theorem tookLate : Took cr L9 (.Unstake 2000 255) late := took stepLate.1 (by decide +kernel) stepLate.2
theorem tookEarly : Took cr L4 (.Unstake 2000 255) early := took stepEarly.1 (by decide +kernel) stepEarly.2

end Xorca.Demo
