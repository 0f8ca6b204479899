import Verif.Lemmas.DemoWorld
import Verif.Lemmas.Freeze
/-
A chain on which the ORCA mint has a freeze authority, which freezes the vault and thaws it again.
-/
namespace Xorca.Demo
open Xorca.Spec

/-- As `L0`, but the user may freeze ORCA accounts. -/
def F0 : Ledger :=
  L0.set ORCA_MINT_ID ⟨1461600, SPL_TOKEN_PROGRAM_ID, packKey (mintData US 100000000) 46 (some US)⟩

def f1 : Res Outcome := entry (ctx 1000) PROGRAM_ID F0 initAccs (3 :: i64le 100)
def F1 : Ledger := outLedger f1
def f2 : Res Outcome := entry (ctx 1001) PROGRAM_ID F1 stakeAccs (0 :: u64le 1000000)
def F2 : Ledger := outLedger f2
def f3 : Res Ledger := tokenExec (ctx 0).rentMin usSigns F2 (.freeze VA ORCA_MINT_ID US [] false)
def F3 : Ledger := outL f3
def f4 : Res Outcome := entry (ctx 1003) PROGRAM_ID F3 (unstakeAccs R255) (1 :: u64le 600000 ++ [255])
def F4 : Ledger := outLedger f4
def f5 : Res Ledger := tokenExec (ctx 0).rentMin usSigns F4 (.freeze VA ORCA_MINT_ID US [] true)
def F5 : Ledger := outL f5
def f6 : Res Outcome := entry (ctx 1200) PROGRAM_ID F5 (withdrawAccs R255) [2, 255]
def F6 : Ledger := outLedger f6

/-- What is used of the ledgers, evaluated together so that the kernel computes each of them once. -/
theorem stepsF :
    (isOk f1 = true ∧ Sign F0 initAccs ∧ LamportsFit F0 initAccs) ∧
    (isOk f2 = true ∧ Sign F1 stakeAccs ∧ LamportsFit F1 stakeAccs) ∧
    (isOk f4 = true ∧ Sign F3 (unstakeAccs R255) ∧ LamportsFit F3 (unstakeAccs R255)) ∧
    isOk f3 = true ∧
    isOk f5 = true ∧
    isOk f6 = true ∧
    ((F3 ST).owner = PROGRAM_ID ∧ readU8 (F3 ST).data 0 = 1) ∧
    ((F3 VA).owner = SPL_TOKEN_PROGRAM_ID ∧ (F3 VA).data.length = 165 ∧ readU8 (F3 VA).data 108 = 2 ∧
      readKey (F3 VA).data 0 = ORCA_MINT_ID) ∧
    ((F4 VA).owner = SPL_TOKEN_PROGRAM_ID ∧ (F4 VA).data.length = 165 ∧ readU8 (F4 VA).data 108 = 2 ∧
      readKey (F4 VA).data 0 = ORCA_MINT_ID) ∧
    readU8 (F2 VA).data 108 ≠ 2 ∧
    (IsRecord F4 R255 ∧ recOwner F4 R255 = US ∧ recIndex F4 R255 = 255 ∧ recTime F4 R255 = 1103 ∧
    recAmount F4 R255 = 600000 ∧ balance F4 VA = 1000000 ∧ balance F5 UO + 600000 = balance F6 UO) := by decide +kernel
theorem stepF1 : isOk f1 = true ∧ Sign F0 initAccs ∧ LamportsFit F0 initAccs := stepsF.1
theorem stepF2 : isOk f2 = true ∧ Sign F1 stakeAccs ∧ LamportsFit F1 stakeAccs := stepsF.2.1
theorem stepF4 : isOk f4 = true ∧ Sign F3 (unstakeAccs R255) ∧ LamportsFit F3 (unstakeAccs R255) := stepsF.2.2.1
theorem okF3 : isOk f3 = true := stepsF.2.2.2.1
theorem okF5 : isOk f5 = true := stepsF.2.2.2.2.1
theorem okF6 : isOk f6 = true := stepsF.2.2.2.2.2.1
theorem startedF3 : (F3 ST).owner = PROGRAM_ID ∧ readU8 (F3 ST).data 0 = 1 := stepsF.2.2.2.2.2.2.1
theorem iceF3 : (F3 VA).owner = SPL_TOKEN_PROGRAM_ID ∧ (F3 VA).data.length = 165 ∧ readU8 (F3 VA).data 108 = 2 ∧
      readKey (F3 VA).data 0 = ORCA_MINT_ID := stepsF.2.2.2.2.2.2.2.1
theorem iceF4 : (F4 VA).owner = SPL_TOKEN_PROGRAM_ID ∧ (F4 VA).data.length = 165 ∧ readU8 (F4 VA).data 108 = 2 ∧
      readKey (F4 VA).data 0 = ORCA_MINT_ID := stepsF.2.2.2.2.2.2.2.2.1
theorem thawF2 : readU8 (F2 VA).data 108 ≠ 2 := stepsF.2.2.2.2.2.2.2.2.2.1
theorem figuresF : IsRecord F4 R255 ∧ recOwner F4 R255 = US ∧ recIndex F4 R255 = 255 ∧ recTime F4 R255 = 1103 ∧
    recAmount F4 R255 = 600000 ∧ balance F4 VA = 1000000 ∧ balance F5 UO + 600000 = balance F6 UO :=
  stepsF.2.2.2.2.2.2.2.2.2.2

theorem runF1 : Runs (ctx 1000) F0 initAccs (.Initialize 100) F1 (outLogs f1) :=
  ⟨_, by decide +kernel, out_eq (r := f1) stepF1.1⟩
theorem runF2 : Runs (ctx 1001) F1 stakeAccs (.Stake 1000000) F2 (outLogs f2) :=
  ⟨_, by decide +kernel, out_eq (r := f2) stepF2.1⟩
theorem freezeF3 : tokenExec (ctx 0).rentMin usSigns F2 (.freeze VA ORCA_MINT_ID US [] false) = .ok F3 :=
  outL_eq (r := f3) okF3
theorem runF4 : Runs (ctx 1003) F3 (unstakeAccs R255) (.Unstake 600000 255) F4 (outLogs f4) :=
  ⟨_, by decide +kernel, out_eq (r := f4) stepF4.1⟩
theorem thawF5 : tokenExec (ctx 0).rentMin usSigns F4 (.freeze VA ORCA_MINT_ID US [] true) = .ok F5 :=
  outL_eq (r := f5) okF5
theorem runF6 : Runs (ctx 1200) F5 (withdrawAccs R255) (.Withdraw 255) F6 (outLogs f6) :=
  ⟨_, by decide +kernel, out_eq (r := f6) okF6⟩

theorem setF {P : Account → Prop} (h : ∀ k, P (L0 k))
    (h2 : P ⟨1461600, SPL_TOKEN_PROGRAM_ID, packKey (mintData US 100000000) 46 (some US)⟩) (k : Pubkey) : P (F0 k) := by
  unfold F0
  by_cases hk : k = ORCA_MINT_ID
  · subst hk; rw [Ledger.set_same]; exact h2
  · rw [Ledger.set_other _ _ hk]; exact h k

theorem genesisF : Genesis F0 :=
  ⟨setF (P := fun a => a.owner = PROGRAM_ID → AllZero a.data) genesis.blank (fun h => absurd h (by decide +kernel)),
    fun _ => Or.inr (by decide +kernel)⟩

theorem steadyF : Steady cr F0 where
  state k b h := by
    obtain ⟨rfl, -⟩ := stateAddr_unique h st_addr
    decide +kernel
  nobody b := ⟨sys_ne_st b, inc_ne_st b⟩
  sound := setF (P := fun a => a.owner = SPL_TOKEN_PROGRAM_ID → TokenSound a) steady0.sound
    (fun _ => ⟨fun h => absurd h (by decide +kernel), fun h => absurd h (by decide +kernel)⟩)
  mint := by decide +kernel

/-- Initialize, stake, and the vault is frozen. -/
def startF : List Entry := [
  ⟨F2, .env, F3⟩,
  ⟨F1, .call (ctx 1001) stakeAccs (.Stake 1000000) (outLogs f2), F2⟩,
  ⟨F0, .call (ctx 1000) initAccs (.Initialize 100) (outLogs f1), F1⟩]

/-- An unstake meanwhile, and the vault is thawed. -/
def restF : List Entry := [
  ⟨F4, .env, F5⟩,
  ⟨F3, .call (ctx 1003) (unstakeAccs R255) (.Unstake 600000 255) (outLogs f4), F4⟩]

theorem worldF2 : World cr F0 startF.tail F2 :=
  world_call (world_call .nil (signersOk stepF1.2.1) stepF1.2.2 runF1)
    (signersOk stepF2.2.1) stepF2.2.2 runF2

theorem outF3 : Outside cr F2 F3 := .token rent_ne us_notPool freezeF3

theorem worldF3 : World cr F0 startF F3 := world_out worldF2 outF3

theorem realF3 : Entry.Real cr ⟨F2, .env, F3⟩ := .out outF3

theorem worldF4 : World cr F3 [⟨F3, .call (ctx 1003) (unstakeAccs R255) (.Unstake 600000 255) (outLogs f4), F4⟩] F4 :=
  world_call .nil (signersOk stepF4.2.1) stepF4.2.2 runF4

theorem worldF5 : World cr F3 restF F5 := world_out worldF4 (.token rent_ne us_notPool thawF5)

theorem worldF45 : World cr F4 [⟨F4, .env, F5⟩] F5 := world_out .nil (.token rent_ne us_notPool thawF5)

theorem steadyF2 : Steady cr F2 := (world_path steadyF worldF2).2.1

/-- The lamports of the accounts fit into 64 bits. -/
theorem fits :
    LamportsFit L4 (unstakeAccs R255) ∧
    LamportsFit L5 (unstakeAccs R0) ∧
    LamportsFit L6 setAccs ∧
    LamportsFit L7 setAccs := by decide +kernel
theorem fit5 : LamportsFit L4 (unstakeAccs R255) := fits.1
theorem fit6 : LamportsFit L5 (unstakeAccs R0) := fits.2.1
theorem fit7 : LamportsFit L6 setAccs := fits.2.2.1
theorem fit8 : LamportsFit L7 setAccs := fits.2.2.2

theorem world8 : World cr L0 [e8, e7, e6, e5, e4, e3, e2, e1] L8 :=
  world_call (world_call (world_call (world_call world4 signers5 fit5 run5)
    signers6 fit6 run6) signers7 fit7 run7)
    signers8 fit8 run8

theorem frozenF3 : FrozenToken ORCA_MINT_ID (F3 VA) :=
  ⟨iceF3.1, iceF3.2.1, iceF3.2.2.2, iceF3.2.2.1⟩
theorem frozenF4 : FrozenToken ORCA_MINT_ID (F4 VA) :=
  ⟨iceF4.1, iceF4.2.1, iceF4.2.2.2, iceF4.2.2.1⟩
theorem thawnF2 : ¬ FrozenToken ORCA_MINT_ID (F2 VA) := fun h => absurd h.state thawF2

theorem initF3 : Initialised cr F3 ST := ⟨⟨_, st_addr⟩, startedF3⟩


theorem unfreezable0 : Unfreezable (L0 ORCA_MINT_ID) :=
  ⟨by decide +kernel, by decide +kernel, by decide +kernel, by decide +kernel, by decide +kernel⟩
theorem thawn0 : ¬ FrozenToken ORCA_MINT_ID (L0 VA) := fun h => absurd h.len (by decide +kernel)

end Xorca.Demo
