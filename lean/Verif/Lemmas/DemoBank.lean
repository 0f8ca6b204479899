import Verif.BankRun
import Verif.Lemmas.DemoCalls
/-
A concrete chain with two holders.
-/
namespace Xorca.Demo
open Xorca.Spec

/-- Token accounts of the deployer, who stakes as well. -/
def DO : Pubkey := ⟨4 :: List.replicate 31 7, rfl⟩
def DX : Pubkey := ⟨5 :: List.replicate 31 7, rfl⟩
/-- The record address of the deployer for index 4. -/
def RD : Pubkey := ⟨[244, 92, 194, 68, 66, 17, 47, 241, 75, 192, 76, 176, 168, 73, 22, 158, 148, 216, 36, 195, 129, 8,
  30, 57, 53, 218, 218, 41, 71, 156, 33, 89], rfl⟩

def M0 : Ledger := ledgerOf [
  (DEPLOYER_ADDRESS, ⟨1000000000, SYSTEM_PROGRAM_ID, []⟩),
  (US, ⟨1000000000, SYSTEM_PROGRAM_ID, []⟩),
  (ORCA_MINT_ID, ⟨1461600, SPL_TOKEN_PROGRAM_ID, mintData US 100000000⟩),
  (XORCA_MINT_ID, ⟨1461600, SPL_TOKEN_PROGRAM_ID, mintData ST 0⟩),
  (UO, ⟨2039280, SPL_TOKEN_PROGRAM_ID, tokenData ORCA_MINT_ID US 10000000⟩),
  (UX, ⟨2039280, SPL_TOKEN_PROGRAM_ID, tokenData XORCA_MINT_ID US 0⟩),
  (DO, ⟨2039280, SPL_TOKEN_PROGRAM_ID, tokenData ORCA_MINT_ID DEPLOYER_ADDRESS 5000000⟩),
  (DX, ⟨2039280, SPL_TOKEN_PROGRAM_ID, tokenData XORCA_MINT_ID DEPLOYER_ADDRESS 0⟩)]

def stakeAccsD : List Meta := [⟨DEPLOYER_ADDRESS, true, true⟩, ⟨VA, false, true⟩, ⟨DO, false, true⟩, ⟨DX, false, true⟩,
  ⟨XORCA_MINT_ID, false, true⟩, ⟨ST, false, false⟩, ⟨ORCA_MINT_ID, false, false⟩, ⟨SPL_TOKEN_PROGRAM_ID, false, false⟩]

/-! Initialise, the user stakes 1 ORCA, gives 0.5 ORCA to the vault, the deployer stakes 0.3 ORCA. -/

def m1 : Res Outcome := entry (ctx 1000) PROGRAM_ID M0 initAccs (3 :: i64le 100)
def M1 : Ledger := outLedger m1
def m2 : Res Outcome := entry (ctx 1001) PROGRAM_ID M1 stakeAccs (0 :: u64le 1000000)
def M2 : Ledger := outLedger m2
def m3 : Res Ledger := splTransfer M2 UO VA US 500000
def M3 : Ledger := outL m3
def m4 : Res Outcome := entry (ctx 1002) PROGRAM_ID M3 stakeAccsD (0 :: u64le 300000)
def M4 : Ledger := outLedger m4

/-- Both leave with all they have. -/
def leaverU : Leaver := ⟨US, UX, UO, R255, 255, 255, 1000000⟩
def leaverD : Leaver := ⟨DEPLOYER_ADDRESS, DX, DO, RD, 4, 255, 200006⟩

/-- What a holder who leaves must have. -/
def Has (g : Leaver) : Prop :=
  Blank (M4 g.user) ∧ TokenOk M4 g.orca ORCA_MINT_ID g.user ∧ Blank (M4 g.record) ∧
    ((ctx 1003).rentMin 1024).toNat ≤ (M4 g.user).lamports.toNat + (M4 g.record).lamports.toNat ∧
    TokenOk M4 g.xorca XORCA_MINT_ID g.user ∧ g.amount.toNat ≤ balance M4 g.xorca

instance {g : Leaver} : Decidable (Has g) := inferInstanceAs (Decidable (_ ∧ _))

/-- What is used of the ledgers, evaluated together so that the kernel computes each of them once. -/
theorem stepsM :
    (isOk m1 = true ∧ Sign M0 initAccs) ∧
    (isOk m2 = true ∧ Sign M1 stakeAccs) ∧
    (isOk m3 = true ∧ (M2 XORCA_MINT_ID).data.length = 82 ∧ readU8 (M2 XORCA_MINT_ID).data 45 = 1) ∧
    (isOk m4 = true ∧ Sign M3 stakeAccsD) ∧
    ((M4 ST).owner = PROGRAM_ID ∧ readU8 (M4 ST).data 0 = 1) ∧
    Has leaverU ∧
    Has leaverD := by decide +kernel
theorem stepM1 : isOk m1 = true ∧ Sign M0 initAccs := stepsM.1
theorem stepM2 : isOk m2 = true ∧ Sign M1 stakeAccs := stepsM.2.1
theorem stepM3 : isOk m3 = true ∧ (M2 XORCA_MINT_ID).data.length = 82 ∧ readU8 (M2 XORCA_MINT_ID).data 45 = 1 :=
  stepsM.2.2.1
theorem stepM4 : isOk m4 = true ∧ Sign M3 stakeAccsD := stepsM.2.2.2.1
theorem startedM4 : (M4 ST).owner = PROGRAM_ID ∧ readU8 (M4 ST).data 0 = 1 := stepsM.2.2.2.2.1
theorem hasU : Has leaverU := stepsM.2.2.2.2.2.1
theorem hasD : Has leaverD := stepsM.2.2.2.2.2.2

theorem runM1 : Runs (ctx 1000) M0 initAccs (.Initialize 100) M1 (outLogs m1) :=
  ⟨_, by decide +kernel, out_eq (r := m1) stepM1.1⟩
theorem runM2 : Runs (ctx 1001) M1 stakeAccs (.Stake 1000000) M2 (outLogs m2) :=
  ⟨_, by decide +kernel, out_eq (r := m2) stepM2.1⟩
theorem transferM3 : splTransfer M2 UO VA US 500000 = .ok M3 := outL_eq (r := m3) stepM3.1
theorem runM4 : Runs (ctx 1002) M3 stakeAccsD (.Stake 300000) M4 (outLogs m4) :=
  ⟨_, by decide +kernel, out_eq (r := m4) stepM4.1⟩

theorem signersM1 : SignersOk cr M0 initAccs := signersOk stepM1.2
theorem signersM2 : SignersOk cr M1 stakeAccs := signersOk stepM2.2
theorem signersM4 : SignersOk cr M3 stakeAccsD := signersOk stepM4.2

theorem genesisM : Genesis M0 where
  blank k h := by
    exfalso
    revert h
    exact ledgerOf_forall (P := fun a => a.owner ≠ PROGRAM_ID) (by decide +kernel) (by decide +kernel) k
  shape := fun _ => Or.inr (by decide +kernel)

theorem reachM4 : Reachable cr M4 :=
  ⟨_, hist_call (hist_env (hist_call (hist_call ⟨M0, genesisM, .nil⟩ signersM1 runM1) signersM2 runM2)
    (envStep_transfer transferM3 us_ne_st (shape stepM3.2))) signersM4 runM4⟩

theorem initM4 : Initialised cr M4 ST := ⟨⟨_, st_addr⟩, startedM4⟩

theorem signer_of_curve {k : Pubkey} (h : cr.onCurve k = true) : Signer cr k :=
  ⟨fun _ e => onCurve_ne h e, fun _ _ _ _ e => onCurve_ne h e, fun _ _ _ e => onCurve_ne h e⟩

theorem canU : leaverU.CanUnstake cr ((ctx 1003).rentMin 1024).toNat M4 where
  signer := signer_of_curve us_curve
  wallet := hasU.1
  addr := r255_addr
  orca := hasU.2.1
  free := hasU.2.2.1
  deposit := hasU.2.2.2.1
  xorca := hasU.2.2.2.2.1
  pos := by decide +kernel
  enough := hasU.2.2.2.2.2

theorem canD : leaverD.CanUnstake cr ((ctx 1003).rentMin 1024).toNat M4 where
  signer := signer_of_curve deployer_curve
  wallet := hasD.1
  addr := by unfold RecordAddr; decide +kernel
  orca := hasD.2.1
  free := hasD.2.2.1
  deposit := hasD.2.2.2.1
  xorca := hasD.2.2.2.2.1
  pos := by decide +kernel
  enough := hasD.2.2.2.2.2

end Xorca.Demo
