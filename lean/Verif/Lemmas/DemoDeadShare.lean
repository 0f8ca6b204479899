import Verif.Lemmas.DemoWorld
import Verif.Lemmas.DemoEmptyPool
/-
A chain on which one unit of xORCA is given to a token account of the pool itself.
-/
namespace Xorca.Demo
open Xorca.Spec

/-- A token account for xORCA that belongs to the state address. -/
def SX : Pubkey := ⟨8 :: List.replicate 31 7, rfl⟩

def K0 : Ledger := ledgerOf [
  (DEPLOYER_ADDRESS, ⟨1000000000, SYSTEM_PROGRAM_ID, []⟩),
  (US, ⟨1000000000, SYSTEM_PROGRAM_ID, []⟩),
  (ORCA_MINT_ID, ⟨1461600, SPL_TOKEN_PROGRAM_ID, mintData US 100000000⟩),
  (XORCA_MINT_ID, ⟨1461600, SPL_TOKEN_PROGRAM_ID, mintData ST 0⟩),
  (UO, ⟨2039280, SPL_TOKEN_PROGRAM_ID, tokenData ORCA_MINT_ID US 10000000⟩),
  (UX, ⟨2039280, SPL_TOKEN_PROGRAM_ID, tokenData XORCA_MINT_ID US 0⟩),
  (SX, ⟨2039280, SPL_TOKEN_PROGRAM_ID, tokenData XORCA_MINT_ID ST 0⟩)]

/-! The user stakes 2 units, gives one unit of xORCA to the pool and 5 ORCA to the vault, leaves, and stakes again. -/

def k1 : Res Outcome := entry (ctx 1000) PROGRAM_ID K0 initAccs (3 :: i64le 100)
def K1 : Ledger := outLedger k1
def k2 : Res Outcome := entry (ctx 1001) PROGRAM_ID K1 stakeAccs (0 :: u64le 2)
def K2 : Ledger := outLedger k2
def k3 : Res Ledger := splTransfer K2 UX SX US 1
def K3 : Ledger := outL k3
def k4 : Res Ledger := splTransfer K3 UO VA US 5000000
def K4 : Ledger := outL k4
def k5 : Res Outcome := entry (ctx 1003) PROGRAM_ID K4 (leaverA0.unstakeAccs ST VA) (1 :: u64le 1 ++ [0])
def K5 : Ledger := outLedger k5
def k6 : Res Outcome := entry (ctx 1005) PROGRAM_ID K5 stakeAccs (0 :: u64le 4900000)
def K6 : Ledger := outLedger k6

/-- What is used of the ledgers, evaluated together so that the kernel computes each of them once. -/
theorem stepsK :
    (isOk k1 = true ∧ Sign K0 initAccs ∧ LamportsFit K0 initAccs) ∧
    (isOk k2 = true ∧ Sign K1 stakeAccs ∧ LamportsFit K1 stakeAccs) ∧
    (isOk k5 = true ∧ Sign K4 (leaverA0.unstakeAccs ST VA) ∧ LamportsFit K4 (leaverA0.unstakeAccs ST VA)) ∧
    (isOk k6 = true ∧ Sign K5 stakeAccs ∧ LamportsFit K5 stakeAccs) ∧
    isOk k3 = true ∧
    isOk k4 = true ∧
    ((K3 ST).owner = PROGRAM_ID ∧ readU8 (K3 ST).data 0 = 1) ∧
    ((K3 SX).owner = SPL_TOKEN_PROGRAM_ID ∧ (K3 SX).data.length = 165 ∧ readU8 (K3 SX).data 108 = 1 ∧
      readKey (K3 SX).data 32 = ST ∧ readU32 (K3 SX).data 72 = 0 ∧ readU32 (K3 SX).data 109 = 0 ∧ readU32 (K3 SX).data 129 = 0) ∧
    (mintOf K3 SX = XORCA_MINT_ID ∧ balance K3 SX = 1 ∧ supply K5 XORCA_MINT_ID = 1 ∧
    backing K5 VA ST = 4950982 ∧ supply K6 XORCA_MINT_ID = 100 ∧ supply K3 XORCA_MINT_ID ≤ supply K6 XORCA_MINT_ID) := by decide +kernel
theorem stepK1 : isOk k1 = true ∧ Sign K0 initAccs ∧ LamportsFit K0 initAccs := stepsK.1
theorem stepK2 : isOk k2 = true ∧ Sign K1 stakeAccs ∧ LamportsFit K1 stakeAccs := stepsK.2.1
theorem stepK5 : isOk k5 = true ∧ Sign K4 (leaverA0.unstakeAccs ST VA) ∧ LamportsFit K4 (leaverA0.unstakeAccs ST VA) :=
  stepsK.2.2.1
theorem stepK6 : isOk k6 = true ∧ Sign K5 stakeAccs ∧ LamportsFit K5 stakeAccs := stepsK.2.2.2.1
theorem okK3 : isOk k3 = true := stepsK.2.2.2.2.1
theorem okK4 : isOk k4 = true := stepsK.2.2.2.2.2.1
theorem startedK3 : (K3 ST).owner = PROGRAM_ID ∧ readU8 (K3 ST).data 0 = 1 := stepsK.2.2.2.2.2.2.1
theorem deadToken : (K3 SX).owner = SPL_TOKEN_PROGRAM_ID ∧ (K3 SX).data.length = 165 ∧ readU8 (K3 SX).data 108 = 1 ∧
      readKey (K3 SX).data 32 = ST ∧ readU32 (K3 SX).data 72 = 0 ∧ readU32 (K3 SX).data 109 = 0 ∧ readU32 (K3 SX).data 129 = 0 :=
  stepsK.2.2.2.2.2.2.2.1
theorem figuresK : mintOf K3 SX = XORCA_MINT_ID ∧ balance K3 SX = 1 ∧ supply K5 XORCA_MINT_ID = 1 ∧
    backing K5 VA ST = 4950982 ∧ supply K6 XORCA_MINT_ID = 100 ∧ supply K3 XORCA_MINT_ID ≤ supply K6 XORCA_MINT_ID :=
  stepsK.2.2.2.2.2.2.2.2

theorem runK1 : Runs (ctx 1000) K0 initAccs (.Initialize 100) K1 (outLogs k1) :=
  ⟨_, by decide +kernel, out_eq (r := k1) stepK1.1⟩
theorem runK2 : Runs (ctx 1001) K1 stakeAccs (.Stake 2) K2 (outLogs k2) :=
  ⟨_, by decide +kernel, out_eq (r := k2) stepK2.1⟩
theorem transferK3 : splTransfer K2 UX SX US 1 = .ok K3 := outL_eq (r := k3) okK3
theorem transferK4 : splTransfer K3 UO VA US 5000000 = .ok K4 := outL_eq (r := k4) okK4
theorem runK5 : Runs (ctx 1003) K4 (leaverA0.unstakeAccs ST VA) (.Unstake 1 0) K5 (outLogs k5) :=
  ⟨_, by decide +kernel, out_eq (r := k5) stepK5.1⟩
theorem runK6 : Runs (ctx 1005) K5 stakeAccs (.Stake 4900000) K6 (outLogs k6) :=
  ⟨_, by decide +kernel, out_eq (r := k6) stepK6.1⟩

theorem genesisK : Genesis K0 := by
  refine ⟨fun k h => ?_, fun _ => Or.inr (by decide +kernel)⟩
  exfalso
  revert h
  exact ledgerOf_forall (P := fun a => a.owner ≠ PROGRAM_ID) (by decide +kernel) (by decide +kernel) k

theorem steadyK : Steady cr K0 where
  state k b h := by
    obtain ⟨rfl, -⟩ := stateAddr_unique h st_addr
    decide +kernel
  nobody b := ⟨sys_ne_st b, inc_ne_st b⟩
  sound k _ := by
    have h : ((K0 k).data.length = 165 → readU8 (K0 k).data 108 ≠ 0 → readU32 (K0 k).data 109 = 0 →
        (K0 k).lamports ≠ 0) ∧
        ((K0 k).data.length = 165 → readKey (K0 k).data 0 = XORCA_MINT_ID → readU32 (K0 k).data 109 = 0) :=
      ledgerOf_forall (P := fun a =>
        (a.data.length = 165 → readU8 a.data 108 ≠ 0 → readU32 a.data 109 = 0 → a.lamports ≠ 0) ∧
        (a.data.length = 165 → readKey a.data 0 = XORCA_MINT_ID → readU32 a.data 109 = 0))
        (by decide +kernel) (by decide +kernel) k
    exact ⟨h.1, h.2⟩
  mint := by decide +kernel

theorem accountedK : Accounted K0 := by
  intro S
  unfold totalTokens
  rw [Finset.sum_eq_zero]
  · exact Nat.zero_le _
  · intro k _
    apply tokensOf_account
    exact ledgerOf_forall (P := fun a => a.owner = SPL_TOKEN_PROGRAM_ID → a.data.length = 165 →
      readKey a.data 0 = XORCA_MINT_ID → (readU64 a.data 64).toNat = 0) (by decide +kernel) (by decide +kernel) k

theorem outK3 : Outside cr K2 K3 :=
  .token (rent := (ctx 0).rentMin) (sg := usSigns) (ix := .transfer UX SX US [] 1 none)
    rent_ne us_notPool (transfer_agrees (by decide) transferK3)
theorem outK4 : Outside cr K3 K4 :=
  .token (rent := (ctx 0).rentMin) (sg := usSigns) (ix := .transfer UO VA US [] 5000000 none)
    rent_ne us_notPool (transfer_agrees (by decide) transferK4)

/-- The first steps, up to the gift of one unit to the pool. -/
def startK : List Entry := [
  ⟨K2, .env, K3⟩,
  ⟨K1, .call (ctx 1001) stakeAccs (.Stake 2) (outLogs k2), K2⟩,
  ⟨K0, .call (ctx 1000) initAccs (.Initialize 100) (outLogs k1), K1⟩]

/-- A donation, the departure of the only holder, and their return. -/
def restK : List Entry := [
  ⟨K5, .call (ctx 1005) stakeAccs (.Stake 4900000) (outLogs k6), K6⟩,
  ⟨K4, .call (ctx 1003) (leaverA0.unstakeAccs ST VA) (.Unstake 1 0) (outLogs k5), K5⟩,
  ⟨K3, .env, K4⟩]

theorem worldK3 : World cr K0 startK K3 :=
  world_out (world_call (world_call .nil (signersOk stepK1.2.1) stepK1.2.2 runK1)
    (signersOk stepK2.2.1) stepK2.2.2 runK2) outK3

theorem worldK36 : World cr K3 restK K6 :=
  world_call (world_call (world_out .nil outK4) (signersOk stepK5.2.1) stepK5.2.2 runK5)
    (signersOk stepK6.2.1) stepK6.2.2 runK6

theorem pathK36 : Path cr K3 restK K6 := (world_path (world_path steadyK worldK3).2.1 worldK36).1

theorem initK3 : Initialised cr K3 ST := ⟨⟨_, st_addr⟩, startedK3⟩

theorem deadK3 : PoolToken cr (K3 SX) where
  prog := deadToken.1
  len := deadToken.2.1
  state := Or.inl deadToken.2.2.1
  owner := ⟨_, by rw [deadToken.2.2.2.1]; exact st_addr⟩
  delegate := deadToken.2.2.2.2.1
  native := deadToken.2.2.2.2.2.1
  close := deadToken.2.2.2.2.2.2


end Xorca.Demo
