import Verif.Lemmas.DemoCalls
import Verif.Lemmas.EnvOk
import Verif.Lemmas.Scripts
/-
The concrete chain with associated token accounts of the user, for the scripts.
-/
namespace Xorca.Demo
open Spec

/-- An account that somebody made or changed, outside the pool. -/
theorem envStep_put {L : Ledger} {k : Pubkey} {a : Account} (h0 : (L k).owner = SYSTEM_PROGRAM_ID) (ha : a.owner ≠ PROGRAM_ID)
    (hx : XORCA_MINT_ID ≠ k) (hs : MintShape (L XORCA_MINT_ID)) : EnvStep cr L (L.set k a) := by
  have hk : ∀ k', (L k').owner ≠ SYSTEM_PROGRAM_ID → k' ≠ k := by
    rintro k' h rfl; exact h h0
  refine ⟨?_, ?_, ?_, ?_, ?_⟩
  · intro k' ho _
    rw [Ledger.set_other _ _ (hk k' (by rw [ho]; exact program_ne_system))]
    exact ⟨ho, rfl, Nat.le_refl _⟩
  · intro k' ho
    by_cases h : k' = k
    · subst h; exact absurd (by simpa [Ledger.set] using ho) ha
    · rw [Ledger.set_other _ _ h] at ho ⊢; exact Or.inr ⟨ho, rfl⟩
  · intro k' p
    unfold balance
    rw [Ledger.set_other _ _ (hk k' (by rw [p.prog]; exact token_ne_system))]
    exact ⟨p.prog, p.len, fun _ _ _ _ => rfl, p.state, Nat.le_refl _⟩
  · intro p
    unfold supply
    rw [Ledger.set_other _ _ (hk _ (by rw [p.prog]; exact token_ne_system))]
    exact ⟨p.prog, ⟨rfl, fun _ _ => rfl⟩, Nat.le_refl _⟩
  · rw [Ledger.set_other _ _ hx]; exact hs

/-- Associated ORCA and xORCA accounts of the user. -/
def OA : Pubkey := ⟨[29, 195, 106, 67, 191, 102, 84, 107, 200, 57, 77, 102, 144, 75, 11, 162, 14, 222, 140, 124, 255, 88,
  156, 223, 178, 245, 100, 13, 224, 213, 28, 206], rfl⟩
def XA : Pubkey := ⟨[204, 79, 123, 240, 112, 121, 240, 246, 193, 143, 179, 171, 188, 251, 35, 151, 13, 247, 40, 115, 198,
  52, 48, 7, 6, 170, 197, 217, 163, 205, 48, 18], rfl⟩

theorem oa_addr : findProgramAddress cr [US.bytes, SPL_TOKEN_PROGRAM_ID.bytes, ORCA_MINT_ID.bytes]
    ASSOCIATED_TOKEN_PROGRAM_ID = some (OA, 253) := by decide +kernel
theorem xa_addr : findProgramAddress cr [US.bytes, SPL_TOKEN_PROGRAM_ID.bytes, XORCA_MINT_ID.bytes]
    ASSOCIATED_TOKEN_PROGRAM_ID = some (XA, 253) := by decide +kernel

/-- The fourth and the eighth ledger with these accounts, holding what the user's other accounts hold. -/
def S4 : Ledger := (L4.set OA (L4 UO)).set XA (L4 UX)
def S8 : Ledger := (L8.set OA (L8 UO)).set XA (L8 UX)

/-- Staking 300000 with the script. -/
def sentStake : Scripts.Sent := (Scripts.stake cr S4 US 300000).getD ⟨[], [], false⟩
/-- Unstaking 600000 with the script, index 255. -/
def sentUnstake : Scripts.Sent := (Scripts.unstake cr S4 US 600000 "255".toList).getD ⟨[], [], false⟩
/-- Withdrawing index 255 with the script, five seconds early. -/
def sentWithdraw : Scripts.Sent × Int := (Scripts.withdraw cr S8 US "255".toList 1098).getD (⟨[], [], false⟩, 0)
/-- Setting the cool-down with the script, as the authority of that time. -/
def sentSet : Scripts.Sent := (Scripts.setScript cr S8 AU (.updateCooldown "70".toList)).getD ⟨[], [], false⟩
/-- Initialising with the script. -/
def sentInit : Scripts.Sent := (Scripts.initializeScript cr DEPLOYER_ADDRESS US "100".toList).getD ⟨[], [], false⟩

instance {a : Account} : Decidable (AllZero a.data) := inferInstanceAs (Decidable (∀ x ∈ a.data, x = 0))
instance {a : Account} : Decidable (MintShape a) := inferInstanceAs (Decidable (_ → _ ∨ _))

/-- What is used of the ledgers, evaluated together so that the kernel computes each of them once. -/
theorem sent :
    ((L4 OA).owner = SYSTEM_PROGRAM_ID ∧ (L4 UO).owner ≠ PROGRAM_ID ∧ MintShape (L4 XORCA_MINT_ID)) ∧
    (((L4.set OA (L4 UO)) XA).owner = SYSTEM_PROGRAM_ID ∧ (L4 UX).owner ≠ PROGRAM_ID ∧
      MintShape ((L4.set OA (L4 UO)) XORCA_MINT_ID)) ∧
    ((L8 OA).owner = SYSTEM_PROGRAM_ID ∧ (L8 UO).owner ≠ PROGRAM_ID ∧ MintShape (L8 XORCA_MINT_ID)) ∧
    (((L8.set OA (L8 UO)) XA).owner = SYSTEM_PROGRAM_ID ∧ (L8 UX).owner ≠ PROGRAM_ID ∧
      MintShape ((L8.set OA (L8 UO)) XORCA_MINT_ID)) ∧
    (Scripts.stake cr S4 US 300000).isSome = true ∧
    (Scripts.unstake cr S4 US 600000 "255".toList).isSome = true ∧
    (Scripts.withdraw cr S8 US "255".toList 1098).isSome = true ∧
    (Scripts.setScript cr S8 AU (.updateCooldown "70".toList)).isSome = true ∧
    (Scripts.initializeScript cr DEPLOYER_ADDRESS US "100".toList).isSome = true ∧
    Sign S4 sentStake.keys ∧
    Sign S4 sentUnstake.keys ∧
    Sign L0 sentInit.keys ∧
    Sign S8 sentWithdraw.1.keys := by decide +kernel
theorem putS4a : (L4 OA).owner = SYSTEM_PROGRAM_ID ∧ (L4 UO).owner ≠ PROGRAM_ID ∧ MintShape (L4 XORCA_MINT_ID) := sent.1
theorem putS4 : ((L4.set OA (L4 UO)) XA).owner = SYSTEM_PROGRAM_ID ∧ (L4 UX).owner ≠ PROGRAM_ID ∧
      MintShape ((L4.set OA (L4 UO)) XORCA_MINT_ID) := sent.2.1
theorem putS8a : (L8 OA).owner = SYSTEM_PROGRAM_ID ∧ (L8 UO).owner ≠ PROGRAM_ID ∧ MintShape (L8 XORCA_MINT_ID) :=
  sent.2.2.1
theorem putS8 : ((L8.set OA (L8 UO)) XA).owner = SYSTEM_PROGRAM_ID ∧ (L8 UX).owner ≠ PROGRAM_ID ∧
      MintShape ((L8.set OA (L8 UO)) XORCA_MINT_ID) := sent.2.2.2.1
theorem someStake : (Scripts.stake cr S4 US 300000).isSome = true := sent.2.2.2.2.1
theorem someUnstake : (Scripts.unstake cr S4 US 600000 "255".toList).isSome = true := sent.2.2.2.2.2.1
theorem someWithdraw : (Scripts.withdraw cr S8 US "255".toList 1098).isSome = true := sent.2.2.2.2.2.2.1
theorem someSet : (Scripts.setScript cr S8 AU (.updateCooldown "70".toList)).isSome = true := sent.2.2.2.2.2.2.2.1
theorem someInit : (Scripts.initializeScript cr DEPLOYER_ADDRESS US "100".toList).isSome = true :=
  sent.2.2.2.2.2.2.2.2.1
theorem signStake : Sign S4 sentStake.keys := sent.2.2.2.2.2.2.2.2.2.1
theorem signUnstake : Sign S4 sentUnstake.keys := sent.2.2.2.2.2.2.2.2.2.2.1
theorem signInit : Sign L0 sentInit.keys := sent.2.2.2.2.2.2.2.2.2.2.2.1
theorem signWithdraw : Sign S8 sentWithdraw.1.keys := sent.2.2.2.2.2.2.2.2.2.2.2.2

theorem envS4a : EnvStep cr L4 (L4.set OA (L4 UO)) :=
  envStep_put putS4a.1 putS4a.2.1 (by decide +kernel) putS4a.2.2
theorem envS4 : EnvStep cr (L4.set OA (L4 UO)) S4 :=
  envStep_put putS4.1 putS4.2.1 (by decide +kernel) putS4.2.2
theorem envS8a : EnvStep cr L8 (L8.set OA (L8 UO)) :=
  envStep_put putS8a.1 putS8a.2.1 (by decide +kernel) putS8a.2.2
theorem envS8 : EnvStep cr (L8.set OA (L8 UO)) S8 :=
  envStep_put putS8.1 putS8.2.1 (by decide +kernel) putS8.2.2
theorem reachS4 : Reachable cr S4 := ⟨_, hist_env (hist_env hist4 envS4a) envS4⟩
theorem reachS8 : Reachable cr S8 := ⟨_, hist_env (hist_env hist8 envS8a) envS8⟩

theorem some_getD {α : Type} {o : Option α} (d : α) (h : o.isSome = true) : o = some (o.getD d) := by
  cases o <;> simp_all

theorem some_getD_pair {α β : Type} {o : Option (α × β)} (d : α × β) (h : o.isSome = true) :
    o = some ((o.getD d).1, (o.getD d).2) := by
  cases o <;> simp_all

theorem sentStake_eq : Scripts.stake cr S4 US 300000 = some sentStake := some_getD _ someStake
theorem sentUnstake_eq : Scripts.unstake cr S4 US 600000 "255".toList = some sentUnstake := some_getD _ someUnstake
theorem sentWithdraw_eq : Scripts.withdraw cr S8 US "255".toList 1098 = some (sentWithdraw.1, sentWithdraw.2) :=
  some_getD_pair _ someWithdraw
theorem sentSet_eq : Scripts.setScript cr S8 AU (.updateCooldown "70".toList) = some sentSet := some_getD _ someSet
theorem sentInit_eq : Scripts.initializeScript cr DEPLOYER_ADDRESS US "100".toList = some sentInit :=
  some_getD _ someInit

theorem passed_refl (l : List Meta) : Client.Passed l l := fun _ b h => ⟨b, h, rfl, id, id⟩

theorem signersStake : SignersOk cr S4 sentStake.keys := signersOk signStake
theorem signersUnstake : SignersOk cr S4 sentUnstake.keys := signersOk signUnstake
theorem signersInit : SignersOk cr L0 sentInit.keys := signersOk signInit
theorem signersWithdraw : SignersOk cr S8 sentWithdraw.1.keys := signersOk signWithdraw

end Xorca.Demo
