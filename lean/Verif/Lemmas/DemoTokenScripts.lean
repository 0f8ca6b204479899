import Verif.Lemmas.TokenScripts
import Verif.Lemmas.DemoScripts
import Verif.Lemmas.DemoWorld
/-
Concrete cases for the token scripts.
-/
namespace Xorca.Demo
open Spec

/-- What the library does with a number that is no `u64`: here it throws. -/
def strict : Int → Option UInt64 := fun _ => none

/-- The chain before the mint is handed over: its authority is the user. -/
def H0 : Ledger := L0.set XORCA_MINT_ID ⟨1461600, SPL_TOKEN_PROGRAM_ID, mintData US 0⟩

def sentMint : Scripts.TokenSent := (Scripts.updateMintAuthority cr US).getD ⟨.query, US, none⟩
def sentVault : Scripts.TokenSent × UInt64 :=
  (Scripts.transferOrcaToVault cr S4 strict US "300000".toList).getD (⟨.query, US, none⟩, 0)
/-- To somebody whose ORCA account is missing. -/
def sentGift : Scripts.TokenSent × UInt64 × UInt64 :=
  (Scripts.transferOrca cr S4 strict US DEPLOYER_ADDRESS 1234).getD (⟨.query, US, none⟩, 0, 0)
/-- To oneself. -/
def sentSelf : Scripts.TokenSent × UInt64 × UInt64 :=
  (Scripts.transferOrca cr S4 strict US US 1234).getD (⟨.query, US, none⟩, 0, 0)

def H1 : Ledger := outL (Scripts.runSent (ctx 5) H0 sentMint)
def V5 : Ledger := outL (Scripts.runSent (ctx 5) S4 sentVault.1)
def G5 : Ledger := outL (Scripts.runSent (ctx 5) S4 sentGift.1)
def G6 : Ledger := outL (Scripts.runSent (ctx 5) S4 sentSelf.1)

theorem ok_outL {r : Res Ledger} (h : isOk r = true) : r = .ok (outL r) := by
  cases r with
  | ok L => rfl
  | error e => cases h

theorem some_getD_triple {α β γ : Type} {o : Option (α × β × γ)} {d p : α × β × γ} (hp : p = o.getD d)
    (h : o.isSome = true) : o = some (p.1, p.2.1, p.2.2) := by
  subst hp
  cases o <;> simp_all

/-- What is used of the ledgers, evaluated together so that the kernel computes each of them once. -/
theorem tokenSent :
    (Scripts.updateMintAuthority cr US).isSome = true ∧
    (Scripts.transferOrcaToVault cr S4 strict US "300000".toList).isSome = true ∧
    (Scripts.transferOrca cr S4 strict US DEPLOYER_ADDRESS 1234).isSome = true ∧
    (Scripts.transferOrca cr S4 strict US US 1234).isSome = true ∧
    isOk (Scripts.runSent (ctx 5) H0 sentMint) = true ∧
    isOk (Scripts.runSent (ctx 5) S4 sentVault.1) = true ∧
    isOk (Scripts.runSent (ctx 5) S4 sentGift.1) = true ∧
    isOk (Scripts.runSent (ctx 5) S4 sentSelf.1) = true ∧
    ((S4 ST).owner = PROGRAM_ID ∧ readU8 (S4 ST).data 0 = 1) := by decide +kernel
theorem someMint : (Scripts.updateMintAuthority cr US).isSome = true := tokenSent.1
theorem someVault : (Scripts.transferOrcaToVault cr S4 strict US "300000".toList).isSome = true := tokenSent.2.1
theorem someGift : (Scripts.transferOrca cr S4 strict US DEPLOYER_ADDRESS 1234).isSome = true := tokenSent.2.2.1
theorem someSelf : (Scripts.transferOrca cr S4 strict US US 1234).isSome = true := tokenSent.2.2.2.1
theorem okH1 : isOk (Scripts.runSent (ctx 5) H0 sentMint) = true := tokenSent.2.2.2.2.1
theorem okV5 : isOk (Scripts.runSent (ctx 5) S4 sentVault.1) = true := tokenSent.2.2.2.2.2.1
theorem okG5 : isOk (Scripts.runSent (ctx 5) S4 sentGift.1) = true := tokenSent.2.2.2.2.2.2.1
theorem okG6 : isOk (Scripts.runSent (ctx 5) S4 sentSelf.1) = true := tokenSent.2.2.2.2.2.2.2.1
theorem startedS4 : (S4 ST).owner = PROGRAM_ID ∧ readU8 (S4 ST).data 0 = 1 := tokenSent.2.2.2.2.2.2.2.2

theorem sentMint_eq : Scripts.updateMintAuthority cr US = some sentMint := some_getD _ someMint
theorem sentVault_eq : Scripts.transferOrcaToVault cr S4 strict US "300000".toList = some (sentVault.1, sentVault.2) :=
  some_getD_pair _ someVault
theorem sentGift_eq : Scripts.transferOrca cr S4 strict US DEPLOYER_ADDRESS 1234 = some (sentGift.1, sentGift.2.1, sentGift.2.2) :=
  some_getD_triple rfl someGift
theorem sentSelf_eq : Scripts.transferOrca cr S4 strict US US 1234 = some (sentSelf.1, sentSelf.2.1, sentSelf.2.2) :=
  some_getD_triple rfl someSelf

theorem runH1 : Scripts.runSent (ctx 5) H0 sentMint = .ok H1 := ok_outL okH1
theorem runV5 : Scripts.runSent (ctx 5) S4 sentVault.1 = .ok V5 := ok_outL okV5
theorem runG5 : Scripts.runSent (ctx 5) S4 sentGift.1 = .ok G5 := ok_outL okG5
theorem runG6 : Scripts.runSent (ctx 5) S4 sentSelf.1 = .ok G6 := ok_outL okG6

theorem initS4 : Initialised cr S4 ST := ⟨⟨_, st_addr⟩, startedS4⟩
theorem poolMint0 : PoolMint cr (L0 XORCA_MINT_ID) where
  prog := by decide +kernel
  len := by decide +kernel
  init := by decide +kernel
  flag := by decide +kernel
  auth := ⟨_, by rw [show readKey (L0 XORCA_MINT_ID).data 4 = ST by decide +kernel]; exact st_addr⟩
  freeze := by decide +kernel

end Xorca.Demo
