import Verif.Lemmas.Demo
import Verif.Calls
/-
The accounts of the concrete chain are well-formed.
-/
namespace Xorca.Spec

instance {L : Ledger} {k m o : Pubkey} : Decidable (TokenOk L k m o) :=
  decidable_of_iff ((L k).owner = SPL_TOKEN_PROGRAM_ID ∧ (L k).data.length = 165 ∧ readU8 (L k).data 108 = 1 ∧
      readU32 (L k).data 109 = 0 ∧ (readU32 (L k).data 72 = 0 ∨ readU32 (L k).data 72 = 1) ∧
      (readU32 (L k).data 129 = 0 ∨ readU32 (L k).data 129 = 1) ∧ mintOf L k = m ∧ ownerOf L k = o ∧
      ¬ (readU32 (L k).data 72 = 1 ∧ readKey (L k).data 76 = o))
    ⟨fun ⟨h1, h2, h3, h4, h5, h6, h7, h8, h9⟩ => ⟨h1, h2, h3, h4, h5, h6, h7, h8, h9⟩,
      fun ⟨h1, h2, h3, h4, h5, h6, h7, h8, h9⟩ => ⟨h1, h2, h3, h4, h5, h6, h7, h8, h9⟩⟩

instance {L : Ledger} {k : Pubkey} : Decidable (MintOk L k) :=
  decidable_of_iff ((L k).owner = SPL_TOKEN_PROGRAM_ID ∧ (L k).data.length = 82 ∧ readU8 (L k).data 45 = 1)
    ⟨fun ⟨h1, h2, h3⟩ => ⟨h1, h2, h3⟩, fun ⟨h1, h2, h3⟩ => ⟨h1, h2, h3⟩⟩

instance {a : Account} : Decidable (Blank a) := inferInstanceAs (Decidable (_ ∧ _))

instance {L : Ledger} {k : Pubkey} : Decidable (IsRecord L k) := inferInstanceAs (Decidable (_ ∧ _))

instance {L : Ledger} {k : Pubkey} : Decidable (NotMultisig L k) := inferInstanceAs (Decidable (¬ (_ ∧ _)))

end Xorca.Spec

namespace Xorca.Demo
open Xorca.Spec

/-- What is used of the ledgers, evaluated together so that the kernel computes each of them once. -/
theorem accounts :
    TokenOk L1 UO ORCA_MINT_ID US ∧
    TokenOk L1 UX XORCA_MINT_ID US ∧
    TokenOk L4 UX XORCA_MINT_ID US ∧
    TokenOk L8 UO ORCA_MINT_ID US ∧
    MintOk L4 ORCA_MINT_ID ∧
    Blank (L4 US) ∧
    TokenOk L9 UX XORCA_MINT_ID US ∧
    MintOk L9 ORCA_MINT_ID ∧
    Blank (L9 US) ∧
    ((L1 ST).owner = PROGRAM_ID ∧ readU8 (L1 ST).data 0 = 1) ∧
    ((L2 ST).owner = PROGRAM_ID ∧ readU8 (L2 ST).data 0 = 1) ∧
    ((L3 ST).owner = PROGRAM_ID ∧ readU8 (L3 ST).data 0 = 1) ∧
    ((L4 ST).owner = PROGRAM_ID ∧ readU8 (L4 ST).data 0 = 1) ∧
    ((L6 ST).owner = PROGRAM_ID ∧ readU8 (L6 ST).data 0 = 1) ∧
    ((L8 ST).owner = PROGRAM_ID ∧ readU8 (L8 ST).data 0 = 1) ∧
    ((L9 ST).owner = PROGRAM_ID ∧ readU8 (L9 ST).data 0 = 1) := by decide +kernel
theorem uo_ok1 : TokenOk L1 UO ORCA_MINT_ID US := accounts.1
theorem ux_ok1 : TokenOk L1 UX XORCA_MINT_ID US := accounts.2.1
theorem ux_ok4 : TokenOk L4 UX XORCA_MINT_ID US := accounts.2.2.1
theorem uo_ok8 : TokenOk L8 UO ORCA_MINT_ID US := accounts.2.2.2.1
theorem orca_ok4 : MintOk L4 ORCA_MINT_ID := accounts.2.2.2.2.1
theorem us_blank4 : Blank (L4 US) := accounts.2.2.2.2.2.1
theorem ux_ok9 : TokenOk L9 UX XORCA_MINT_ID US := accounts.2.2.2.2.2.2.1
theorem orca_ok9 : MintOk L9 ORCA_MINT_ID := accounts.2.2.2.2.2.2.2.1
theorem us_blank9 : Blank (L9 US) := accounts.2.2.2.2.2.2.2.2.1
theorem started1 : (L1 ST).owner = PROGRAM_ID ∧ readU8 (L1 ST).data 0 = 1 := accounts.2.2.2.2.2.2.2.2.2.1
theorem started2 : (L2 ST).owner = PROGRAM_ID ∧ readU8 (L2 ST).data 0 = 1 := accounts.2.2.2.2.2.2.2.2.2.2.1
theorem started3 : (L3 ST).owner = PROGRAM_ID ∧ readU8 (L3 ST).data 0 = 1 := accounts.2.2.2.2.2.2.2.2.2.2.2.1
theorem started4 : (L4 ST).owner = PROGRAM_ID ∧ readU8 (L4 ST).data 0 = 1 := accounts.2.2.2.2.2.2.2.2.2.2.2.2.1
theorem started6 : (L6 ST).owner = PROGRAM_ID ∧ readU8 (L6 ST).data 0 = 1 := accounts.2.2.2.2.2.2.2.2.2.2.2.2.2.1
theorem started8 : (L8 ST).owner = PROGRAM_ID ∧ readU8 (L8 ST).data 0 = 1 := accounts.2.2.2.2.2.2.2.2.2.2.2.2.2.2.1
theorem started9 : (L9 ST).owner = PROGRAM_ID ∧ readU8 (L9 ST).data 0 = 1 := accounts.2.2.2.2.2.2.2.2.2.2.2.2.2.2.2

theorem stakeCall : StakeCall stakeAccs ⟨US, true, true⟩ ⟨VA, false, true⟩ ⟨UO, false, true⟩ ⟨UX, false, true⟩
    ⟨XORCA_MINT_ID, false, true⟩ ⟨ST, false, false⟩ ⟨ORCA_MINT_ID, false, false⟩ ⟨SPL_TOKEN_PROGRAM_ID, false, false⟩ :=
  ⟨⟨[], rfl⟩, rfl, rfl, rfl, rfl, rfl, rfl, rfl, rfl, rfl⟩
theorem unstakeCall (pw : Pubkey) : UnstakeCall (unstakeAccs pw) ⟨US, true, true⟩ ⟨ST, false, true⟩ ⟨pw, false, true⟩
    ⟨UX, false, true⟩ ⟨XORCA_MINT_ID, false, true⟩ ⟨ORCA_MINT_ID, false, false⟩ ⟨VA, false, false⟩
    ⟨SYSTEM_PROGRAM_ID, false, false⟩ ⟨SPL_TOKEN_PROGRAM_ID, false, false⟩ :=
  ⟨⟨[], rfl⟩, rfl, rfl, rfl, rfl, rfl, rfl, rfl, rfl, rfl, rfl⟩
theorem withdrawCall (pw : Pubkey) : WithdrawCall (withdrawAccs pw) ⟨US, true, true⟩ ⟨ST, false, true⟩ ⟨pw, false, true⟩
    ⟨UO, false, true⟩ ⟨VA, false, true⟩ ⟨ORCA_MINT_ID, false, false⟩ ⟨SYSTEM_PROGRAM_ID, false, false⟩
    ⟨SPL_TOKEN_PROGRAM_ID, false, false⟩ :=
  ⟨⟨[], rfl⟩, rfl, rfl, rfl, rfl, rfl, rfl, rfl, rfl, rfl⟩

theorem initialised {L : Ledger} (h1 : (L ST).owner = PROGRAM_ID) (h2 : readU8 (L ST).data 0 = 1) :
    Initialised cr L ST := ⟨⟨_, st_addr⟩, h1, h2⟩

theorem init1 : Initialised cr L1 ST := initialised started1.1 started1.2
theorem init2 : Initialised cr L2 ST := initialised started2.1 started2.2
theorem init3 : Initialised cr L3 ST := initialised started3.1 started3.2
theorem init4 : Initialised cr L4 ST := initialised started4.1 started4.2
theorem init6 : Initialised cr L6 ST := initialised started6.1 started6.2
theorem init8 : Initialised cr L8 ST := initialised started8.1 started8.2
theorem init9 : Initialised cr L9 ST := initialised started9.1 started9.2

/-! ### Failing calls -/

/-- The error of a call. -/
def err {α : Type} (r : Res α) : Option Err := match r with | .error e => some e | .ok _ => none

theorem err_eq {α : Type} {r : Res α} {e : Err} (h : err r = some e) : r = .error e := by
  cases r with
  | ok o => cases h
  | error e' => cases h; rfl

theorem fails {x : Ctx} {L : Ledger} {accs : List Meta} {ix : Instruction} {e : Err} (data : Bytes)
    (hd : decodeIx data = some ix) (h : err (entry x PROGRAM_ID L accs data) = some e) : Fails x L accs ix e :=
  ⟨data, hd, err_eq h⟩

/-! ### Parts of the history -/

theorem path_call {L0 L L' : Ledger} {h : List Entry} {now : Int64} {accs : List Meta} {ix : Instruction}
    {logs : List Bytes} (p : Path cr L0 h L) (hs : SignersOk cr L accs) (hr : Runs (ctx now) L accs ix L' logs) :
    Path cr L0 (⟨L, .call (ctx now) accs ix logs, L'⟩ :: h) L' :=
  .step (e := ⟨L, .call (ctx now) accs ix logs, L'⟩) p (.call rfl rent_ne hs hr)

theorem path_env {L0 L L' : Ledger} {h : List Entry} (p : Path cr L0 h L) (he : EnvStep cr L L') :
    Path cr L0 (⟨L, .env, L'⟩ :: h) L' := .step (e := ⟨L, .env, L'⟩) p (.env he)

theorem ok_call {L L' : Ledger} {now : Int64} {accs : List Meta} {ix : Instruction}
    {logs : List Bytes} (hs : SignersOk cr L accs) (hr : Runs (ctx now) L accs ix L' logs) :
    Entry.Ok cr ⟨L, .call (ctx now) accs ix logs, L'⟩ := .call rfl rent_ne hs hr

theorem path24 : Path cr L2 [e4, e3] L4 := path_call (path_env .nil env3) signers4 run4
theorem path45 : Path cr L4 [e5] L5 := path_call .nil signers5 run5
theorem path68 : Path cr L6 [e8, e7] L8 := path_call (path_call .nil signers7 run7) signers8 run8
theorem path89 : Path cr L8 [e9] L9 := path_call .nil signers9 run9
theorem path49 : Path cr L4 [e9, e8, e7, e6, e5] L9 :=
  path_call (path_call (path_call (path_call path45 signers6 run6) signers7 run7) signers8 run8) signers9 run9

theorem ok9 : Entry.Ok cr e9 := ok_call signers9 run9
theorem pre9 : e9.pre = L8 := by unfold e9; dsimp only

theorem pays9 : Pays e9 R255 US UO 255 1103 :=
  ⟨_, _, _, _, _, _, rfl, rfl, rfl, rfl, rfl, rfl, rfl, rfl, by decide +kernel⟩
theorem pays11 : Pays e11 R255 US UO 255 1154 :=
  ⟨_, _, _, _, _, _, rfl, rfl, rfl, rfl, rfl, rfl, rfl, rfl, by decide +kernel⟩

end Xorca.Demo
