import Verif.Lemmas.Machine
import Verif.Lemmas.DemoCalls
/-
C93: the checks that pinocchio and the runtime make while the program runs never stop a call.
-/
namespace Xorca
open Spec

variable {x : Ctx} {L L' : Ledger} {accs : List Meta} {ix : Instruction} {logs : List Bytes} {e : Err}

/-- With borrow flags, the runtime's rules for writes, partial views of called programs and the limit on growth the
program does exactly the same as without. -/
theorem C93_dynamic_checks_change_nothing (hs : SignersOk x.cr L accs) (hfit : LamportsFit L accs) :
    machine x L accs ix = lift (dispatch x L accs ix) := machine_eq hs hfit

/-- An Unstake, a Withdraw and an Initialize run on the machine as in the plain model. -/
example : machine (Demo.ctx 1003) Demo.L4 (Demo.unstakeAccs Demo.R255) (.Unstake 600000 255) = .ok (Demo.L5, Demo.logs5) := by
  rw [C93_dynamic_checks_change_nothing Demo.signers5 (by unfold LamportsFit; decide +kernel), Demo.run5.dispatch]; rfl
example : machine (Demo.ctx 1103) Demo.L8 (Demo.withdrawAccs Demo.R255) (.Withdraw 255) = .ok (Demo.L9, Demo.logs9) := by
  rw [C93_dynamic_checks_change_nothing Demo.signers9 (by unfold LamportsFit; decide +kernel), Demo.run9.dispatch]; rfl
example : machine (Demo.ctx 1000) Demo.L0 Demo.initAccs (.Initialize 100) = .ok (Demo.L1, Demo.logs1) := by
  rw [C93_dynamic_checks_change_nothing Demo.signers1 (by unfold LamportsFit; decide +kernel), Demo.run1.dispatch]; rfl

/-- The program never fails to borrow, the runtime never refuses what it wrote, never finds lamports made or lost and never
finds an account grown too much. -/
theorem C93_no_dynamic_failure {m : MErr} (hs : SignersOk x.cr L accs) (hfit : LamportsFit L accs)
    (h : machine x L accs ix = .error m) :
    m ≠ .borrowFailed ∧ m ≠ .illegalChange ∧ m ≠ .unbalanced ∧ m ≠ .invalidRealloc := by
  rw [machine_eq hs hfit] at h
  cases hd : dispatch x L accs ix with
  | ok o => rw [hd] at h; cases h
  | error e => rw [hd] at h; cases h; simp

/-- An Unstake of more than one has fails for that reason. -/
example : machine (Demo.ctx 1003) Demo.L4 (Demo.unstakeAccs Demo.R255) (.Unstake 6000000 255) =
    .error (.plain (.custom .InsufficientFunds)) := by
  have hf : Fails (Demo.ctx 1003) Demo.L4 (Demo.unstakeAccs Demo.R255) (.Unstake 6000000 255) (.custom .InsufficientFunds) :=
    Demo.fails (1 :: u64le 6000000 ++ [255]) (by decide +kernel) (by decide +kernel)
  obtain ⟨d, hd, hf⟩ := hf
  rw [C93_dynamic_checks_change_nothing Demo.signers5 (by unfold LamportsFit; decide +kernel), ← entry_eq hd, hf]
  rfl

/-- A call succeeds on the machine exactly if it does in the plain model, with the same ledger and logs. -/
theorem C93_succeeds_iff {d : Bytes} (hd : decodeIx d = some ix) (hs : SignersOk x.cr L accs)
    (hfit : LamportsFit L accs) : machine x L accs ix = .ok (L', logs) ↔ entry x PROGRAM_ID L accs d = .ok (L', logs) := by
  rw [machine_eq hs hfit, entry_eq hd]
  cases dispatch x L accs ix with
  | ok o => constructor <;> (intro h; cases h; rfl)
  | error e => constructor <;> (intro h; cases h)

example : entry (Demo.ctx 1003) PROGRAM_ID Demo.L4 (Demo.unstakeAccs Demo.R255) (1 :: u64le 600000 ++ [255]) =
    .ok (Demo.L5, Demo.logs5) := by
  refine (C93_succeeds_iff (ix := .Unstake 600000 255) (by decide +kernel) Demo.signers5
    (by unfold LamportsFit; decide +kernel)).1 ?_
  rw [C93_dynamic_checks_change_nothing Demo.signers5 (by unfold LamportsFit; decide +kernel), Demo.run5.dispatch]; rfl

/-- The checks are real. A call of another program that is given an account whose data the program holds a `RefMut` of
fails, and so does one that is given as writable an account whose data it holds a `Ref` of. -/
theorem C93_borrowed_account_refused {s : Mach} {infos : List (Pubkey × Bool)} {f : Ledger → Res Ledger} {p : Pubkey × Bool}
    (hp : p ∈ infos) (hb : (s.flags p.1).writer = true ∨ (p.2 = true ∧ 0 < (s.flags p.1).readers)) :
    s.cpi accs L infos f = .error .borrowFailed := by
  unfold Mach.cpi
  rw [show require (∀ p ∈ infos, (s.flags p.1).writer = false ∧ (p.2 = true → (s.flags p.1).readers = 0)) .borrowFailed =
    .error .borrowFailed from if_neg fun h => ?_]
  · rfl
  · obtain ⟨h1, h2⟩ := h p hp
    rcases hb with hb | ⟨hw, hb⟩
    · rw [h1] at hb; cases hb
    · rw [h2 hw] at hb; omega

/-- The call of `MintTo` in a Stake that had kept a `RefMut` of the state. -/
example : (⟨noBorrows.set Demo.ST ⟨0, true⟩, Demo.L2, Demo.L2⟩ : Mach).cpi Demo.stakeAccs Demo.L2
    [(XORCA_MINT_ID, true), (Demo.UX, true), (Demo.ST, false)]
    (fun L => cpiMintTo ⟨Demo.stakeAccs, [Demo.ST]⟩ L XORCA_MINT_ID Demo.UX Demo.ST 5) = .error .borrowFailed :=
  C93_borrowed_account_refused (p := (Demo.ST, false)) (by simp) (.inl (by simp [Flags.set]))

/-- A program that returns with a change to the data or the owner of an account that it does not own, or that is not
writable, or with fewer lamports in an account it does not own, has its instruction undone. -/
theorem C93_foreign_write_refused {s : Mach} {m : Meta} (hm : m ∈ accs)
    (hb : s.led m.key ≠ s.base m.key ∧ (∀ n ∈ accs, n.key = m.key → n.isWritable = false) ∨
      (s.base m.key).owner ≠ PROGRAM_ID ∧ ((s.led m.key).data ≠ (s.base m.key).data ∨
        (s.led m.key).owner ≠ (s.base m.key).owner ∨
        (s.led m.key).lamports.toNat < (s.base m.key).lamports.toNat)) :
    s.finish accs L = .error .illegalChange := by
  unfold Mach.finish
  rw [show require (∀ m ∈ accs, ChangeAllowed accs m.key (s.base m.key) (s.led m.key)) .illegalChange =
    .error .illegalChange from if_neg fun h => ?_]
  · rfl
  · rcases h m hm with h | ⟨⟨n, hn, hk, hw⟩, h1, h2, h3⟩
    · rw [h] at hb
      rcases hb with hb | ⟨_, hb | hb | hb⟩
      · exact hb.1 rfl
      · exact hb rfl
      · exact hb rfl
      · omega
    · rcases hb with ⟨_, hb⟩ | ⟨ho, hb | hb | hb⟩
      · rw [hb n hn hk] at hw; cases hw
      · exact ho (h2 hb)
      · exact ho (h3 hb).1
      · exact ho (h1 hb)

/-- A program that wrote into the vault itself. -/
example : ((Mach.start Demo.L2).setData Demo.VA []).finish Demo.stakeAccs Demo.L2 = .error .illegalChange :=
  C93_foreign_write_refused (m := ⟨Demo.VA, false, true⟩) (by decide +kernel) (.inr (by decide +kernel))

/-- The result of a Withdraw on the machine, with the lamports of the unstaker set to the given number. -/
def Demo.withdrawRich (n : UInt64) : Option MErr :=
  match machine (Demo.ctx 1103) (Demo.L8.setLamports Demo.US n) (Demo.withdrawAccs Demo.R255) (.Withdraw 255) with
  | .ok _ => none
  | .error e => some e

/-- Without the bound on lamports the equality is false: the receiver's lamports would wrap around, which the plain model
lets happen and the runtime does not. There are not that many lamports. -/
theorem C93_lamport_bound_needed : Demo.withdrawRich 18446744073709551615 = some .illegalChange ∧
    Demo.withdrawRich 1000000 = none := by
  constructor <;> decide +kernel

end Xorca
