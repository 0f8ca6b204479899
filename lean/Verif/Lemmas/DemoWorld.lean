import Verif.Lemmas.World
import Verif.Lemmas.TokAgree
import Verif.Lemmas.DemoBooks
import Verif.Lemmas.DemoCalls
/-
The demo chain as a sequence of real steps.
-/
namespace Xorca.Demo
open Spec

instance {L : Ledger} {accs : List Meta} : Decidable (LamportsFit L accs) :=
  inferInstanceAs (Decidable (∀ a ∈ accs, ∀ b ∈ accs, _ → _))

/-- Only the user signs. -/
def usSigns : Pubkey → Bool := fun k => k = US

theorem us_notPool : NotPool cr usSigns := fun k b h => by
  unfold usSigns
  by_cases hk : k = US
  · subst hk; exact absurd h (us_ne_st b)
  · simp [hk]

theorem steady0 : Steady cr L0 where
  state k b h := by
    obtain ⟨rfl, -⟩ := stateAddr_unique h st_addr
    decide +kernel
  nobody b := ⟨sys_ne_st b, inc_ne_st b⟩
  sound k _ := by
    have h : ((L0 k).data.length = 165 → readU8 (L0 k).data 108 ≠ 0 → readU32 (L0 k).data 109 = 0 →
        (L0 k).lamports ≠ 0) ∧
        ((L0 k).data.length = 165 → readKey (L0 k).data 0 = XORCA_MINT_ID → readU32 (L0 k).data 109 = 0) :=
      ledgerOf_forall (P := fun a =>
        (a.data.length = 165 → readU8 a.data 108 ≠ 0 → readU32 a.data 109 = 0 → a.lamports ≠ 0) ∧
        (a.data.length = 165 → readKey a.data 0 = XORCA_MINT_ID → readU32 a.data 109 = 0))
        (by decide +kernel) (by decide +kernel) k
    exact ⟨h.1, h.2⟩
  mint := by decide +kernel

theorem world_call {h : List Entry} {L L' G : Ledger} {now : Int64} {accs : List Meta} {ix : Instruction}
    {logs : List Bytes} (hh : World cr G h L) (hs : SignersOk cr L accs) (hf : LamportsFit L accs)
    (hr : Runs (ctx now) L accs ix L' logs) : World cr G (⟨L, .call (ctx now) accs ix logs, L'⟩ :: h) L' :=
  .step (e := ⟨L, .call (ctx now) accs ix logs, L'⟩) hh (.call rfl rent_ne hs hf hr)

theorem world_out {h : List Entry} {L L' G : Ledger} (hh : World cr G h L) (ho : Outside cr L L') :
    World cr G (⟨L, .env, L'⟩ :: h) L' :=
  .step (e := ⟨L, .env, L'⟩) hh (.out ho)

theorem out3 : Outside cr L2 L3 :=
  .token (rent := (ctx 0).rentMin) (sg := usSigns) (ix := .transfer UO VA US [] 500000 none)
    rent_ne us_notPool (transfer_agrees (by decide) transfer3)

theorem world2 : World cr L0 [e2, e1] L2 :=
  world_call (world_call .nil signers1 (by unfold LamportsFit; decide +kernel) run1)
    signers2 (by unfold LamportsFit; decide +kernel) run2

theorem steady2 : Steady cr L2 := (world_path steady0 world2).2.1

theorem world4 : World cr L0 [e4, e3, e2, e1] L4 :=
  world_call (world_out world2 out3) signers4 (by unfold LamportsFit; decide +kernel) run4

theorem world24 : World cr L2 [e4, e3] L4 :=
  world_call (world_out .nil out3) signers4 (by unfold LamportsFit; decide +kernel) run4

end Xorca.Demo
