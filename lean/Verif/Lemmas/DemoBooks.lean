import Verif.Lemmas.DemoCalls
import Verif.Lemmas.Books
/-
More facts about the concrete chain: single calls, stakes into ownerless pools, the books of xORCA.
-/
namespace Xorca.Demo
open Spec

theorem took_run {L L' : Ledger} {now : Int64} {accs : List Meta} {ix : Instruction} {logs : List Bytes}
    (hs : SignersOk cr L accs) (h : Runs (ctx now) L accs ix L' logs) : Took cr L ix L' :=
  ⟨_, _, _, rfl, rent_ne, hs, h⟩

/-- The ledger after a call. -/
def after (now : Int64) (L : Ledger) (accs : List Meta) (data : Bytes) : Ledger :=
  outLedger (entry (ctx now) PROGRAM_ID L accs data)

theorem took {L : Ledger} {now : Int64} {accs : List Meta} {ix : Instruction} {data : Bytes}
    (hs : Sign L accs)
    (hd : decodeIx data = some ix) (h : isOk (entry (ctx now) PROGRAM_ID L accs data) = true) :
    Took cr L ix (after now L accs data) :=
  ⟨_, _, _, rfl, rent_ne, signersOk hs, data, hd, out_eq h⟩

theorem noOrphan24 : ∀ e ∈ [e4, e3], ¬ OrphanStake e ST VA := by
  intro e he ho
  simp only [List.mem_cons, List.not_mem_nil, or_false] at he
  rcases he with rfl | rfl
  · exact absurd ho.2.1 (by decide +kernel)
  · obtain ⟨_, _, _, _, h⟩ := ho.1
    cases h

theorem noOrphan49 : ∀ e ∈ [e9, e8, e7, e6, e5], ¬ OrphanStake e ST VA := by
  intro e he ho
  obtain ⟨_, _, _, _, h⟩ := ho.1
  simp only [List.mem_cons, List.not_mem_nil, or_false] at he
  rcases he with rfl | rfl | rfl | rfl | rfl <;> cases h

theorem noOrphan45 : ∀ e ∈ [e5], ¬ OrphanStake e ST VA := fun e he => noOrphan49 e (by
  simp only [List.mem_cons, List.not_mem_nil, or_false] at he ⊢
  simp [he])

theorem path04 : Path cr L0 [e4, e3, e2, e1] L4 :=
  path_call (path_env (path_call (path_call .nil signers1 run1) signers2 run2) env3) signers4 run4

theorem tokensOf_account {L : Ledger} {m k : Pubkey}
    (h : (L k).owner = SPL_TOKEN_PROGRAM_ID → (L k).data.length = 165 → readKey (L k).data 0 = m →
      (readU64 (L k).data 64).toNat = 0) : tokensOf L m k = 0 := by
  unfold tokensOf
  split
  · next hh => exact h hh.1 hh.2.1 hh.2.2
  · rfl

theorem accounted0 : Accounted L0 := by
  intro S
  unfold totalTokens
  rw [Finset.sum_eq_zero]
  · exact Nat.zero_le _
  · intro k _
    apply tokensOf_account
    exact ledgerOf_forall (P := fun a => a.owner = SPL_TOKEN_PROGRAM_ID → a.data.length = 165 →
      readKey a.data 0 = XORCA_MINT_ID → (readU64 a.data 64).toNat = 0) (by decide +kernel) (by decide +kernel) k

theorem keeps_transfer {L L' : Ledger} {src dst auth : Pubkey} {n : UInt64} (h : splTransfer L src dst auth n = .ok L')
    (hs : MintShape (L XORCA_MINT_ID)) : KeepsBooks ⟨L, .env, L'⟩ := fun _ ha => books_transfer h hs ha

theorem keeps_call {L L' : Ledger} {x : Ctx} {accs : List Meta} {ix : Instruction} {logs : List Bytes} :
    KeepsBooks ⟨L, .call x accs ix logs, L'⟩ := fun h => by cases h

theorem keeps04 : ∀ e ∈ [e4, e3, e2, e1], KeepsBooks e := by
  intro e he
  simp only [List.mem_cons, List.not_mem_nil, or_false] at he
  rcases he with rfl | rfl | rfl | rfl
  · exact keeps_call
  · exact keeps_transfer transfer3 reach2.inv.shape
  · exact keeps_call
  · exact keeps_call

end Xorca.Demo
