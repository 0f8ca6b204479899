import Verif.Lemmas.Stake
import Verif.Instr.Set
/-
Inversion of a successful Set.
-/
namespace Xorca
open Spec

/-- All checks passed by a successful Set. -/
structure SetRun (x : Ctx) (L : Ledger) (accs : List Meta) (a st : Meta) : Prop where
  accs_eq : ∃ rest, accs = a :: st :: rest
  signer : a.isSigner = true
  a_w : a.isWritable = true
  st_w : st.isWritable = true
  st_prog : (L st.key).owner = PROGRAM_ID
  st_len : 2048 ≤ (L st.key).data.length
  st_disc : readU8 (L st.key).data 0 = 1
  st_addr : st.key = deriveAddress x.cr stateSeedsRaw (readU8 (L st.key).data 6) PROGRAM_ID
  auth : a.key = authority L st.key

theorem list2_of_getElem? {α : Type} {l : List α} {a b : α}
    (h0 : l[0]? = some a) (h1 : l[1]? = some b) : ∃ r, l = a :: b :: r := by
  match l, h0, h1 with
  | _ :: _ :: r, h0, h1 =>
    simp at h0 h1
    subst h0 h1
    exact ⟨r, rfl⟩

theorem processSet_coolDown_run {x : Ctx} {L : Ledger} {accs : List Meta} {c : Int64} {L' : Ledger}
    {logs : List Bytes} (h : processSet x L accs (.UpdateCoolDownPeriod c) = .ok (L', logs)) :
    ∃ a st, SetRun x L accs a st ∧ 0 ≤ c.toInt ∧
      L' = L.setData st.key (writeAt (L st.key).data 16 (i64le c)) ∧ logs = [] := by
  unfold processSet at h
  simp only [bind_eq_ok, exists_unit, getAccountInfo_ok, assertAccountRole_SW, assertAccountRole_W,
    assertAccountAddress_ok, ensure_eq_ok, assertAccountOwner_ok, assertStateData_ok, verifyStateAddress_ok,
    Except.ok.injEq, Prod.mk.injEq] at h
  obtain ⟨a, h0, st, h1, ⟨hs, hsw⟩, stw, stp, sd, ⟨rfl, stl, std⟩, sta, ha, hc, rfl, rfl⟩ := h
  exact ⟨a, st, ⟨list2_of_getElem? h0 h1, hs, hsw, stw, stp, stl, std, sta, ha⟩, by omega, rfl, rfl⟩

theorem processSet_authority_run {x : Ctx} {L : Ledger} {accs : List Meta} {k : Pubkey} {L' : Ledger}
    {logs : List Bytes} (h : processSet x L accs (.UpdateUpdateAuthority k) = .ok (L', logs)) :
    ∃ a st, SetRun x L accs a st ∧
      L' = L.setData st.key (writeAt (L st.key).data 24 k.bytes) ∧
      logs = [(Event.UpdateAuthoritySet k (authority L st.key)).serialize] := by
  unfold processSet at h
  simp only [bind_eq_ok, exists_unit, getAccountInfo_ok, assertAccountRole_SW, assertAccountRole_W,
    assertAccountAddress_ok, assertAccountOwner_ok, assertStateData_ok, verifyStateAddress_ok,
    Except.ok.injEq, Prod.mk.injEq] at h
  obtain ⟨a, h0, st, h1, ⟨hs, hsw⟩, stw, stp, sd, ⟨rfl, stl, std⟩, sta, ha, rfl, rfl⟩ := h
  exact ⟨a, st, ⟨list2_of_getElem? h0 h1, hs, hsw, stw, stp, stl, std, sta, ha⟩, rfl, rfl⟩

end Xorca
