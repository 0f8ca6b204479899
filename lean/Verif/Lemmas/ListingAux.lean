import Verif.Lemmas.Sealed
import Verif.Lemmas.DemoSealed
import Verif.Props.Client
import Verif.Props.Liveness
/-
Lemmas for `Props/Listing.lean`.
-/
namespace Xorca
open Spec

variable {cr : Crypto} {x : Ctx} {L L' : Ledger} {accs : List Meta} {logs : List Bytes} {h : List Entry}

theorem no_record_of {u pw : Pubkey} {i b : UInt8} (hr : Reachable cr L) (h : RecordAddr cr u i pw b)
    (ho : (L pw).owner ≠ PROGRAM_ID) (k : Pubkey) (hk : IsRecord L k) : ¬ (recOwner L k = u ∧ recIndex L k = i) := by
  intro ⟨h1, h2⟩
  have hb := (hr.inv.isRec hk).addr
  change RecordAddr cr (recOwner L k) (recIndex L k) k _ at hb
  rw [h1, h2] at hb
  obtain ⟨rfl, _⟩ := recordAddr_unique hb h
  exact ho hk.1

end Xorca
