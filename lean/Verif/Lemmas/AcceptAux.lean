import Verif.Declared
import Verif.Lemmas.DemoCalls
import Verif.Props.Init
import Verif.Props.Errors
import Verif.Lemmas.ClientCodec
import Verif.Lemmas.Client
import Verif.Client.Instructions
/-
Lemmas for `Props/Accept.lean`.
-/
namespace Xorca
open Spec

variable {cr : Crypto} {x : Ctx} {L L' : Ledger} {accs : List Meta} {logs : List Bytes}

theorem succeeds_iff {ix : Instruction} : Succeeds x L accs ix ↔ ∃ L' logs, Runs x L accs ix L' logs := by
  constructor
  · intro h
    have hd := decodeIx_encode ix []
    obtain ⟨L', logs, he⟩ := h _ hd
    exact ⟨L', logs, _, hd, he⟩
  · rintro ⟨L', logs, h⟩ data hd
    rw [entry_eq hd]
    exact ⟨L', logs, h.dispatch⟩

end Xorca
