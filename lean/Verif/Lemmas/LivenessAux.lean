import Verif.Lemmas.DemoCalls
import Verif.Lemmas.Success
import Verif.Lemmas.Trace
/-
Lemmas for `Props/Liveness.lean`.
-/
namespace Xorca
open Spec

variable {cr : Crypto} {x : Ctx} {L : Ledger} {accs : List Meta} {vb : UInt8}

theorem reachable_pool {st v : Pubkey} (hr : Reachable cr L) (hi : Initialised cr L st)
    (hv : VaultAddr cr st v vb) : Pool cr L st v := by
  obtain ⟨v', p⟩ := hr.inv.ofInitialised hi
  obtain ⟨rfl, _⟩ := vaultAddr_unique hv p.v_addr
  exact p

end Xorca
