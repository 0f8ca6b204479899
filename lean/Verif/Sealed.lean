import Verif.History
import Verif.Calls
/-
Histories in which nobody else creates an account at an address derived from the program.

The runtime gives such an address as a signer only to the program itself, and the system program allocates or
assigns an account only if it has signed.  `EnvStep` does not need this; here it is added.
-/
namespace Xorca.Spec

/-- The state address or a record address. -/
def Derived (cr : Crypto) (k : Pubkey) : Prop := (∃ b, StateAddr cr k b) ∨ ∃ u i b, RecordAddr cr u i k b

/-- Such a history: at first nothing has been created at these addresses, and others create nothing there (they may
send lamports). -/
def SealedHist (cr : Crypto) (h : List Entry) (L : Ledger) : Prop :=
  ∃ L0, Genesis L0 ∧ (∀ k, Derived cr k → Blank (L0 k)) ∧ Path cr L0 h L ∧
    ∀ e ∈ h, e.label = .env → ∀ k, Derived cr k → Blank (e.pre k) → Blank (e.post k)

end Xorca.Spec
