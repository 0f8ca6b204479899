import Verif.History
/-
The pool as a small abstract machine: five figures and five rules, without bytes, addresses of token accounts
or error codes.  `Props/Refinement` shows that every history of the program is a run of this machine.
-/
namespace Xorca.Spec

/-- A withdrawal that was asked for and not yet paid. -/
structure Request where
  owner : Pubkey
  index : UInt8
  amount : Nat
  due : Int
deriving DecidableEq

/-- The state of the machine. -/
structure View where
  supply : Nat
  backing : Nat
  coolDown : Int
  authority : Pubkey
  requests : Pubkey → Option Request

/-- The `n`-th account of a call is `k`, and it signed. -/
def SignedBy (accs : List Meta) (n : Nat) (k : Pubkey) : Prop :=
  ∃ m, accs[n]? = some m ∧ m.key = k ∧ m.isSigner = true

/-- The `n`-th account of a call is `k`. -/
def Names (accs : List Meta) (n : Nat) (k : Pubkey) : Prop := ∃ m, accs[n]? = some m ∧ m.key = k

/-- Requests with the one at `k` replaced. -/
def putRequest (f : Pubkey → Option Request) (k : Pubkey) (r : Option Request) : Pubkey → Option Request :=
  fun j => if j = k then r else f j

/-- The rules of the machine. -/
inductive ViewStep (cr : Crypto) (V : View) : Label → View → Prop
  /-- Stake `a`: pays in `a` and mints at the price, rounded down, not zero. -/
  | stake {x accs a logs u} (signed : SignedBy accs 0 u) (pos : 0 < mintFor a.toNat V.backing V.supply) :
      ViewStep cr V (.call x accs (.Stake a) logs)
        { V with supply := V.supply + mintFor a.toNat V.backing V.supply, backing := V.backing + a.toNat }
  /-- Unstake `a`: burns `a` and turns its price, rounded down, not zero, into a request that is due after the
  cool-down. -/
  | unstake {x accs a i logs u k} (signed : SignedBy accs 0 u) (at_ : Names accs 2 k) (enough : a.toNat ≤ V.supply)
      (pos : 0 < redeemFor a.toNat V.backing V.supply) (free : V.requests k = none) :
      ViewStep cr V (.call x accs (.Unstake a i) logs)
        { V with
          supply := V.supply - a.toNat
          backing := V.backing - redeemFor a.toNat V.backing V.supply
          requests := putRequest V.requests k
            (some ⟨u, i, redeemFor a.toNat V.backing V.supply, x.now.toInt + V.coolDown⟩) }
  /-- Withdraw: a due request is paid to its owner and disappears (unless the hashes of two different record
  addresses are the same). -/
  | withdraw {x accs i logs u k r} {b : UInt8} (signed : SignedBy accs 0 u) (at_ : Names accs 2 k) (req : V.requests k = some r)
      (due : r.due ≤ x.now.toInt)
      (own : (u = r.owner ∧ i = r.index) ∨ Clash cr (recordHashed u i b) (recordHashed r.owner r.index b)) :
      ViewStep cr V (.call x accs (.Withdraw i) logs) { V with requests := putRequest V.requests k none }
  /-- The authority changes the cool-down, to a value that is not negative. -/
  | setCoolDown {x accs c logs} (signed : SignedBy accs 0 V.authority) (nonneg : 0 ≤ c.toInt) :
      ViewStep cr V (.call x accs (.Set (.UpdateCoolDownPeriod c)) logs) { V with coolDown := c.toInt }
  /-- The authority names another authority. -/
  | setAuthority {x accs n logs} (signed : SignedBy accs 0 V.authority) :
      ViewStep cr V (.call x accs (.Set (.UpdateUpdateAuthority n)) logs) { V with authority := n }
  /-- Others may give ORCA to the pool and burn xORCA; nothing else. -/
  | others {given burned} (le : burned ≤ V.supply) :
      ViewStep cr V .env { V with supply := V.supply - burned, backing := V.backing + given }

/-- A run of the machine (newest step first). -/
inductive ViewRun (cr : Crypto) (V : View) : List Label → View → Prop
  | nil : ViewRun cr V [] V
  | step {ls W l W'} : ViewRun cr V ls W → ViewStep cr W l W' → ViewRun cr V (l :: ls) W'

/-- The request stored in account `k`. -/
def requestAt (L : Ledger) (k : Pubkey) : Option Request :=
  if (L k).owner = PROGRAM_ID ∧ 1024 ≤ (L k).data.length ∧ readU8 (L k).data 0 = 2 then
    some ⟨recOwner L k, recIndex L k, recAmount L k, recTime L k⟩
  else none

/-- What the machine sees of a ledger. -/
def view (L : Ledger) (st v : Pubkey) : View :=
  ⟨supply L XORCA_MINT_ID, backing L v st, coolDown L st, authority L st, requestAt L⟩

end Xorca.Spec
