import Verif.View
import Verif.Demo
/-
What one user can plan to do with the pool, as arithmetic alone: no bytes, no accounts, no error codes.
`Props/Plan` shows that each plan can be carried out, and that the program refuses every call that is not in a plan.
-/
namespace Xorca.Spec
open Demo

/-- One thing the user does; calls of the program come with the time of the clock. -/
inductive Act
  | stake (t : Int64) (a : UInt64)
  | unstake (t : Int64) (a : UInt64) (i : UInt8) (k : Pubkey)
  | withdraw (t : Int64) (i : UInt8) (k : Pubkey)
  | setCoolDown (t : Int64) (c : Int64)
  | setAuthority (t : Int64) (n : Pubkey)
  /-- Send ORCA to the vault. -/
  | gift (d : UInt64)
  /-- Burn xORCA. -/
  | burn (b : UInt64)

/-- The call of the program, if the act is one. -/
def Act.call : Act → Option (Int64 × List Meta × Instruction)
  | .stake t a => some (t, stakeAccs, .Stake a)
  | .unstake t a i k => some (t, unstakeAccs k, .Unstake a i)
  | .withdraw t i k => some (t, withdrawAccs k, .Withdraw i)
  | .setCoolDown t c => some (t, setAccs, .Set (.UpdateCoolDownPeriod c))
  | .setAuthority t n => some (t, setAccs, .Set (.UpdateUpdateAuthority n))
  | .gift _ => none
  | .burn _ => none

/-- The step of a history does the act. -/
def Does (e : Entry) (a : Act) : Prop :=
  match a.call with
  | some (t, accs, ix) => ∃ logs, e.label = .call (ctx t) accs ix logs
  | none => e.label = .env

/-- Addresses that are in use from the start. -/
def taken : List Pubkey := [DEPLOYER_ADDRESS, US, VA, UO, UX, XORCA_MINT_ID, ST, ORCA_MINT_ID]

/-- The acts (newest first) lead from the new pool to these figures and this much set aside. -/
inductive Plan : List Act → View → Nat → Prop
  | start : Plan [] ⟨0, 0, 100, US, fun _ => none⟩ 0
  /-- Any stake that mints something and for which there is ORCA in the world. -/
  | stake {l V e t a} : Plan l V e → 0 < mintFor a.toNat V.backing V.supply → V.backing + e + a.toNat < 2 ^ 64 →
      Plan (.stake t a :: l)
        { V with supply := V.supply + mintFor a.toNat V.backing V.supply, backing := V.backing + a.toNat } e
  /-- Any positive unstake at a free address that belongs to the index. -/
  | unstake {l V e t a i k b} : Plan l V e → RecordAddr Real.crypto US i k b → k ∉ taken → V.requests k = none →
      0 < a.toNat → a.toNat ≤ V.supply → a.toNat * (V.backing + 100) < 2 ^ 128 → t.toInt + V.coolDown < 2 ^ 63 →
      Plan (.unstake t a i k :: l)
        { V with
          supply := V.supply - a.toNat
          backing := V.backing - redeemFor a.toNat V.backing V.supply
          requests := putRequest V.requests k
            (some ⟨US, i, redeemFor a.toNat V.backing V.supply, t.toInt + V.coolDown⟩) }
        (e + redeemFor a.toNat V.backing V.supply)
  /-- Any request that is due. -/
  | withdraw {l V e t i k r} : Plan l V e → V.requests k = some r → r.index = i → r.due ≤ t.toInt →
      Plan (.withdraw t i k :: l) { V with requests := putRequest V.requests k none } (e - r.amount)
  | setCoolDown {l V e t c} : Plan l V e → V.authority = US → 0 ≤ c.toInt →
      Plan (.setCoolDown t c :: l) { V with coolDown := c.toInt } e
  | setAuthority {l V e t n} : Plan l V e → V.authority = US →
      Plan (.setAuthority t n :: l) { V with authority := n } e
  | gift {l V e d} : Plan l V e → V.backing + e + d.toNat < 2 ^ 64 →
      Plan (.gift d :: l) { V with backing := V.backing + d.toNat } e
  | burn {l V e b} : Plan l V e → b.toNat ≤ V.supply → Plan (.burn b :: l) { V with supply := V.supply - b.toNat } e

/-- No withdrawal by a wrong index that has the same hash. -/
def NoClash (V : View) : Act → Prop
  | .withdraw _ i k => ∀ r b, V.requests k = some r → ¬ Clash Real.crypto (recordHashed US i b) (recordHashed US r.index b)
  | _ => True

end Xorca.Spec
