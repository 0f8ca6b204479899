import Verif.Lemmas.TwiceAux
import Verif.Props.Effects
/-
Lemmas for `Props/GivenUp.lean`.
-/
namespace Xorca
open Spec

/-- The settings stay unless the authority signs a Set. -/
theorem settings_step {cr : Crypto} {e : Entry} {st v : Pubkey} (ok : e.Ok cr) (inv : Inv cr e.pre) (p : Pool cr e.pre st v) :
    (coolDown e.post st = coolDown e.pre st ∧ authority e.post st = authority e.pre st) ∨
    ∃ x au rest u logs, e.label = .call x (au :: rest) (.Set u) logs ∧ au.isSigner = true ∧
      au.key = authority e.pre st ∧ SignersOk cr e.pre (au :: rest) := by
  have hlen := p.acc.len
  cases ok with
  | @env L L' s =>
    obtain ⟨-, h1, -⟩ := s.owned st p.prog p.acc.lam
    exact .inl ⟨by rw [coolDown, coolDown, h1], by rw [authority, authority, h1]⟩
  | @call x accs ix logs L L' hx hrent hs hrun =>
    subst hx
    simp only at inv p hlen ⊢
    cases ix with
    | Stake a =>
      obtain ⟨s, v', oa, xa, xm, st', om, tp, L1, m, r, f, q, -⟩ := inv.stake hs hrun.dispatch
      obtain ⟨e1, -⟩ := p.unique q
      have h1 : L' st = L st := f.frame.other st (by have := f.st_ne; rw [← e1]; simpa using this)
      exact .inl ⟨by rw [coolDown, coolDown, h1], by rw [authority, authority, h1]⟩
    | Unstake a i =>
      obtain ⟨u, st', pw, xa, xm, om, v', sp, tp, L1, L3, w, e, ts, b, r, f, q, -⟩ := inv.unstake hrent hs hrun.dispatch
      obtain ⟨rfl, -⟩ := p.unique q
      have hl : 8 + (u64le e).length ≤ (L st'.key).data.length := by simp; omega
      exact .inl ⟨by rw [coolDown, coolDown, f.st_data, readI64_writeAt_apart hl (by simp [Apart])],
        by rw [authority, authority, f.st_data, readKey_writeAt_apart hl (by simp [Apart])]⟩
    | Withdraw i =>
      obtain ⟨u, st', pw, oa, v', om, sp, tp, L1, L2, e, r, f, q, -⟩ := inv.withdraw hs hrun.dispatch
      obtain ⟨rfl, -⟩ := p.unique q
      have hl : 8 + (u64le e).length ≤ (L st'.key).data.length := by simp; omega
      exact .inl ⟨by rw [coolDown, coolDown, f.st_data, readI64_writeAt_apart hl (by simp [Apart])],
        by rw [authority, authority, f.st_data, readKey_writeAt_apart hl (by simp [Apart])]⟩
    | Set u =>
      obtain ⟨a, st', v', r, q, -⟩ := inv.set hrun.dispatch
      obtain ⟨rfl, -⟩ := p.unique q
      obtain ⟨rest, rfl⟩ := r.accs_eq
      exact .inr ⟨_, _, _, _, _, rfl, r.signer, r.auth, hs⟩
    | Initialize c =>
      obtain ⟨p', au, st', v', xm, om, sp, tp, ap, L1, b, vb, r, f, hz, -⟩ := inv.initialize hrent hs hrun.dispatch
      exact absurd (hz st p.prog) (not_allZero (o := 0) (by rw [p.acc.tag]; decide))

namespace Demo

/-- The authority is handed over to the state address. -/
def gone : Ledger := after 1006 L7 setAccs (4 :: 1 :: ST.bytes)
theorem stepGone : (Sign L7 setAccs ∧ isOk (entry (ctx 1006) PROGRAM_ID L7 setAccs (4 :: 1 :: ST.bytes)) = true) ∧
    authority gone ST = ST ∧ (gone ST).owner = PROGRAM_ID ∧ readU8 (gone ST).data 0 = 1 := by decide +kernel
theorem tookGone : Took cr L7 (.Set (.UpdateUpdateAuthority ST)) gone := took stepGone.1.1 (by decide +kernel) stepGone.1.2

end Demo
end Xorca
