import Verif.Audited
import Verif.Lemmas.Arith
/-
Facts about the audited version.
-/
namespace Xorca

theorem Audited.convertOrcaToXorca_eq (a n s : UInt64) (hn : n ≠ 0) (hs : s ≠ 0)
    (h : a.toNat * s.toNat / n.toNat < 2 ^ 64) :
    Audited.convertOrcaToXorca a n s = .ok (UInt64.ofNat (a.toNat * s.toNat / n.toNat)) := by
  have ha := UInt64.toNat_lt a
  have hs' := UInt64.toNat_lt s
  have hn' := (u64_ne_zero_iff).1 hn
  have hm : a.toNat * s.toNat < 2 ^ 128 := by
    calc a.toNat * s.toNat < 2 ^ 64 * 2 ^ 64 := Nat.mul_lt_mul'' ha hs'
      _ = 2 ^ 128 := by norm_num
  unfold Audited.convertOrcaToXorca
  rw [if_neg (by simp [hn, hs])]
  simp only [checkedMulU128, if_pos hm, okOr, bind, Except.bind, checkedDivU128, if_neg hn', u64OfU128, if_pos h]

theorem Audited.convertXorcaToOrca_eq (x n s : UInt64) (hn : n ≠ 0) (hs : s ≠ 0)
    (h : x.toNat * n.toNat / s.toNat < 2 ^ 64) :
    Audited.convertXorcaToOrca x n s = .ok (UInt64.ofNat (x.toNat * n.toNat / s.toNat)) := by
  have ha := UInt64.toNat_lt x
  have hs' := UInt64.toNat_lt n
  have hn' := (u64_ne_zero_iff).1 hs
  have hm : x.toNat * n.toNat < 2 ^ 128 := by
    calc x.toNat * n.toNat < 2 ^ 64 * 2 ^ 64 := Nat.mul_lt_mul'' ha hs'
      _ = 2 ^ 128 := by norm_num
  unfold Audited.convertXorcaToOrca
  rw [if_neg (by simp [hn, hs])]
  simp only [checkedMulU128, if_pos hm, okOr, bind, Except.bind, checkedDivU128, if_neg hn', u64OfU128, if_pos h]

theorem Audited.closeProgramAccount_succeeds {L : Ledger} {toClose receiver : Pubkey} (h : (L toClose).data ≠ []) :
    ∃ L', Audited.closeProgramAccount L toClose receiver = .ok L' := by
  unfold Audited.closeProgramAccount setByte0
  split
  · next e => exact absurd e h
  · exact ⟨_, rfl⟩

end Xorca
