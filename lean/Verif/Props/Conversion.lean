import Verif.Lemmas.Arith
/-
C03–C08, C10: properties of the conversion functions of the program, for all `u64` inputs.
`Spec.mintFor` and `Spec.redeemFor` are the independent formulas.
-/
namespace Xorca.Props

open Spec

/-! ### C03 -/

/-- The stake conversion returns the exact floor value or `ArithmeticError`; it fails exactly when
the 128-bit product or the 64-bit result does not fit. -/
theorem C03_mint_conversion_exact (a n s : UInt64) :
    (∀ c, convertOrcaToXorca a n s = .ok c → c.toNat = mintFor a.toNat n.toNat s.toNat) ∧
    (∀ e, convertOrcaToXorca a n s = .error e → e = .custom .ArithmeticError) ∧
    ((∃ e, convertOrcaToXorca a n s = .error e) ↔
      s ≠ 0 ∧ n ≠ 0 ∧ (2 ^ 128 ≤ a.toNat * (s.toNat + 100) ∨
        2 ^ 64 ≤ mintFor a.toNat n.toNat s.toNat)) := by
  refine ⟨fun c h => convertOrcaToXorca_ok h, ?_, ?_⟩
  · intro e h
    rw [convertOrcaToXorca_eq] at h
    split at h
    · cases h
    · split at h
      · cases h; rfl
      · cases h
  · rw [convertOrcaToXorca_eq, u64_ne_zero_iff, u64_ne_zero_iff]
    unfold mintFor
    by_cases h0 : s.toNat = 0 ∨ n.toNat = 0
    · simp only [if_pos h0]
      constructor
      · rintro ⟨e, h⟩; cases h
      · rintro ⟨h1, h2, _⟩; exact absurd h0 (by omega)
    · simp only [if_neg h0]
      by_cases h1 : 2 ^ 128 ≤ a.toNat * (s.toNat + 100) ∨
          2 ^ 64 ≤ a.toNat * (s.toNat + 100) / (n.toNat + 100)
      · rw [if_pos h1]
        exact ⟨fun _ => ⟨by omega, by omega, h1⟩, fun _ => ⟨_, rfl⟩⟩
      · rw [if_neg h1]
        exact ⟨fun ⟨e, h⟩ => by simp at h, fun h => absurd h.2.2 h1⟩

/-- The unstake conversion returns the exact floor value or `ArithmeticError`; it fails exactly on an
empty pool or when the 128-bit product or the 64-bit result does not fit. -/
theorem C03_redeem_conversion_exact (x n s : UInt64) :
    (∀ c, convertXorcaToOrca x n s = .ok c → c.toNat = redeemFor x.toNat n.toNat s.toNat) ∧
    (∀ e, convertXorcaToOrca x n s = .error e → e = .custom .ArithmeticError) ∧
    ((∃ e, convertXorcaToOrca x n s = .error e) ↔
      s = 0 ∨ n = 0 ∨ 2 ^ 128 ≤ x.toNat * (n.toNat + 100) ∨
        2 ^ 64 ≤ redeemFor x.toNat n.toNat s.toNat) := by
  refine ⟨fun c h => (convertXorcaToOrca_ok h).2.2, ?_, ?_⟩
  · intro e h
    rw [convertXorcaToOrca_eq] at h
    split at h
    · cases h; rfl
    · split at h
      · cases h; rfl
      · cases h
  · rw [convertXorcaToOrca_eq, u64_eq_zero_iff, u64_eq_zero_iff]
    unfold redeemFor
    by_cases h0 : s.toNat = 0 ∨ n.toNat = 0
    · simp only [if_pos h0]
      exact ⟨fun _ => by omega, fun _ => ⟨_, rfl⟩⟩
    · simp only [if_neg h0]
      by_cases h1 : 2 ^ 128 ≤ x.toNat * (n.toNat + 100) ∨
          2 ^ 64 ≤ x.toNat * (n.toNat + 100) / (s.toNat + 100)
      · rw [if_pos h1]
        exact ⟨fun _ => by omega, fun _ => ⟨_, rfl⟩⟩
      · rw [if_neg h1]
        exact ⟨fun ⟨e, h⟩ => by simp at h, fun h => by omega⟩

/-- In a backed pool (`s ≤ n`) whose vault and the deposit together fit in a `u64` (both are ORCA
balances), the stake conversion never fails. -/
theorem C03_mint_conversion_total {a n s : UInt64} (hb : s.toNat ≤ n.toNat)
    (ht : a.toNat + n.toNat < 2 ^ 64) : ∃ c, convertOrcaToXorca a n s = .ok c := by
  cases h : convertOrcaToXorca a n s with
  | ok c => exact ⟨c, rfl⟩
  | error e =>
    exfalso
    obtain ⟨_, _, h3⟩ := (C03_mint_conversion_exact a n s).2.2.1 ⟨e, h⟩
    have h4 := mintFor_le (a := a.toNat) hb
    rcases h3 with h3 | h3
    · have : a.toNat * (s.toNat + 100) ≤ a.toNat * (2 ^ 64 + 99 - a.toNat) :=
        Nat.mul_le_mul_left _ (by omega)
      have h5 : a.toNat * (2 ^ 64 + 99 - a.toNat) < 2 ^ 128 := by
        obtain ⟨b, hb⟩ : ∃ b, a.toNat + b = 2 ^ 64 + 99 := ⟨2 ^ 64 + 99 - a.toNat, by omega⟩
        have : 2 ^ 64 + 99 - a.toNat = b := by omega
        rw [this]
        have h6 : 100 ≤ b := by omega
        have hA : a.toNat < 2 ^ 64 := by omega
        nlinarith [sq_nonneg ((a.toNat : ℤ) - b), hb]
      omega
    · omega

/-- In a backed pool whose non-escrowed balance is below `2^64 - 100`, the unstake conversion of an
amount within the supply never fails. -/
theorem C03_redeem_conversion_total {x n s : UInt64} (hs : s ≠ 0) (hb : s.toNat ≤ n.toNat)
    (hx : x.toNat ≤ s.toNat) (hn : n.toNat + 100 ≤ 2 ^ 64) :
    ∃ c, convertXorcaToOrca x n s = .ok c := by
  cases h : convertXorcaToOrca x n s with
  | ok c => exact ⟨c, rfl⟩
  | error e =>
    exfalso
    have h3 := (C03_redeem_conversion_exact x n s).2.2.1 ⟨e, h⟩
    have h4 := redeemFor_le hb hx
    have hs' := u64_ne_zero_iff.1 hs
    rw [u64_eq_zero_iff, u64_eq_zero_iff] at h3
    have hxl := UInt64.toNat_lt x
    rcases h3 with h3 | h3 | h3 | h3
    · omega
    · omega
    · have : x.toNat * (n.toNat + 100) ≤ (2 ^ 64 - 1) * 2 ^ 64 := Nat.mul_le_mul (by omega) hn
      omega
    · have := UInt64.toNat_lt n
      omega

/-- The head-room is really needed: with all three values at `2^64 - 1` the exact results fit in a
`u64` but the code reports `ArithmeticError`. -/
theorem C03_head_room_needed :
    convertOrcaToXorca 0xFFFFFFFFFFFFFFFF 0xFFFFFFFFFFFFFFFF 0xFFFFFFFFFFFFFFFF = .error (.custom .ArithmeticError) ∧
    convertXorcaToOrca 0xFFFFFFFFFFFFFFFF 0xFFFFFFFFFFFFFFFF 0xFFFFFFFFFFFFFFFF = .error (.custom .ArithmeticError) ∧
    mintFor (2 ^ 64 - 1) (2 ^ 64 - 1) (2 ^ 64 - 1) = 2 ^ 64 - 1 ∧
    redeemFor (2 ^ 64 - 1) (2 ^ 64 - 1) (2 ^ 64 - 1) = 2 ^ 64 - 1 := by decide +kernel

example : convertOrcaToXorca 1000000 3000000 2000000 = .ok 666677 ∧
    convertXorcaToOrca 1000000 3000000 2000000 = .ok 1499975 := by decide +kernel

/-! ### C04 -/

/-- Staking `a` and redeeming everything minted pays at most `a`; when there was no supply, at most `a`
plus the ownerless ORCA `n` that was already in the vault. -/
theorem C04_stake_unstake_no_profit {a n s m n' s' r : UInt64}
    (hstake : convertOrcaToXorca a n s = .ok m)
    (hn' : n'.toNat = n.toNat + a.toNat) (hs' : s'.toNat = s.toNat + m.toNat)
    (hunstake : convertXorcaToOrca m n' s' = .ok r) :
    r.toNat ≤ a.toNat + (if s.toNat = 0 then n.toNat else 0) := by
  have h1 := convertOrcaToXorca_ok hstake
  have h2 := (convertXorcaToOrca_ok hunstake).2.2
  rw [h2, hn', hs', h1]
  by_cases hs : s.toNat = 0
  · rw [if_pos hs]
    have h3 : mintFor a.toNat n.toNat s.toNat = a.toNat := by simp [mintFor, hs]
    rw [h3, hs]
    unfold redeemFor
    rw [Nat.zero_add]
    apply Nat.div_le_of_le_mul
    nlinarith
  · rw [if_neg hs]
    apply redeem_mint_le
    omega

/-- The second case is real: with zero supply and 1000 ORCA in the vault, staking 1000 and
redeeming the 1000 minted pays 1909. -/
theorem C04_stake_unstake_profit_witness :
    ∃ a n s m n' s' r : UInt64, convertOrcaToXorca a n s = .ok m ∧
      n'.toNat = n.toNat + a.toNat ∧ s'.toNat = s.toNat + m.toNat ∧
      convertXorcaToOrca m n' s' = .ok r ∧ a.toNat < r.toNat :=
  ⟨1000, 1000, 0, 1000, 2000, 1000, 1909, by decide +kernel⟩

example : convertOrcaToXorca 1000000 3000000 2000000 = .ok 666677 ∧
    convertXorcaToOrca 666677 4000000 2666677 = .ok 999999 := by decide +kernel

/-! ### C05 -/

/-- Redeeming `x` and restaking the proceeds mints at most `x`, when something remains in the pool. -/
theorem C05_unstake_stake_no_profit {x n s w n' s' m : UInt64}
    (hunstake : convertXorcaToOrca x n s = .ok w)
    (hn' : n.toNat = n'.toNat + w.toNat) (hs' : s.toNat = s'.toNat + x.toNat)
    (hrest : s' ≠ 0 ∧ n' ≠ 0)
    (hstake : convertOrcaToXorca w n' s' = .ok m) :
    m.toNat ≤ x.toNat := by
  have h1 := (convertXorcaToOrca_ok hunstake).2.2
  have h2 := convertOrcaToXorca_ok hstake
  rw [h2, h1]
  rw [u64_ne_zero_iff, u64_ne_zero_iff] at hrest
  exact mint_redeem_le (by omega) (by omega) hrest.1 hrest.2

/-- Something must remain: redeeming the whole supply of 1000 for 1909 ORCA and restaking them mints 1909. -/
theorem C05_whole_supply_witness :
    ∃ x n s w n' s' m : UInt64, convertXorcaToOrca x n s = .ok w ∧ n.toNat = n'.toNat + w.toNat ∧
      s.toNat = s'.toNat + x.toNat ∧ convertOrcaToXorca w n' s' = .ok m ∧ x.toNat < m.toNat :=
  ⟨1000, 2000, 1000, 1909, 91, 0, 1909, by decide +kernel⟩

example : convertXorcaToOrca 1000 3000 2000 = .ok 1476 ∧ convertOrcaToXorca 1476 1524 1000 = .ok 999 := by
  decide +kernel

/-! ### C06 -/

/-- Staking `a` then `b` mints at most what staking `a + b` mints at once. -/
theorem C06_split_stake {a b ab n s m1 n1 s1 m2 m : UInt64}
    (hpool : n ≠ 0 ∨ s = 0)
    (h1 : convertOrcaToXorca a n s = .ok m1)
    (hn1 : n1.toNat = n.toNat + a.toNat) (hs1 : s1.toNat = s.toNat + m1.toNat)
    (h2 : convertOrcaToXorca b n1 s1 = .ok m2)
    (hab : ab.toNat = a.toNat + b.toNat)
    (h : convertOrcaToXorca ab n s = .ok m) :
    m1.toNat + m2.toNat ≤ m.toNat := by
  have e1 := convertOrcaToXorca_ok h1
  have e2 := convertOrcaToXorca_ok h2
  have e := convertOrcaToXorca_ok h
  rw [u64_ne_zero_iff, u64_eq_zero_iff] at hpool
  rw [e, e2, e1, hn1, hs1, e1, hab]
  exact mint_split_le hpool

example : convertOrcaToXorca 10 300 200 = .ok 7 ∧ convertOrcaToXorca 5 310 207 = .ok 3 ∧
    convertOrcaToXorca 15 300 200 = .ok 11 := by decide +kernel

/-! ### C07 -/

/-- Redeeming `x` then `y` (within the supply) pays at most what redeeming `x + y` pays at once. -/
theorem C07_split_unstake {x y xy n s w1 n1 s1 w2 w : UInt64}
    (h1 : convertXorcaToOrca x n s = .ok w1)
    (hn1 : n.toNat = n1.toNat + w1.toNat) (hs1 : s.toNat = s1.toNat + x.toNat)
    (hy : y.toNat ≤ s1.toNat)
    (h2 : convertXorcaToOrca y n1 s1 = .ok w2)
    (hxy : xy.toNat = x.toNat + y.toNat)
    (h : convertXorcaToOrca xy n s = .ok w) :
    w1.toNat + w2.toNat ≤ w.toNat := by
  have e1 := (convertXorcaToOrca_ok h1).2.2
  have e2 := (convertXorcaToOrca_ok h2).2.2
  have e := (convertXorcaToOrca_ok h).2.2
  rw [e, e2, hxy, e1]
  exact redeem_split_le (by omega) (by omega) hy

example : convertXorcaToOrca 10 3000 2000 = .ok 14 ∧ convertXorcaToOrca 11 2986 1990 = .ok 16 ∧
    convertXorcaToOrca 21 3000 2000 = .ok 31 := by decide +kernel

/-! ### C08 -/

/-- Both conversions are monotone in the amount and lose less than one unit of output:
`exact - 1 < result ≤ exact`. -/
theorem C08_monotone_and_tight (n s : UInt64) :
    (∀ a b ma mb : UInt64, a.toNat ≤ b.toNat → convertOrcaToXorca a n s = .ok ma →
      convertOrcaToXorca b n s = .ok mb → ma.toNat ≤ mb.toNat) ∧
    (∀ x y wx wy : UInt64, x.toNat ≤ y.toNat → convertXorcaToOrca x n s = .ok wx →
      convertXorcaToOrca y n s = .ok wy → wx.toNat ≤ wy.toNat) ∧
    (∀ a m : UInt64, n ≠ 0 → s ≠ 0 → convertOrcaToXorca a n s = .ok m →
      m.toNat * (n.toNat + 100) ≤ a.toNat * (s.toNat + 100) ∧
      a.toNat * (s.toNat + 100) < (m.toNat + 1) * (n.toNat + 100)) ∧
    (∀ x w : UInt64, convertXorcaToOrca x n s = .ok w →
      w.toNat * (s.toNat + 100) ≤ x.toNat * (n.toNat + 100) ∧
      x.toNat * (n.toNat + 100) < (w.toNat + 1) * (s.toNat + 100)) := by
  refine ⟨?_, ?_, ?_, ?_⟩
  · intro a b ma mb h ha hb
    rw [convertOrcaToXorca_ok ha, convertOrcaToXorca_ok hb]
    exact mintFor_mono h
  · intro x y wx wy h hx hy
    rw [(convertXorcaToOrca_ok hx).2.2, (convertXorcaToOrca_ok hy).2.2]
    exact redeemFor_mono h
  · intro a m hn hs h
    rw [u64_ne_zero_iff] at hn hs
    rw [convertOrcaToXorca_ok h]
    exact ⟨mintFor_mul_le hs hn, lt_mintFor_succ_mul hs hn⟩
  · intro x w h
    rw [(convertXorcaToOrca_ok h).2.2]
    exact ⟨redeemFor_mul_le _ _ _, lt_redeemFor_succ_mul _ _ _⟩

example : convertOrcaToXorca 7 300 200 = .ok 5 ∧ convertOrcaToXorca 8 300 200 = .ok 6 := by decide +kernel

/-! ### C10 -/

/-- First staker `a` in an empty pool, donation `d`, victim stake `v`, attacker redeems all: the
payout is at most the attacker's outlay `a + d`. -/
theorem C10_inflation_attack {a d v m1 n1 m2 n2 s2 w : UInt64}
    (hstake : convertOrcaToXorca a 0 0 = .ok m1)
    (hdonate : n1.toNat = a.toNat + d.toNat)
    (hvictim : convertOrcaToXorca v n1 m1 = .ok m2)
    (hn2 : n2.toNat = n1.toNat + v.toNat) (hs2 : s2.toNat = m1.toNat + m2.toNat)
    (hredeem : convertXorcaToOrca m1 n2 s2 = .ok w) :
    w.toNat ≤ a.toNat + d.toNat := by
  have e1 : m1.toNat = a.toNat := by
    have := convertOrcaToXorca_ok hstake
    simpa [mintFor] using this
  have e2 := convertOrcaToXorca_ok hvictim
  have e := (convertXorcaToOrca_ok hredeem).2.2
  rw [e, hn2, hs2, e2, hdonate, e1]
  exact inflation_attack_le a.toNat d.toNat v.toNat

/-- The attack run: stake 1, donate 1_000_000, victim stakes 500_000 and gets 50; the attacker
recovers 9934 of 1_000_001. -/
example : convertOrcaToXorca 1 0 0 = .ok 1 ∧ convertOrcaToXorca 500000 1000001 1 = .ok 50 ∧
    convertXorcaToOrca 1 1500001 51 = .ok 9934 := by decide +kernel

end Xorca.Props
