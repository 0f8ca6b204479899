import Verif.Lemmas.Audited
import Verif.Lemmas.System
import Verif.Lemmas.Demo
import Verif.Props.Histories
/-
C106: the findings of the audit report, before and after.
-/
namespace Xorca
open Spec

variable {cr : Crypto} {L L' : Ledger}

/-! ### H-01: the inflation attack -/

/-- The attack of the report works against the audited conversions, for any donation `d`: the attacker stakes 1 unit and
gives `d` units, a victim stakes a little more than that, but less than twice as much, and gets 1 unit of xORCA, and the
attacker's unit can be redeemed for more than was paid.  (C10: against the present conversions this does not pay while
the victim stays.) -/
theorem C106_inflation_attack_before {d v n1 n2 : UInt64} (hn1 : n1.toNat = 1 + d.toNat)
    (h1 : n1.toNat + 2 ≤ v.toNat) (h2 : v.toNat < 2 * n1.toNat) (hn2 : n2.toNat = n1.toNat + v.toNat) :
    Audited.convertOrcaToXorca 1 0 0 = .ok 1 ∧ Audited.convertOrcaToXorca v n1 1 = .ok 1 ∧
    ∃ w, Audited.convertXorcaToOrca 1 n2 2 = .ok w ∧ 1 + d.toNat < w.toNat := by
  have e1 : (1 : UInt64).toNat = 1 := rfl
  have e2 : (2 : UInt64).toNat = 2 := rfl
  have hn1' : n1 ≠ 0 := (u64_ne_zero_iff).2 (by omega)
  have hn2' : n2 ≠ 0 := (u64_ne_zero_iff).2 (by omega)
  have b2 := UInt64.toNat_lt n2
  have q : v.toNat * (1 : UInt64).toNat / n1.toNat = 1 := by
    rw [e1, Nat.mul_one]
    exact Nat.div_eq_of_lt_le (by omega) (by omega)
  refine ⟨by simp [Audited.convertOrcaToXorca], ?_, UInt64.ofNat (n2.toNat / 2), ?_, ?_⟩
  · rw [Audited.convertOrcaToXorca_eq v n1 1 hn1' (by decide) (by rw [q]; norm_num), q]
    rfl
  · rw [Audited.convertXorcaToOrca_eq 1 n2 2 hn2' (by decide) (by rw [e1, e2]; omega), e1, e2, Nat.one_mul]
  · rw [UInt64.toNat_ofNat_of_lt' (show n2.toNat / 2 < 2 ^ 64 by omega)]
    omega

/-- The report's donation of 1000e6 units, and a stake of 1500e6: the attacker's unit is worth 1250000000. -/
example : Audited.convertOrcaToXorca 1 0 0 = .ok 1 ∧ Audited.convertOrcaToXorca 1500000000 1000000001 1 = .ok 1 ∧
    ∃ w, Audited.convertXorcaToOrca 1 2500000001 2 = .ok w ∧ 1000000001 < w.toNat :=
  C106_inflation_attack_before (d := 1000000000) (v := 1500000000) (n1 := 1000000001) (n2 := 2500000001) (by decide)
    (by decide) (by decide) (by decide)

/-- With one unit of xORCA and `n` units of ORCA in the pool, the audited version gives nothing for every stake below `n`,
and the one unit can be redeemed for all of it: keeping others out cost nothing.  The present version gives nothing only
below about a hundredth of `n`, and the one unit is redeemed for about a hundredth of `n`.  (C105: what becomes of the
rest.) -/
theorem C106_keeping_out_before_and_after {n v : UInt64} (hn : n ≠ 0) :
    (Audited.convertOrcaToXorca v n 1 = .ok 0 ↔ v.toNat < n.toNat) ∧ Audited.convertXorcaToOrca 1 n 1 = .ok n ∧
    (convertOrcaToXorca v n 1 = .ok 0 ↔ 101 * v.toNat < n.toNat + 100) ∧
    ∃ w, convertXorcaToOrca 1 n 1 = .ok w ∧ w.toNat = (n.toNat + 100) / 101 := by
  have e1 : (1 : UInt64).toNat = 1 := rfl
  have hn' := (u64_ne_zero_iff).1 hn
  have bn := UInt64.toNat_lt n
  have bv := UInt64.toNat_lt v
  have zero : ∀ k : Nat, k < 2 ^ 64 → (UInt64.ofNat k = 0 ↔ k = 0) := by
    intro k hk
    rw [← UInt64.toNat_inj, UInt64.toNat_ofNat_of_lt' hk]
    rfl
  have q : v.toNat / n.toNat < 2 ^ 64 := lt_of_le_of_lt (Nat.div_le_self _ _) bv
  refine ⟨?_, ?_, ?_, UInt64.ofNat ((n.toNat + 100) / 101), ?_, ?_⟩
  · rw [Audited.convertOrcaToXorca_eq v n 1 hn (by decide) (by rw [e1, Nat.mul_one]; exact q), e1, Nat.mul_one,
      Except.ok.injEq, zero _ q, Nat.div_eq_zero_iff]
    omega
  · rw [Audited.convertXorcaToOrca_eq 1 n 1 hn (by decide) (by rw [e1]; omega), e1, Nat.one_mul, Nat.div_one,
      UInt64.ofNat_toNat]
  · rw [convertOrcaToXorca_eq, e1, if_neg (by omega)]
    split
    · rename_i h
      constructor
      · intro h'; cases h'
      · intro h'
        exfalso
        rcases h with h | h
        · omega
        · rw [Nat.div_eq_of_lt (by omega)] at h
          omega
    · rename_i h
      rw [Except.ok.injEq, zero _ (by omega), Nat.div_eq_zero_iff]
      omega
  · rw [convertXorcaToOrca_eq, e1, if_neg (by omega), if_neg (by omega), Nat.one_mul]
  · exact UInt64.toNat_ofNat_of_lt' (show (n.toNat + 100) / 101 < 2 ^ 64 by omega)

/-- A pool of 10100 units: a stake of 10099 was refused; now only one below 101 is. -/
example : (Audited.convertOrcaToXorca 10099 10100 1 = .ok 0 ∧ Audited.convertXorcaToOrca 1 10100 1 = .ok 10100) ∧
    convertOrcaToXorca 100 10100 1 = .ok 0 ∧ convertOrcaToXorca 101 10100 1 = .ok 1 :=
  ⟨⟨(C106_keeping_out_before_and_after (by decide)).1.2 (by decide),
    (C106_keeping_out_before_and_after (v := 0) (by decide)).2.1⟩,
    (C106_keeping_out_before_and_after (by decide)).2.2.1.2 (by decide), by decide +kernel⟩

/-! ### L-04: accounts that have been sent lamports -/

/-- The audited creation of an account never succeeds at an address that holds a lamport. -/
theorem C106_creation_blocked_before {x : Ctx} {c : Caller} {funder new owner : Pubkey} {space : Nat}
    (ho : (L new).owner = SYSTEM_PROGRAM_ID) (hl : (L new).lamports ≠ 0) :
    ¬ ∃ L', Audited.createAccount x c L funder new space owner = .ok L' := by
  rintro ⟨L', h⟩
  unfold Audited.createAccount cpiCreateAccount systemCreateAccount at h
  rw [if_neg (by simp [ho])] at h
  simp only [bind_eq_ok, ensure_eq_ok] at h
  obtain ⟨_, _, _, _, _, h1, _⟩ := h
  exact hl h1

/-- Elsewhere the two versions are the same; C22 says that the present one works with lamports too. -/
theorem C106_creation_same {x : Ctx} {c : Caller} {funder new owner : Pubkey} {space : Nat}
    (hl : (L new).lamports = 0) :
    Audited.createAccount x c L funder new space owner = createAccountSecure x c L funder new space owner := by
  unfold Audited.createAccount createAccountSecure
  simp only [hl, if_true]

/-- One lamport at the address of the record. -/
example : ¬ ∃ L', Audited.createAccount (Demo.ctx 1003) ⟨Demo.unstakeAccs Demo.R255, [Demo.R255]⟩
    (Demo.L4.setLamports Demo.R255 1) Demo.US Demo.R255 1024 PROGRAM_ID = .ok L' :=
  C106_creation_blocked_before (by decide +kernel) (by decide +kernel)

/-! ### I-03: closing -/

/-- The audited closing left an account of the program, of the same size, with its contents but for the tag.  The present
one leaves nothing. -/
theorem C106_closing_before_and_after {k r : Pubkey} (hne : r ≠ k) :
    (Audited.closeProgramAccount L k r = .ok L' →
      (L' k).owner = (L k).owner ∧ (L' k).lamports = 0 ∧ (L' k).data = 2 :: (L k).data.tail) ∧
    (closeProgramAccount L k r = .ok L' → L' k = ⟨0, SYSTEM_PROGRAM_ID, []⟩) := by
  refine ⟨fun h => ?_, fun h => (closeProgramAccount_eff hne h).closed⟩
  unfold Audited.closeProgramAccount at h
  simp only [bind_eq_ok, Except.ok.injEq] at h
  obtain ⟨d, hd, rfl⟩ := h
  unfold setByte0 at hd
  split at hd
  · cases hd
  · next e =>
    cases hd
    simp [Ledger.setLamports, Ledger.setData, Ledger.set, e, Ne.symm hne]

/-- Closing the record of the demo. -/
example : (∃ L', Audited.closeProgramAccount Demo.L8 Demo.R255 Demo.US = .ok L' ∧ (L' Demo.R255).owner = PROGRAM_ID) ∧
    ∃ L', closeProgramAccount Demo.L8 Demo.R255 Demo.US = .ok L' ∧ (L' Demo.R255).owner = SYSTEM_PROGRAM_ID := by
  have hd : (Demo.L8 Demo.R255).data ≠ [] := by decide +kernel
  have ho : (Demo.L8 Demo.R255).owner = PROGRAM_ID := by decide +kernel
  have hne : Demo.US ≠ Demo.R255 := by decide +kernel
  obtain ⟨L', h⟩ := closeProgramAccount_succeeds (receiver := Demo.US) hd
  refine ⟨?_, L', h, by rw [(C106_closing_before_and_after hne).2 h]⟩
  obtain ⟨M, h'⟩ := Audited.closeProgramAccount_succeeds (receiver := Demo.US) hd
  exact ⟨M, h', ((C106_closing_before_and_after hne).1 h').1.trans ho⟩

/-! ### L-02: the address of the state -/

/-- The check of the state's address that was missing in `Unstake` refuses nothing that the checks of owner and tag
accept, in any ledger the present program can reach.  The report says the same ("does not pose a security risk"). -/
theorem C106_state_address_implied {m : Meta} (hr : Reachable cr L) (ho : (L m.key).owner = PROGRAM_ID)
    (ht : readU8 (L m.key).data 0 = 1) : verifyStateAddress cr m (readU8 (L m.key).data 6) = .ok () :=
  verifyStateAddress_ok.2 (findProgramAddress_some (hr.inv.state ho ht).addr).1

example : verifyStateAddress Demo.cr ⟨Demo.ST, false, false⟩ (readU8 (Demo.L5 Demo.ST).data 6) = .ok () :=
  C106_state_address_implied (L := Demo.L5) (m := ⟨Demo.ST, false, false⟩) Demo.reach5 (by decide +kernel)
    (by decide +kernel)

end Xorca
