import Verif.Lemmas.BankRun
import Verif.Lemmas.Live
/-
Lemmas for `Props/Commute.lean`: the same token operation on two ledgers, and the two orders of two calls.
-/
namespace Xorca
open Spec

variable {L L1 L2 L2' M M1 L' M' : Ledger}

theorem writeAt_twice {d b b' : Bytes} {o : Nat} (h : o + b.length ≤ d.length) (hb : b.length = b'.length) :
    writeAt (writeAt d o b) o b' = writeAt d o b' := by
  unfold writeAt
  have h1 : (d.take o).length = o := by simp; omega
  have h2 : List.take o (d.take o ++ b ++ d.drop (o + b.length)) = d.take o := by
    rw [List.append_assoc, List.take_append_of_le_length (by omega), List.take_take, Nat.min_self]
  have h3 : List.drop (o + b'.length) (d.take o ++ b ++ d.drop (o + b.length)) = d.drop (o + b'.length) := by
    rw [← hb, List.drop_append, List.drop_eq_nil_of_le (by simp)]
    simp [h1]
  rw [h2, h3]

/-- The bytes of a debited account depend only on the bytes before, the authority and the amount. -/
theorem authorizeDebit_det {t : TokenAccount} {d sd sd' : Bytes} {auth : Pubkey} {amt : UInt64} {keep : Bool}
    (h : authorizeDebit L t d auth amt keep = .ok sd) (h' : authorizeDebit M t d auth amt keep = .ok sd') :
    sd = sd' := by
  unfold authorizeDebit at h h'
  split at h
  · next hc =>
    rw [if_pos hc] at h'
    simp only [bind_eq_ok, exists_unit, validateOwner_ok, ensure_eq_ok] at h h'
    have e := h.2.2.symm.trans h'.2.2
    simpa using e
  · next hc =>
    rw [if_neg hc] at h'
    simp only [bind_eq_ok, exists_unit, validateOwner_ok, Except.ok.injEq] at h h'
    exact h.2.symm.trans h'.2

theorem splTransfer_src_det {src dst auth : Pubkey} {amt : UInt64} (hne : src ≠ dst)
    (h : splTransfer L src dst auth amt = .ok L') (h' : splTransfer M src dst auth amt = .ok M') (e : M src = L src) :
    (M' src).data = (L' src).data := by
  unfold splTransfer at h h'
  simp only [bind_eq_ok, exists_unit, ensure_eq_ok, okOr_eq_ok, if_neg hne, Except.ok.injEq] at h h'
  obtain ⟨-, s, hs, t, -, -, -, -, -, sd, hsd, sa, hsa, ta, -, rfl⟩ := h
  obtain ⟨-, s', hs', t', -, -, -, -, -, sd', hsd', sa', hsa', ta', -, rfl⟩ := h'
  rw [e] at hs' hsd'
  obtain rfl : s = s' := by simpa using hs.symm.trans hs'
  obtain rfl := authorizeDebit_det hsd hsd'
  obtain rfl : sa = sa' := by simpa using hsa.symm.trans hsa'
  rw [Ledger.setData_other _ _ hne, Ledger.setData_other _ _ hne]
  simp

theorem splBurn_src_det {src mint auth : Pubkey} {amt : UInt64} (hne : src ≠ mint)
    (h : splBurn L src mint auth amt = .ok L') (h' : splBurn M src mint auth amt = .ok M') (e : M src = L src) :
    (M' src).data = (L' src).data := by
  unfold splBurn at h h'
  simp only [bind_eq_ok, exists_unit, ensure_eq_ok] at h h'
  obtain ⟨-, s, hs, m, -, -, -, -, -, h⟩ := h
  obtain ⟨-, s', hs', m', -, -, -, -, -, h'⟩ := h'
  rw [e] at hs' h'
  obtain rfl : s = s' := by simpa using hs.symm.trans hs'
  have key : ∀ sd sa sa' ms ms', checkedSubU64 s.amount amt = some sa → checkedSubU64 s.amount amt = some sa' →
      (L.setData src (writeAt sd TA_AMOUNT (u64le sa))).setData mint (writeAt (L mint).data MINT_SUPPLY (u64le ms)) = L' →
      (M.setData src (writeAt sd TA_AMOUNT (u64le sa'))).setData mint (writeAt (M mint).data MINT_SUPPLY (u64le ms')) =
        M' → (M' src).data = (L' src).data := by
    rintro sd sa sa' ms ms' h1 h2 rfl rfl
    obtain rfl : sa = sa' := by simpa using h1.symm.trans h2
    rw [Ledger.setData_other _ _ hne, Ledger.setData_other _ _ hne]
    simp
  split at h
  · next hc =>
    rw [if_pos hc] at h'
    simp only [bind_eq_ok, okOr_eq_ok, Except.ok.injEq] at h h'
    obtain ⟨_, rfl, sa, h2, ms, h3, h4⟩ := h
    obtain ⟨_, rfl, sa', h2', ms', h3', h4'⟩ := h'
    exact key _ _ _ _ _ h2 h2' h4 h4'
  · next hc =>
    rw [if_neg hc] at h'
    simp only [bind_eq_ok, okOr_eq_ok, Except.ok.injEq] at h h'
    obtain ⟨sd, hsd, sa, h2, ms, h3, h4⟩ := h
    obtain ⟨sd', hsd', sa', h2', ms', h3', h4'⟩ := h'
    obtain rfl := authorizeDebit_det hsd hsd'
    exact key _ _ _ _ _ h2 h2' h4 h4'

/-! ### The vault after a Withdraw -/

theorem WithdrawEff.v_word {e : UInt64} {u st pw oa v : Pubkey} (h : WithdrawEff L L' e u st pw oa v)
    (hd : readU32 (L v).data 72 ≠ 1) :
    ∃ w, (L' v).data = writeAt (L v).data 64 (u64le w) ∧ w.toNat + recAmount L pw = balance L v := by
  obtain ⟨w, hw⟩ := h.v_exact hd
  obtain ⟨w', h1, h2⟩ := h.v_data
  refine ⟨w, hw, ?_⟩
  have := h1.amount
  rw [hw, readU64_writeAt_same (by rw [h.v_ok.len]; omega)] at this
  rw [this]; exact h2

theorem u64_inj {a b : UInt64} (h : a.toNat = b.toNat) : a = b := UInt64.toNat_inj.1 h

/-- Withdraw and Stake. -/
theorem withdraw_stake_same {e e' a m m' : UInt64} {u st pw oa v s ob xb : Pubkey}
    (w : WithdrawEff L L1 e u st pw oa v) (w' : WithdrawEff M1 L2' e' u st pw oa v)
    (f : StakeEff L M1 a m s v ob xb st) (f' : StakeEff L1 L2 a m' s v ob xb st) (hm : m = m')
    (hd : readU32 (L v).data 72 ≠ 1) (h1 : pw ≠ ob) (h2 : pw ≠ xb) (h3 : pw ≠ XORCA_MINT_ID) (h4 : oa ≠ ob) (h5 : oa ≠ xb)
    (h6 : oa ≠ XORCA_MINT_ID) (hob : (L2 ob).data = (M1 ob).data) : L2 = L2' := by
  have hpw : M1 pw = L pw := f.frame.other pw (by simp [h1, h2, h3, w.pw_ne.2.1])
  have hrec : recAmount M1 pw = recAmount L pw := by rw [recAmount, recAmount, hpw]
  have hst : M1 st = L st := f.frame.other st (by simp [f.st_ne])
  have hoa : M1 oa = L oa := f.frame.other oa (by simp [h4, h5, h6, w.v_ne.symm])
  have keep : ∀ k, k ∉ [pw, oa, v, st] → (L1 k).data = (L k).data := w.data
  funext k
  refine account_ext ?_ ?_ ?_
  · rw [f'.frame.lamports]
    by_cases k1 : k = pw
    · subst k1; rw [w.pw_closed, w'.pw_closed]
    by_cases k2 : k = u
    · subst k2; rw [w.refund, w'.refund, f.frame.lamports, f.frame.lamports]
    · rw [w.lamports k (by simp [k1, k2]), w'.lamports k (by simp [k1, k2]), f.frame.lamports]
  · rw [f'.frame.owner]
    by_cases k1 : k = pw
    · subst k1; rw [w.pw_closed, w'.pw_closed]
    · rw [w.owner k k1, w'.owner k k1, f.frame.owner]
  · by_cases k1 : k = pw
    · subst k1
      rw [f'.frame.data_other (by simp [h1, h2, h3, w.pw_ne.2.1]), w.pw_closed, w'.pw_closed]
    by_cases k2 : k = oa
    · subst k2
      rw [f'.frame.data_other (by simp [h4, h5, h6, w.v_ne.symm])]
      obtain ⟨q, q1, q2⟩ := w.oa_data
      obtain ⟨q', q1', q2'⟩ := w'.oa_data
      rw [q1, q1', hoa, u64_inj (a := q) (b := q') (by rw [q2, q2', hrec, balance, balance, hoa])]
    by_cases k3 : k = v
    · subst k3
      obtain ⟨q, q1, q2⟩ := f.v_data
      obtain ⟨q', q1', q2'⟩ := f'.v_data
      have hl := w.v_ok.len
      have hl' : (M1 k).data.length = 165 := by rw [q1]; simp [writeAt, hl]
      obtain ⟨r, r1, r2⟩ := w.v_word hd
      obtain ⟨r', r1', r2'⟩ := w'.v_word (by rw [q1, readU32_writeAt_apart (by simp [hl]) (by simp [Apart])]; exact hd)
      rw [q1', r1, r1', q1, writeAt_twice (by simp [hl]) (by simp), writeAt_twice (by simp [hl]) (by simp)]
      have b1 : balance L1 k = r.toNat := by rw [balance, r1, readU64_writeAt_same (by omega)]
      have b2 : balance M1 k = q.toNat := by rw [balance, q1, readU64_writeAt_same (by omega)]
      rw [u64_inj (a := q') (b := r') (by omega)]
    by_cases k4 : k = st
    · subst k4
      rw [f'.frame.data_other (by simp [f.st_ne]), w.st_data, w'.st_data, hst]
      have e1 := w.escrow
      have e2 := w'.escrow
      rw [Spec.escrow, hst] at e2
      rw [Spec.escrow] at e1
      rw [u64_inj (a := e) (b := e') (by omega)]
    have kd : (L1 k).data = (L k).data := w.data k (by simp [k1, k2, k3, k4])
    have kd' : (L2' k).data = (M1 k).data := w'.data k (by simp [k1, k2, k3, k4])
    rw [kd']
    by_cases k5 : k = ob
    · subst k5; exact hob
    by_cases k6 : k = xb
    · subst k6
      obtain ⟨q, q1, q2⟩ := f.xa_data
      obtain ⟨q', q1', q2'⟩ := f'.xa_data
      rw [q1, q1', kd, u64_inj (a := q) (b := q') (by rw [q2, q2', hm, balance, balance, kd])]
    by_cases k7 : k = XORCA_MINT_ID
    · subst k7
      obtain ⟨q, q1, q2⟩ := f.xm_data
      obtain ⟨q', q1', q2'⟩ := f'.xm_data
      rw [q1, q1', kd, u64_inj (a := q) (b := q') (by rw [q2, q2', hm, supply, supply, kd])]
    · rw [f.frame.data_other (by simp [k3, k5, k6, k7]), f'.frame.data_other (by simp [k3, k5, k6, k7]), kd]

/-- Withdraw and Unstake. -/
theorem withdraw_unstake_same {x : Ctx} {e e' a n n' c c' : UInt64} {i b b' : UInt8} {ts ts' : Int64}
    {u st pw oa v s pb xb : Pubkey}
    (w : WithdrawEff L L1 e u st pw oa v) (w' : WithdrawEff M1 L2' e' u st pw oa v)
    (f : UnstakeEff x L M1 a n c i b ts s st pb xb v) (f' : UnstakeEff x L1 L2 a n' c' i b' ts' s st pb xb v)
    (hn : n = n') (hb : b = b') (hd : readU32 (L v).data 72 ≠ 1) (hl : 2048 ≤ (L st).data.length)
    (h1 : pw ≠ pb) (h2 : pw ≠ xb) (h3 : pw ≠ XORCA_MINT_ID) (h4 : oa ≠ pb) (h5 : oa ≠ xb)
    (h6 : oa ≠ XORCA_MINT_ID) (h7 : u ≠ pb) (h8 : s ≠ pw)
    (hlam : u = s → (L u).lamports.toNat + (L pw).lamports.toNat < 2 ^ 64)
    (hxb : (L2 xb).data = (M1 xb).data) : L2 = L2' := by
  subst hn hb
  have hpw : M1 pw = L pw := account_ext (f.lamports pw (by simp [h1, h8.symm])) (f.owner pw h1)
    (f.data pw (by simp [h1, h2, h3, w.st_ne.1.symm]))
  have hpb : L1 pb = L pb := account_ext (w.lamports pb (by simp [h1.symm, h7.symm])) (w.owner pb h1.symm)
    (w.data pb (by simp [h1.symm, h4.symm, f.pw_ne, f.st_ne.1.symm]))
  have hrec : recAmount M1 pw = recAmount L pw := by rw [recAmount, recAmount, hpw]
  have hoa : (M1 oa).data = (L oa).data := f.data oa (by simp [h4, h5, h6, w.st_ne.2.1.symm])
  have hv : (M1 v).data = (L v).data := f.data v (by simp [f.v_ne, f.pw_ne.2.2.2.symm, f.st_ne.2.2.2.symm])
  have hts : ts = ts' := by
    rw [← Int64.toInt_inj, f.maturity, f'.maturity, coolDown, coolDown, w.st_data,
      readI64_writeAt_apart (by simp; omega) (by simp [Apart])]
  subst hts
  funext k
  refine account_ext ?_ ?_ ?_
  · by_cases k1 : k = pw
    · subst k1; rw [f'.lamports k (by simp [h1, h8.symm]), w.pw_closed, w'.pw_closed]
    by_cases k2 : k = pb
    · subst k2
      obtain ⟨l, q1, q2⟩ := f.pw_new
      obtain ⟨l', q1', q2'⟩ := f'.pw_new
      rw [w'.lamports k (by simp [k1, h7.symm]), q1, q1']
      exact u64_inj (by rw [q2, q2', hpb])
    have p1 := f.paid
    have p2 := f'.paid
    rw [hpb] at p2
    by_cases k3 : k = u
    · subst k3
      by_cases k4 : k = s
      · subst k4
        rw [w'.refund, hpw]
        rw [w.refund, UInt64.toNat_add, Nat.mod_eq_of_lt (hlam rfl)] at p2
        apply u64_inj
        rw [UInt64.toNat_add]
        have := (L2 k).lamports.toNat_lt
        rw [Nat.mod_eq_of_lt (by omega)]
        omega
      · rw [w'.refund, hpw, f'.lamports k (by simp [k2, k4]), w.refund, f.lamports k (by simp [k2, k4])]
    · rw [w'.lamports k (by simp [k1, k3])]
      by_cases k4 : k = s
      · subst k4
        rw [w.lamports k (by simp [k1, k3])] at p2
        exact u64_inj (by omega)
      · rw [f'.lamports k (by simp [k2, k4]), f.lamports k (by simp [k2, k4]), w.lamports k (by simp [k1, k3])]
  · by_cases k1 : k = pw
    · subst k1; rw [f'.owner k h1, w.pw_closed, w'.pw_closed]
    rw [w'.owner k k1]
    by_cases k2 : k = pb
    · subst k2
      obtain ⟨l, q1, -⟩ := f.pw_new
      obtain ⟨l', q1', -⟩ := f'.pw_new
      rw [q1, q1']
    · rw [f'.owner k k2, f.owner k k2, w.owner k k1]
  · by_cases k1 : k = pw
    · subst k1
      rw [f'.data k (by simp [h1, h2, h3, w.st_ne.1.symm]), w.pw_closed, w'.pw_closed]
    by_cases k2 : k = oa
    · subst k2
      rw [f'.data k (by simp [h4, h5, h6, w.st_ne.2.1.symm])]
      obtain ⟨q, q1, q2⟩ := w.oa_data
      obtain ⟨q', q1', q2'⟩ := w'.oa_data
      rw [q1, q1', hoa, u64_inj (a := q) (b := q') (by rw [q2, q2', hrec, balance, balance, hoa])]
    by_cases k3 : k = v
    · subst k3
      rw [f'.data k (by simp [f.v_ne, f.pw_ne.2.2.2.symm, f.st_ne.2.2.2.symm])]
      obtain ⟨r, r1, r2⟩ := w.v_word hd
      obtain ⟨r', r1', r2'⟩ := w'.v_word (by rw [hv]; exact hd)
      rw [r1, r1', hv]
      rw [balance, hv] at r2'
      rw [balance] at r2
      rw [u64_inj (a := r) (b := r') (by omega)]
    by_cases k4 : k = st
    · subst k4
      have e1 := w.escrow
      have e2 := w'.escrow
      have e3 := f.escrow
      have e4 := f'.escrow
      have g1 : Spec.escrow M1 k = c.toNat := by
        rw [Spec.escrow, f.st_data, readU64_writeAt_same (by omega)]
      have g2 : Spec.escrow L1 k = e.toNat := by
        rw [Spec.escrow, w.st_data, readU64_writeAt_same (by omega)]
      rw [f'.st_data, w.st_data, w'.st_data, f.st_data, writeAt_twice (by simp; omega) (by simp),
        writeAt_twice (by simp; omega) (by simp), u64_inj (a := c') (b := e') (by omega)]
    have kd : (L1 k).data = (L k).data := w.data k (by simp [k1, k2, k3, k4])
    have kd' : (L2' k).data = (M1 k).data := w'.data k (by simp [k1, k2, k3, k4])
    rw [kd']
    by_cases k5 : k = pb
    · subst k5
      obtain ⟨l, q1, -⟩ := f.pw_new
      obtain ⟨l', q1', -⟩ := f'.pw_new
      rw [q1, q1']
    by_cases k6 : k = xb
    · subst k6; exact hxb
    by_cases k7 : k = XORCA_MINT_ID
    · subst k7
      obtain ⟨q, q1, q2⟩ := f.xm_data
      obtain ⟨q', q1', q2'⟩ := f'.xm_data
      rw [supply, kd] at q2'
      rw [supply] at q2
      rw [q1, q1', kd, u64_inj (a := q) (b := q') (by omega)]
    · rw [f.data k (by simp [k4, k5, k6, k7]), f'.data k (by simp [k4, k5, k6, k7]), kd]

/-- Two Withdraws. -/
theorem withdraw_withdraw_same {e e' c c' : UInt64} {u st pw oa v s pb ob : Pubkey}
    (w : WithdrawEff L L1 e u st pw oa v) (w' : WithdrawEff M1 L2' e' u st pw oa v)
    (f : WithdrawEff L M1 c s st pb ob v) (f' : WithdrawEff L1 L2 c' s st pb ob v)
    (hd : readU32 (L v).data 72 ≠ 1) (hl : 2048 ≤ (L st).data.length)
    (h1 : pw ≠ pb) (h2 : pw ≠ ob) (h3 : oa ≠ pb) (h4 : u ≠ pb) (h5 : s ≠ pw) : L2 = L2' := by
  have hpw : M1 pw = L pw := account_ext (f.lamports pw (by simp [h1, h5.symm])) (f.owner pw h1)
    (f.data pw (by simp [h1, h2, w.pw_ne, w.st_ne.1.symm]))
  have hpb : L1 pb = L pb := account_ext (w.lamports pb (by simp [h1.symm, h4.symm])) (w.owner pb h1.symm)
    (w.data pb (by simp [h1.symm, h3.symm, f.pw_ne, f.st_ne.1.symm]))
  have hrec : recAmount M1 pw = recAmount L pw := by rw [recAmount, recAmount, hpw]
  have hrec' : recAmount L1 pb = recAmount L pb := by rw [recAmount, recAmount, hpb]
  funext k
  refine account_ext ?_ ?_ ?_
  · by_cases k1 : k = pw
    · subst k1; rw [f'.lamports k (by simp [h1, h5.symm]), w.pw_closed, w'.pw_closed]
    by_cases k2 : k = pb
    · subst k2; rw [w'.lamports k (by simp [k1, h4.symm]), f.pw_closed, f'.pw_closed]
    by_cases k3 : k = u
    · subst k3
      by_cases k4 : k = s
      · subst k4
        rw [w'.refund, f'.refund, w.refund, f.refund, hpw, hpb, UInt64.add_assoc, UInt64.add_assoc,
          UInt64.add_comm (L pw).lamports]
      · rw [w'.refund, hpw, f'.lamports k (by simp [k2, k4]), w.refund, f.lamports k (by simp [k2, k4])]
    · rw [w'.lamports k (by simp [k1, k3])]
      by_cases k4 : k = s
      · subst k4; rw [f'.refund, f.refund, hpb, w.lamports k (by simp [k1, k3])]
      · rw [f'.lamports k (by simp [k2, k4]), f.lamports k (by simp [k2, k4]), w.lamports k (by simp [k1, k3])]
  · by_cases k1 : k = pw
    · subst k1; rw [f'.owner k h1, w.pw_closed, w'.pw_closed]
    rw [w'.owner k k1]
    by_cases k2 : k = pb
    · subst k2; rw [f.pw_closed, f'.pw_closed]
    · rw [f'.owner k k2, f.owner k k2, w.owner k k1]
  · by_cases k1 : k = pw
    · subst k1
      rw [f'.data k (by simp [h1, h2, w.pw_ne, w.st_ne.1.symm]), w.pw_closed, w'.pw_closed]
    by_cases k2 : k = pb
    · subst k2
      rw [w'.data k (by simp [k1, h3.symm, f.pw_ne, f.st_ne.1.symm]), f.pw_closed, f'.pw_closed]
    by_cases k3 : k = v
    · subst k3
      obtain ⟨r, r1, r2⟩ := w.v_word hd
      obtain ⟨q, q1, q2⟩ := f.v_word hd
      have hl := w.v_ok.len
      obtain ⟨r', r1', r2'⟩ := w'.v_word (by rw [q1, readU32_writeAt_apart (by simp [hl]) (by simp [Apart])]; exact hd)
      obtain ⟨q', q1', q2'⟩ := f'.v_word (by rw [r1, readU32_writeAt_apart (by simp [hl]) (by simp [Apart])]; exact hd)
      have b1 : balance L1 k = r.toNat := by rw [balance, r1, readU64_writeAt_same (by omega)]
      have b2 : balance M1 k = q.toNat := by rw [balance, q1, readU64_writeAt_same (by omega)]
      rw [q1', r1, r1', q1, writeAt_twice (by simp [hl]) (by simp), writeAt_twice (by simp [hl]) (by simp),
        u64_inj (a := q') (b := r') (by omega)]
    by_cases k4 : k = st
    · subst k4
      have e1 := w.escrow
      have e2 := w'.escrow
      have e3 := f.escrow
      have e4 := f'.escrow
      have g1 : Spec.escrow M1 k = c.toNat := by
        rw [Spec.escrow, f.st_data, readU64_writeAt_same (by omega)]
      have g2 : Spec.escrow L1 k = e.toNat := by
        rw [Spec.escrow, w.st_data, readU64_writeAt_same (by omega)]
      rw [f'.st_data, w.st_data, w'.st_data, f.st_data, writeAt_twice (by simp; omega) (by simp),
        writeAt_twice (by simp; omega) (by simp), u64_inj (a := c') (b := e') (by omega)]
    by_cases k5 : k = oa
    · subst k5
      obtain ⟨q, q1, q2⟩ := w.oa_data
      obtain ⟨q', q1', q2'⟩ := w'.oa_data
      by_cases k6 : k = ob
      · subst k6
        obtain ⟨r, r1, r2⟩ := f.oa_data
        obtain ⟨r', r1', r2'⟩ := f'.oa_data
        have hl := w.oa_ok.len
        have b1 : balance L1 k = q.toNat := by rw [balance, q1, readU64_writeAt_same (by omega)]
        have b2 : balance M1 k = r.toNat := by rw [balance, r1, readU64_writeAt_same (by omega)]
        rw [r1', q1, q1', r1, writeAt_twice (by simp [hl]) (by simp), writeAt_twice (by simp [hl]) (by simp),
          u64_inj (a := r') (b := q') (by omega)]
      · have hoa : (M1 k).data = (L k).data := f.data k (by simp [k2, k3, k4, k6])
        rw [f'.data k (by simp [k2, k3, k4, k6]), q1, q1', hoa,
          u64_inj (a := q) (b := q') (by rw [q2, q2', hrec, balance, balance, hoa])]
    have kd : (L1 k).data = (L k).data := w.data k (by simp [k1, k5, k3, k4])
    have kd' : (L2' k).data = (M1 k).data := w'.data k (by simp [k1, k5, k3, k4])
    rw [kd']
    by_cases k6 : k = ob
    · subst k6
      obtain ⟨q, q1, q2⟩ := f.oa_data
      obtain ⟨q', q1', q2'⟩ := f'.oa_data
      rw [q1, q1', kd, u64_inj (a := q) (b := q') (by rw [q2, q2', hrec', balance, balance, kd])]
    · rw [f.data k (by simp [k2, k6, k3, k4]), f'.data k (by simp [k2, k6, k3, k4]), kd]

/-! ### The debited account is the same in both orders -/

theorem StakeRun.orca_same {x y : Ctx} {accs accs' : List Meta} {a m m' : UInt64} {lg lg' : List Bytes}
    {s v oa xa xm st om tp : Meta} {A B : Ledger}
    (r : StakeRun x L accs a L' lg s v oa xa xm st om tp A m)
    (r' : StakeRun y M accs' a M' lg' s v oa xa xm st om tp B m')
    (f : StakeEff L L' a m s.key v.key oa.key xa.key st.key) (e : M oa.key = L oa.key) :
    (M' oa.key).data = (L' oa.key).data := by
  have t := splTransfer_src_det f.oa_ne_v (cpiTokenTransfer_ok.1 r.transfer).2.2 (cpiTokenTransfer_ok.1 r'.transfer).2.2 e
  have k := (splMintTo_eff (cpiMintTo_ok.1 r.mint).2.2).frame.data_other (k := oa.key)
    (by rw [r.xm_key]; simp [f.oa_ne_xm, f.oa_ne_xa])
  have k' := (splMintTo_eff (cpiMintTo_ok.1 r'.mint).2.2).frame.data_other (k := oa.key)
    (by rw [r'.xm_key]; simp [f.oa_ne_xm, f.oa_ne_xa])
  rw [k, k', t]

theorem UnstakeRun.xorca_kept {x : Ctx} {accs : List Meta} {a : UInt64} {i : UInt8}
    {logs : List Bytes} {u st pw xa xm om v sp tp : Meta} {A L3 : Ledger} {w e : UInt64} {ts : Int64} {b : UInt8}
    (r : UnstakeRun x L accs a i L' logs u st pw xa xm om v sp tp A L3 w e ts b)
    (f : UnstakeEff x L L' a w e i b ts u.key st.key pw.key xa.key v.key) : (L' xa.key).data = (A xa.key).data := by
  have bt := splBurn_eff (cpiBurn_ok.1 r.burn).2.2
  rw [r.xm_key] at bt
  have hpw : A pw.key = L pw.key := bt.frame.other _ (by simp [f.pw_ne])
  have ce := createPendingWithdrawSecure_eff f.pw_ne.1.symm
    (by rw [Ledger.setData_other _ _ f.st_ne.1.symm, hpw]; exact r.pw_prog) r.create
  rw [r.result, Ledger.setData_other _ _ f.pw_ne.2.1.symm]
  have : (L3 xa.key).data = ((A.setData st.key (setStEscrow (A st.key).data e)) xa.key).data := by
    by_cases hku : xa.key = u.key
    · obtain ⟨l, hf1, -⟩ := ce.paid
      rw [hku, hf1]
    · rw [ce.other _ hku f.pw_ne.2.1.symm]
  rw [this, Ledger.setData_other _ _ f.st_ne.2.1.symm]

theorem UnstakeRun.xorca_same {x y : Ctx} {accs accs' : List Meta} {a : UInt64} {i : UInt8}
    {lg lg' : List Bytes} {u st pw xa xm om v sp tp : Meta} {A A3 B B3 : Ledger} {w e w' e' : UInt64} {ts ts' : Int64}
    {b b' : UInt8} (r : UnstakeRun x L accs a i L' lg u st pw xa xm om v sp tp A A3 w e ts b)
    (r' : UnstakeRun y M accs' a i M' lg' u st pw xa xm om v sp tp B B3 w' e' ts' b')
    (f : UnstakeEff x L L' a w e i b ts u.key st.key pw.key xa.key v.key)
    (f' : UnstakeEff y M M' a w' e' i b' ts' u.key st.key pw.key xa.key v.key) (h : M xa.key = L xa.key) :
    (M' xa.key).data = (L' xa.key).data := by
  rw [r.xorca_kept f, r'.xorca_kept f']
  exact splBurn_src_det (by rw [r.xm_key]; exact f.xa_ne_xm) (cpiBurn_ok.1 r.burn).2.2 (cpiBurn_ok.1 r'.burn).2.2 h

/-! ### The second call -/

variable {cr : Crypto} {x y : Ctx} {st v : Pubkey} {logs : List Bytes} {g h : Leaver}

theorem Spec.Leaver.signers_stake (hg : g.CanStake cr L) : SignersOk cr L (g.stakeAccs st v) :=
  signersOk_one hg.signer hg.wallet (by
    intro m hm hs
    simp only [Leaver.stakeAccs, List.mem_cons, List.not_mem_nil, or_false] at hm
    rcases hm with rfl | rfl | rfl | rfl | rfl | rfl | rfl | rfl <;> first | rfl | cases hs)

/-- Everything but five accounts is as before after a Stake. -/
theorem Spec.Leaver.stake_frame {a : UInt64} {k : Pubkey} (hr : Runs x L (g.stakeAccs st v) (.Stake a) L' logs)
    (hs : SignersOk x.cr L (g.stakeAccs st v)) (h1 : k ≠ g.user) (h2 : k ≠ v) (h3 : k ≠ g.orca) (h4 : k ≠ g.xorca)
    (h5 : k ≠ XORCA_MINT_ID) : L' k = L k := by
  refine C34_bystanders_untouched hr hs fun m hm hw => ?_
  simp only [Leaver.stakeAccs, List.mem_cons, List.not_mem_nil, or_false] at hm
  rcases hm with rfl | rfl | rfl | rfl | rfl | rfl | rfl | rfl <;>
    first | exact h1.symm | exact h2.symm | exact h3.symm | exact h4.symm | exact h5.symm | cases hw

/-- A request that others left alone can still be withdrawn. -/
theorem Spec.Leaver.CanWithdraw.same (hg : g.CanWithdraw cr L) (e1 : M g.user = L g.user) (e2 : M g.orca = L g.orca)
    (e3 : M g.record = L g.record) : g.CanWithdraw cr M := by
  have b1 : balance M g.orca = balance L g.orca := by rw [balance, balance, e2]
  have b2 : recAmount M g.record = recAmount L g.record := by rw [recAmount, recAmount, e3]
  exact ⟨⟨hg.signer, by rw [e1]; exact hg.wallet, hg.addr, hg.orca.same e2⟩,
    ⟨by rw [e3]; exact hg.isRecord.1, by rw [e3]; exact hg.isRecord.2.1, by rw [e3]; exact hg.isRecord.2.2⟩,
    by rw [recOwner, e3]; exact hg.owner, by rw [recIndex, e3]; exact hg.index, by rw [b1, b2]; exact hg.fits⟩

theorem Spec.Leaver.CanWithdraw.runs (hreach : Reachable cr L) (p : Pool cr L st v) (hx : x.cr = cr)
    (hg : g.CanWithdraw cr L) (hmat : recTime L g.record ≤ x.now.toInt) (hthaw : readU8 (L v).data 108 = 1)
    (hom : (L ORCA_MINT_ID).owner = SPL_TOKEN_PROGRAM_ID) :
    ∃ L' l, Runs x L (g.withdrawAccs st v) (.Withdraw g.index) L' l := by
  have := C21_matured_withdrawal_succeeds (x := x) (u := ⟨g.user, true, true⟩) (st := ⟨st, false, true⟩)
    (pw := ⟨g.record, false, true⟩) (oa := ⟨g.orca, false, true⟩) (v := ⟨v, false, true⟩)
    (om := ⟨ORCA_MINT_ID, false, false⟩) (sp := ⟨SYSTEM_PROGRAM_ID, false, false⟩)
    (tp := ⟨SPL_TOKEN_PROGRAM_ID, false, false⟩) hreach hx (Leaver.signers_withdraw hg.toHasAccounts)
    ⟨⟨_, p.acc.addr⟩, p.prog, p.acc.tag⟩ p.v_addr
    ⟨⟨[], rfl⟩, rfl, rfl, rfl, rfl, rfl, rfl, rfl, rfl, rfl⟩ hg.isRecord hg.owner hmat
    hg.orca hg.fits hthaw hom
  rw [hg.index] at this
  exact succeeds_iff.1 this

theorem step_pool {accs : List Meta} {ix : Instruction} (hreach : Reachable cr L) (p : Pool cr L st v) (hx : x.cr = cr)
    (hrent : ∀ n, x.rentMin n ≠ 0) (hs : SignersOk cr L accs) (hr : Runs x L accs ix L' logs) :
    Reachable cr L' ∧ Pool cr L' st v := by
  have ok : Entry.Ok cr ⟨L, .call x accs ix logs, L'⟩ := .call hx hrent hs hr
  have q : Path cr L [_] L' := .step .nil ok
  exact ⟨hreach.path q, (q.inv hreach.inv).2 _ _ p⟩

theorem Spec.Leaver.withdraw_mint (p : Pool cr L st v) (hg : g.CanWithdraw cr L)
    (hr : Runs x L (g.withdrawAccs st v) (.Withdraw g.index) L' logs) (hx : x.cr = cr) :
    L' XORCA_MINT_ID = L XORCA_MINT_ID :=
  Leaver.withdraw_frame hr (hx ▸ Leaver.signers_withdraw hg.toHasAccounts)
    (ne_of_owner p.mint.prog hg.wallet.1 token_ne_system) (ne_of_owner p.mint.prog p.prog token_ne_program)
    (ne_of_owner p.mint.prog hg.isRecord.1 token_ne_program) (hg.orca.ne_mint p.mint.len).symm (by
      intro e
      have h1 := p.mint.len
      rw [e, p.v_tok.len] at h1
      cases h1)

/-- A Withdraw leaves the backing alone. -/
theorem Spec.Leaver.withdraw_backing (p : Pool cr L st v) (hg : g.CanWithdraw cr L)
    (hr : Runs x L (g.withdrawAccs st v) (.Withdraw g.index) L' logs) (hx : x.cr = cr) :
    backing L' v st = backing L v st ∧ balance L' v ≤ balance L v ∧ coolDown L' st = coolDown L st := by
  subst hx
  have hs := Leaver.signers_withdraw (st := st) (v := v) hg.toHasAccounts
  obtain ⟨L1, L2, e', r⟩ := hr.withdraw
  have e := (r.eff hs).1
  simp only [] at e
  obtain ⟨w, hw, hw2⟩ := e.v_word (by rw [p.v_tok.delegate]; decide)
  have b1 : balance L' v = w.toNat := by rw [balance, hw, readU64_writeAt_same (by rw [p.v_tok.len]; omega)]
  have e1 := e.escrow
  have e2 : escrow L' st = e'.toNat := by rw [escrow, e.st_data, readU64_writeAt_same (by rw [p.acc.len]; omega)]
  have := p.backed
  refine ⟨by unfold backing; omega, by omega, ?_⟩
  rw [coolDown, coolDown, e.st_data, readI64_writeAt_apart (by simp [p.acc.len]) (by simp [Xorca.Apart])]

end Xorca
