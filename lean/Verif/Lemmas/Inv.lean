import Verif.History
import Verif.Lemmas.Exec
/-
The inductive invariant of histories.
-/
namespace Xorca
open Spec

/-- A state account. -/
structure StateAcc (cr : Crypto) (k : Pubkey) (a : Account) : Prop where
  addr : StateAddr cr k (readU8 a.data 6)
  vault : ∃ v, VaultAddr cr k v (readU8 a.data 7)
  len : a.data.length = 2048
  tag : readU8 a.data 0 = 1
  lam : a.lamports ≠ 0
  cool : 0 ≤ (readI64 a.data 16).toInt

/-- A withdrawal record. -/
structure RecAcc (cr : Crypto) (k : Pubkey) (a : Account) : Prop where
  addr : RecordAddr cr (readKey a.data 8) (readU8 a.data 7) k (readU8 a.data 6)
  len : a.data.length = 1024
  tag : readU8 a.data 0 = 2
  lam : a.lamports ≠ 0
  pos : 0 < (readU64 a.data 40).toNat

/-- The pool with state `st` and vault `v`. -/
structure Pool (cr : Crypto) (L : Ledger) (st v : Pubkey) : Prop where
  prog : (L st).owner = PROGRAM_ID
  acc : StateAcc cr st (L st)
  v_addr : VaultAddr cr st v (readU8 (L st).data 7)
  v_tok : PoolToken cr (L v)
  v_owner : ownerOf L v = st
  v_mint : mintOf L v = ORCA_MINT_ID
  mint : PoolMint cr (L XORCA_MINT_ID)
  m_auth : readKey (L XORCA_MINT_ID).data 4 = st
  m_dec : readU8 (L XORCA_MINT_ID).data 44 = 6
  backed : supply L XORCA_MINT_ID + escrow L st ≤ balance L v
  records : ∃ rs : List Pubkey, rs.Nodup ∧ (∀ k, k ∈ rs ↔ IsRecord L k) ∧
    (rs.map (recAmount L)).sum = escrow L st

/-- The invariant. -/
structure Inv (cr : Crypto) (L : Ledger) : Prop where
  owned : ∀ k, (L k).owner = PROGRAM_ID → AllZero (L k).data ∨ StateAcc cr k (L k) ∨ RecAcc cr k (L k)
  shape : MintShape (L XORCA_MINT_ID)
  pool : (∃ st v, Pool cr L st v) ∨ (∀ k, (L k).owner = PROGRAM_ID → AllZero (L k).data)

theorem stateAddr_unique {cr : Crypto} {k k' : Pubkey} {b b' : UInt8} (h : StateAddr cr k b)
    (h' : StateAddr cr k' b') : k = k' ∧ b = b' := by
  unfold StateAddr at h h'; rw [h] at h'; cases h'; exact ⟨rfl, rfl⟩

theorem vaultAddr_unique {cr : Crypto} {st k k' : Pubkey} {b b' : UInt8} (h : VaultAddr cr st k b)
    (h' : VaultAddr cr st k' b') : k = k' ∧ b = b' := by
  unfold VaultAddr at h h'; rw [h] at h'; cases h'; exact ⟨rfl, rfl⟩

theorem Inv.state {cr : Crypto} {L : Ledger} (i : Inv cr L) {k : Pubkey} (ho : (L k).owner = PROGRAM_ID)
    (ht : readU8 (L k).data 0 = 1) : StateAcc cr k (L k) := by
  rcases i.owned k ho with h | h | h
  · exact absurd h (not_allZero (o := 0) (by rw [ht]; decide))
  · exact h
  · have := h.tag; rw [ht] at this; exact absurd this (by decide)

theorem Inv.recAcc {cr : Crypto} {L : Ledger} (i : Inv cr L) {k : Pubkey} (ho : (L k).owner = PROGRAM_ID)
    (ht : readU8 (L k).data 0 = 2) : RecAcc cr k (L k) := by
  rcases i.owned k ho with h | h | h
  · exact absurd h (not_allZero (o := 0) (by rw [ht]; decide))
  · have := h.tag; rw [ht] at this; exact absurd this (by decide)
  · exact h

theorem Inv.isRec {cr : Crypto} {L : Ledger} (i : Inv cr L) {k : Pubkey} (h : IsRecord L k) :
    RecAcc cr k (L k) := i.recAcc h.1 h.2.2

theorem RecAcc.isRecord {cr : Crypto} {L : Ledger} {k : Pubkey} (h : RecAcc cr k (L k))
    (ho : (L k).owner = PROGRAM_ID) : IsRecord L k := ⟨ho, by rw [h.len], h.tag⟩

/-- A program-owned account tagged 1 forces the pool to exist, with that state. -/
theorem Inv.poolOf {cr : Crypto} {L : Ledger} (i : Inv cr L) {k : Pubkey} (ho : (L k).owner = PROGRAM_ID)
    (ht : readU8 (L k).data 0 = 1) : ∃ v, Pool cr L k v := by
  have hs := i.state ho ht
  rcases i.pool with ⟨st, v, p⟩ | h
  · obtain ⟨rfl, _⟩ := stateAddr_unique hs.addr p.acc.addr
    exact ⟨v, p⟩
  · exact absurd (h k ho) (not_allZero (o := 0) (by rw [ht]; decide))

/-- The vault accepted by the program is the canonical one. -/
theorem Pool.vault_eq {cr : Crypto} {L : Ledger} {st v k : Pubkey} (p : Pool cr L st v)
    (h : k = deriveAddress cr (vaultSeedsRaw st SPL_TOKEN_PROGRAM_ID ORCA_MINT_ID)
      (readU8 (L st).data 7) ASSOCIATED_TOKEN_PROGRAM_ID) : k = v := by
  rw [h, (findProgramAddress_some p.v_addr).1]; rfl

/-! ### Byte facts -/

theorem StateAcc.congr {cr : Crypto} {k : Pubkey} {a a' : Account} (h : StateAcc cr k a)
    (hl : a'.data.length = a.data.length) (h0 : readU8 a'.data 0 = readU8 a.data 0)
    (h6 : readU8 a'.data 6 = readU8 a.data 6) (h7 : readU8 a'.data 7 = readU8 a.data 7)
    (hla : a'.lamports ≠ 0) (hc : 0 ≤ (readI64 a'.data 16).toInt) : StateAcc cr k a' :=
  ⟨by rw [h6]; exact h.addr, by rw [h7]; exact h.vault, by rw [hl]; exact h.len, by rw [h0]; exact h.tag,
    hla, hc⟩

theorem RecAcc.congr {cr : Crypto} {k : Pubkey} {a a' : Account} (h : RecAcc cr k a)
    (hd : a'.data = a.data) (hla : a'.lamports ≠ 0) : RecAcc cr k a' := by
  obtain ⟨h1, h2, h3, h4, h5⟩ := h
  exact ⟨hd ▸ h1, hd ▸ h2, hd ▸ h3, hla, hd ▸ h5⟩

theorem Spec.PoolToken.writeAmount {cr : Crypto} {a a' : Account} {w : UInt64} (h : PoolToken cr a)
    (ho : a'.owner = a.owner) (hd : a'.data = writeAt a.data 64 (u64le w)) : PoolToken cr a' := by
  obtain ⟨h1, h2, h3, h4, h5, h6, h7⟩ := h
  have hl : 64 + (u64le w).length ≤ a.data.length := by simp; omega
  refine ⟨by rw [ho, h1], by rw [hd, writeAt_length hl, h2], ?_, ?_, ?_, ?_, ?_⟩
  · rw [hd, readU8_writeAt_apart hl (by simp [Apart])]; exact h3
  · rw [hd, readKey_writeAt_apart hl (by simp [Apart])]; exact h4
  · rw [hd, readU32_writeAt_apart hl (by simp [Apart])]; exact h5
  · rw [hd, readU32_writeAt_apart hl (by simp [Apart])]; exact h6
  · rw [hd, readU32_writeAt_apart hl (by simp [Apart])]; exact h7

theorem Spec.PoolMint.writeSupply {cr : Crypto} {a a' : Account} {w : UInt64} (h : PoolMint cr a)
    (ho : a'.owner = a.owner) (hd : a'.data = writeAt a.data 36 (u64le w)) :
    PoolMint cr a' ∧ readKey a'.data 4 = readKey a.data 4 ∧ readU8 a'.data 44 = readU8 a.data 44 := by
  obtain ⟨h1, h2, h3, h4, h5, h6⟩ := h
  have hl : 36 + (u64le w).length ≤ a.data.length := by simp; omega
  refine ⟨⟨by rw [ho, h1], by rw [hd, writeAt_length hl, h2], ?_, ?_, ?_, ?_⟩, ?_, ?_⟩
  · rw [hd, readU8_writeAt_apart hl (by simp [Apart])]; exact h3
  · rw [hd, readU32_writeAt_apart hl (by simp [Apart])]; exact h4
  · rw [hd, readKey_writeAt_apart hl (by simp [Apart])]; exact h5
  · rw [hd, readU32_writeAt_apart hl (by simp [Apart])]; exact h6
  · rw [hd, readKey_writeAt_apart hl (by simp [Apart])]
  · rw [hd, readU8_writeAt_apart hl (by simp [Apart])]

theorem Spec.PoolMint.shape {cr : Crypto} {a : Account} (h : PoolMint cr a) : MintShape a :=
  fun _ => Or.inr ⟨h.len, h.init⟩

/-- Records of another ledger in which all records look the same. -/
theorem recordsCongr {L L' : Ledger} (hr : ∀ k, IsRecord L' k ↔ IsRecord L k)
    (hd : ∀ k, IsRecord L k → (L' k).data = (L k).data) {rs : List Pubkey}
    (hm : ∀ k, k ∈ rs ↔ IsRecord L k) :
    (∀ k, k ∈ rs ↔ IsRecord L' k) ∧ (rs.map (recAmount L')).sum = (rs.map (recAmount L)).sum := by
  refine ⟨fun k => by rw [hm, hr], ?_⟩
  congr 1
  apply List.map_congr_left
  intro k hk
  rw [recAmount, recAmount, hd k ((hm k).1 hk)]

/-- When no program-owned account changes owner or data, nor any account becomes program-owned. -/
theorem isRecord_congr {L L' : Ledger} (ho : ∀ k, (L' k).owner = (L k).owner)
    (hd : ∀ k, (L k).owner = PROGRAM_ID → (L' k).data = (L k).data) (k : Pubkey) :
    IsRecord L' k ↔ IsRecord L k := by
  unfold IsRecord
  rw [ho]
  constructor
  · rintro ⟨h1, h2⟩; rw [hd k h1] at h2; exact ⟨h1, h2⟩
  · rintro ⟨h1, h2⟩; rw [hd k h1]; exact ⟨h1, h2⟩

/-! ### Genesis -/

theorem Inv.genesis {cr : Crypto} {L : Ledger} (g : Genesis L) : Inv cr L :=
  ⟨fun k hk => Or.inl (g.blank k hk), g.shape, Or.inr g.blank⟩

/-! ### Stake -/

theorem Inv.stake {x : Ctx} {L L' : Ledger} {accs : List Meta} {a : UInt64} {logs : List Bytes}
    (hs : SignersOk x.cr L accs) (i : Inv x.cr L) (h : processStake x L accs a = .ok (L', logs)) :
    ∃ s v oa xa xm st om tp L1 m, StakeRun x L accs a L' logs s v oa xa xm st om tp L1 m ∧
      StakeEff L L' a m s.key v.key oa.key xa.key st.key ∧
      Pool x.cr L st.key v.key ∧ Pool x.cr L' st.key v.key ∧ Inv x.cr L' := by
  obtain ⟨s, v, oa, xa, xm, st, om, tp, L1, m, r⟩ := processStake_run h
  have e := r.eff hs
  obtain ⟨v0, p⟩ := i.poolOf r.st_prog r.st_disc
  obtain rfl := p.vault_eq r.v_addr
  have hprog : ∀ k, (L k).owner = PROGRAM_ID → L' k = L k := by
    intro k hk
    apply e.frame.other
    simp only [List.mem_cons, List.not_mem_nil, or_false, not_or]
    refine ⟨?_, ?_, ?_, ?_⟩ <;> rintro rfl <;> apply token_ne_program
    · rw [← r.oa_prog, hk]
    · rw [← r.v_prog, hk]
    · rw [← r.xa_prog, hk]
    · rw [← r.xm_prog, hk]
  have hst : L' st.key = L st.key := hprog _ r.st_prog
  obtain ⟨w2, b1, b2⟩ := e.v_data
  obtain ⟨w4, d1, d2⟩ := e.xm_data
  obtain ⟨q1, q2, q3⟩ := p.mint.writeSupply (e.frame.owner _) d1
  have lv := p.v_tok.len
  have lm := p.mint.len
  have p' : Pool x.cr L' st.key v.key := {
    prog := by rw [hst]; exact p.prog
    acc := by rw [hst]; exact p.acc
    v_addr := by rw [hst]; exact p.v_addr
    v_tok := p.v_tok.writeAmount (e.frame.owner _) b1
    v_owner := by rw [ownerOf, b1, readKey_writeAt_apart (by simp; omega) (by simp [Apart])]; exact p.v_owner
    v_mint := by rw [mintOf, b1, readKey_writeAt_apart (by simp; omega) (by simp [Apart])]; exact p.v_mint
    mint := q1
    m_auth := by rw [q2]; exact p.m_auth
    m_dec := by rw [q3]; exact p.m_dec
    backed := by
      have hb := p.backed
      have hle : supply L XORCA_MINT_ID ≤ backing L v.key st.key := by rw [backing]; omega
      have := mintFor_le (a := a.toNat) hle
      rw [← r.minted] at this
      rw [supply_of_writeAt (by omega) d1, balance_of_writeAt (by omega) b1, d2, b2]
      have he : escrow L' st.key = escrow L st.key := by rw [escrow, hst]; rfl
      omega
    records := by
      obtain ⟨rs, h1, h2, h3⟩ := p.records
      obtain ⟨h4, h5⟩ := recordsCongr (isRecord_congr e.frame.owner (fun k hk => by rw [hprog k hk]))
        (fun k hk => by rw [hprog k hk.1]) h2
      refine ⟨rs, h1, h4, ?_⟩
      rw [h5, h3, escrow, escrow, hst] }
  refine ⟨s, v, oa, xa, xm, st, om, tp, L1, m, r, e, p, p', ?_⟩
  refine ⟨?_, q1.shape, Or.inl ⟨_, _, p'⟩⟩
  intro k hk
  rw [e.frame.owner] at hk
  rw [hprog k hk]
  exact i.owned k hk

/-! ### Unstake -/

theorem isRecord_of_eq {L L' : Ledger} {k : Pubkey} (ho : (L' k).owner = (L k).owner)
    (hd : (L' k).data = (L k).data) : IsRecord L' k ↔ IsRecord L k := by
  unfold IsRecord; rw [ho, hd]

/-- Lamports of a program-owned non-blank account survive a step that touches only two others. -/
theorem Inv.unstake {x : Ctx} {L L' : Ledger} {accs : List Meta} {a : UInt64} {ix : UInt8} {logs : List Bytes}
    (hrent : ∀ n, x.rentMin n ≠ 0)
    (hs : SignersOk x.cr L accs) (i : Inv x.cr L) (h : processUnstake x L accs a ix = .ok (L', logs)) :
    ∃ u st pw xa xm om v sp tp L1 L3 w e ts b,
      UnstakeRun x L accs a ix L' logs u st pw xa xm om v sp tp L1 L3 w e ts b ∧
      UnstakeEff x L L' a w e ix b ts u.key st.key pw.key xa.key v.key ∧
      Pool x.cr L st.key v.key ∧ Pool x.cr L' st.key v.key ∧ Inv x.cr L' := by
  obtain ⟨u, st, pw, xa, xm, om, v, sp, tp, L1, L3, w, e, ts, b, r⟩ := processUnstake_run h
  obtain ⟨f, -⟩ := r.eff hs
  obtain ⟨v0, p⟩ := i.poolOf r.st_prog r.st_disc
  obtain rfl := p.vault_eq r.v_addr
  have hu := (hs u (by obtain ⟨_, hr⟩ := r.accs_eq; rw [hr]; simp) r.signer).1
  have hpwsys := r.pw_prog
  -- program-owned accounts other than the state keep their data
  have hprog : ∀ k, (L k).owner = PROGRAM_ID → k ≠ st.key → (L' k).data = (L k).data := by
    intro k hk hne
    apply f.data
    simp only [List.mem_cons, List.not_mem_nil, or_false, not_or]
    refine ⟨?_, ?_, ?_, hne⟩ <;> rintro rfl
    · exact program_ne_system (by rw [← hk, hpwsys])
    · exact token_ne_program (by rw [← r.xa_prog, hk])
    · exact token_ne_program (by rw [← r.xm_prog, hk])
  have hlam : ∀ k, (L k).owner = PROGRAM_ID → ¬ AllZero (L k).data → (L' k).lamports = (L k).lamports := by
    intro k hk hz
    apply f.lamports
    simp only [List.mem_cons, List.not_mem_nil, or_false, not_or]
    refine ⟨?_, ?_⟩ <;> rintro rfl
    · exact program_ne_system (by rw [← hk, hpwsys])
    · exact hz (hu hk)
  have hlen := p.acc.len
  have hsl : 8 + (u64le e).length ≤ (L st.key).data.length := by simp; omega
  have sacc : StateAcc x.cr st.key (L' st.key) := by
    apply p.acc.congr
    · rw [f.st_data, writeAt_length hsl]
    · rw [f.st_data, readU8_writeAt_apart hsl (by simp [Apart])]
    · rw [f.st_data, readU8_writeAt_apart hsl (by simp [Apart])]
    · rw [f.st_data, readU8_writeAt_apart hsl (by simp [Apart])]
    · rw [hlam _ r.st_prog (not_allZero (o := 0) (by rw [r.st_disc]; decide))]; exact p.acc.lam
    · rw [f.st_data, readI64_writeAt_apart hsl (by simp [Apart])]; exact p.acc.cool
  obtain ⟨s', d1, d2⟩ := f.xm_data
  obtain ⟨q1, q2, q3⟩ := p.mint.writeSupply (f.owner _ f.pw_ne.2.2.1.symm) d1
  have lm := p.mint.len
  have hvd : (L' v.key).data = (L v.key).data :=
    f.data _ (by simp [f.v_ne.1, f.v_ne.2, f.pw_ne.2.2.2.symm, f.st_ne.2.2.2.symm])
  have hvo : (L' v.key).owner = (L v.key).owner := f.owner _ f.pw_ne.2.2.2.symm
  obtain ⟨l, g1, g2⟩ := f.pw_new
  obtain ⟨c0, c6, c7, c8, c40, c48⟩ := recordBytes_fields b ix u.key w ts
  have hwpos : 0 < w.toNat := Nat.pos_of_ne_zero (u64_ne_zero_iff.1 r.amount_pos)
  have hesc' : escrow L' st.key = e.toNat := escrow_of_writeAt (by omega) f.st_data
  have pwacc : RecAcc x.cr pw.key (L' pw.key) := by
    rw [g1]
    refine ⟨?_, recordBytes_length .., c0, ?_, ?_⟩
    · show RecordAddr _ _ _ _ _
      simp only [c6, c7, c8]
      exact r.pw_find
    · show l ≠ 0
      intro h0
      have := u64_ne_zero_iff.1 (hrent 1024)
      rw [h0] at g2
      have : (0 : UInt64).toNat = 0 := rfl
      omega
    · show 0 < (readU64 (recordBytes b ix u.key w ts) 40).toNat
      rw [c40]; exact hwpos
  have hpwamt : recAmount L' pw.key = w.toNat := by
    rw [recAmount, g1]; show (readU64 (recordBytes b ix u.key w ts) 40).toNat = _; rw [c40]
  have hrec : ∀ k, k ≠ pw.key → (IsRecord L' k ↔ IsRecord L k) := by
    intro k hk
    by_cases hks : k = st.key
    · subst hks
      constructor
      · intro hr; have := hr.2.2; rw [sacc.tag] at this; exact absurd this (by decide)
      · intro hr; have := hr.2.2; rw [p.acc.tag] at this; exact absurd this (by decide)
    · unfold IsRecord
      rw [f.owner k hk]
      constructor
      · rintro ⟨h1, h2⟩; rw [hprog k h1 hks] at h2; exact ⟨h1, h2⟩
      · rintro ⟨h1, h2⟩; rw [hprog k h1 hks]; exact ⟨h1, h2⟩
  have p' : Pool x.cr L' st.key v.key := {
    prog := by rw [f.owner _ f.st_ne.1]; exact p.prog
    acc := sacc
    v_addr := by rw [f.st_data, readU8_writeAt_apart hsl (by simp [Apart])]; exact p.v_addr
    v_tok := by
      obtain ⟨h1, h2, h3, h4, h5, h6, h7⟩ := p.v_tok
      exact ⟨by rw [hvo, h1], by rw [hvd, h2], by rw [hvd]; exact h3, by rw [hvd]; exact h4,
        by rw [hvd, h5], by rw [hvd, h6], by rw [hvd, h7]⟩
    v_owner := by rw [ownerOf, hvd]; exact p.v_owner
    v_mint := by rw [mintOf, hvd]; exact p.v_mint
    mint := q1
    m_auth := by rw [q2]; exact p.m_auth
    m_dec := by rw [q3]; exact p.m_dec
    backed := by
      have hb := p.backed
      have hle : supply L XORCA_MINT_ID ≤ backing L v.key st.key := by rw [backing]; omega
      have h1 := redeem_backing (x := a.toNat) hle (by omega)
      have h2 := redeemFor_le (x := a.toNat) hle (by omega)
      rw [← r.amount, backing] at h1
      rw [← r.amount, backing] at h2
      have hbal : balance L' v.key = balance L v.key := by rw [balance, hvd]; rfl
      have he := f.escrow
      rw [supply_of_writeAt (by omega) d1, hbal, hesc']
      omega
    records := by
      obtain ⟨rs, h1, h2, h3⟩ := p.records
      have hnm : pw.key ∉ rs := by
        intro hm
        exact program_ne_system (by rw [← ((h2 _).1 hm).1, hpwsys])
      refine ⟨pw.key :: rs, List.nodup_cons.2 ⟨hnm, h1⟩, ?_, ?_⟩
      · intro k
        rw [List.mem_cons]
        by_cases hk : k = pw.key
        · subst hk
          have : IsRecord L' pw.key := pwacc.isRecord (by rw [g1])
          simp [this]
        · rw [hrec k hk, ← h2]; simp [hk]
      · rw [List.map_cons, List.sum_cons, hpwamt, hesc', f.escrow, ← h3]
        have : rs.map (recAmount L') = rs.map (recAmount L) := by
          apply List.map_congr_left
          intro k hk
          have hr := (h2 k).1 hk
          rw [recAmount, recAmount, hprog k hr.1]
          rintro rfl
          have := hr.2.2
          rw [p.acc.tag] at this
          exact absurd this (by decide)
        rw [this]; omega }
  refine ⟨u, st, pw, xa, xm, om, v, sp, tp, L1, L3, w, e, ts, b, r, f, p, p', ?_⟩
  refine ⟨?_, q1.shape, Or.inl ⟨_, _, p'⟩⟩
  intro k hk
  by_cases hkp : k = pw.key
  · subst hkp; exact Or.inr (Or.inr pwacc)
  by_cases hks : k = st.key
  · subst hks; exact Or.inr (Or.inl sacc)
  rw [f.owner k hkp] at hk
  have hd := hprog k hk hks
  rcases i.owned k hk with h1 | h1 | h1
  · exact Or.inl (by rw [hd]; exact h1)
  · exact absurd (stateAddr_unique h1.addr p.acc.addr).1 hks
  · exact Or.inr (Or.inr (h1.congr hd
      (by rw [hlam k hk (not_allZero (o := 0) (by rw [h1.tag]; decide))]; exact h1.lam)))

/-! ### Withdraw -/

theorem Inv.withdraw {x : Ctx} {L L' : Ledger} {accs : List Meta} {ix : UInt8} {logs : List Bytes}
    (hs : SignersOk x.cr L accs) (i : Inv x.cr L) (h : processWithdraw x L accs ix = .ok (L', logs)) :
    ∃ u st pw oa v om sp tp L1 L2 e,
      WithdrawRun x L accs ix L' logs u st pw oa v om sp tp L1 L2 e ∧
      WithdrawEff L L' e u.key st.key pw.key oa.key v.key ∧
      Pool x.cr L st.key v.key ∧ Pool x.cr L' st.key v.key ∧ Inv x.cr L' := by
  obtain ⟨u, st, pw, oa, v, om, sp, tp, L1, L2, e, r⟩ := processWithdraw_run h
  obtain ⟨f, -⟩ := r.eff hs
  obtain ⟨v0, p⟩ := i.poolOf r.st_prog r.st_disc
  obtain rfl := p.vault_eq r.v_addr
  have hu := (hs u (by obtain ⟨_, hr⟩ := r.accs_eq; rw [hr]; simp) r.signer).1
  have hprog : ∀ k, (L k).owner = PROGRAM_ID → k ≠ st.key → k ≠ pw.key → (L' k).data = (L k).data := by
    intro k hk hne hne2
    apply f.data
    simp only [List.mem_cons, List.not_mem_nil, or_false, not_or]
    refine ⟨hne2, ?_, ?_, hne⟩ <;> rintro rfl
    · exact token_ne_program (by rw [← r.oa_prog, hk])
    · exact token_ne_program (by rw [← r.v_prog, hk])
  have hlam : ∀ k, (L k).owner = PROGRAM_ID → k ≠ pw.key → ¬ AllZero (L k).data →
      (L' k).lamports = (L k).lamports := by
    intro k hk hne hz
    apply f.lamports
    simp only [List.mem_cons, List.not_mem_nil, or_false, not_or]
    refine ⟨hne, ?_⟩
    rintro rfl
    exact hz (hu hk)
  have hlen := p.acc.len
  have hsl : 8 + (u64le e).length ≤ (L st.key).data.length := by simp; omega
  have sacc : StateAcc x.cr st.key (L' st.key) := by
    apply p.acc.congr
    · rw [f.st_data, writeAt_length hsl]
    · rw [f.st_data, readU8_writeAt_apart hsl (by simp [Apart])]
    · rw [f.st_data, readU8_writeAt_apart hsl (by simp [Apart])]
    · rw [f.st_data, readU8_writeAt_apart hsl (by simp [Apart])]
    · rw [hlam _ r.st_prog f.st_ne.1 (not_allZero (o := 0) (by rw [r.st_disc]; decide))]; exact p.acc.lam
    · rw [f.st_data, readI64_writeAt_apart hsl (by simp [Apart])]; exact p.acc.cool
  have hxm : XORCA_MINT_ID ∉ [pw.key, oa.key, v.key, st.key] := by
    simp only [List.mem_cons, List.not_mem_nil, or_false, not_or]
    have lm := p.mint.len
    refine ⟨?_, ?_, ?_, ?_⟩ <;> intro hh
    · exact token_ne_program (by rw [← p.mint.prog, hh, r.pw_prog])
    · rw [hh, f.oa_ok.len] at lm; omega
    · rw [hh, f.v_ok.len] at lm; omega
    · exact token_ne_program (by rw [← p.mint.prog, hh, r.st_prog])
  have hmd := f.data _ hxm
  have hmo : (L' XORCA_MINT_ID).owner = (L XORCA_MINT_ID).owner :=
    f.owner _ (by simp only [List.mem_cons, not_or] at hxm; exact hxm.1)
  have q1 : PoolMint x.cr (L' XORCA_MINT_ID) := by
    obtain ⟨h1, h2, h3, h4, h5, h6⟩ := p.mint
    exact ⟨by rw [hmo, h1], by rw [hmd, h2], by rw [hmd]; exact h3, by rw [hmd]; exact h4,
      by rw [hmd]; exact h5, by rw [hmd, h6]⟩
  obtain ⟨w, b1⟩ := f.v_exact (by rw [p.v_tok.delegate]; decide)
  obtain ⟨w', b2, b3⟩ := f.v_data
  have lv := p.v_tok.len
  have hbal : balance L' v.key + recAmount L pw.key = balance L v.key := by
    rw [balance_of_amountSet b2]; exact b3
  have hesc' : escrow L' st.key = e.toNat := escrow_of_writeAt (by omega) f.st_data
  have hvo : (L' v.key).owner = (L v.key).owner := f.owner _ f.pw_ne.2.1.symm
  have hrec : ∀ k, k ≠ pw.key → (IsRecord L' k ↔ IsRecord L k) := by
    intro k hk
    by_cases hks : k = st.key
    · subst hks
      constructor
      · intro hr; have := hr.2.2; rw [sacc.tag] at this; exact absurd this (by decide)
      · intro hr; have := hr.2.2; rw [p.acc.tag] at this; exact absurd this (by decide)
    · unfold IsRecord
      rw [f.owner k hk]
      constructor
      · rintro ⟨h1, h2⟩; rw [hprog k h1 hks hk] at h2; exact ⟨h1, h2⟩
      · rintro ⟨h1, h2⟩; rw [hprog k h1 hks hk]; exact ⟨h1, h2⟩
  have hclosed : ¬ IsRecord L' pw.key := by
    intro hr
    have := hr.1
    rw [f.pw_closed] at this
    exact program_ne_system this.symm
  have p' : Pool x.cr L' st.key v.key := {
    prog := by rw [f.owner _ f.st_ne.1]; exact p.prog
    acc := sacc
    v_addr := by rw [f.st_data, readU8_writeAt_apart hsl (by simp [Apart])]; exact p.v_addr
    v_tok := p.v_tok.writeAmount hvo b1
    v_owner := by rw [ownerOf, b1, readKey_writeAt_apart (by simp; omega) (by simp [Apart])]; exact p.v_owner
    v_mint := by rw [mintOf, b1, readKey_writeAt_apart (by simp; omega) (by simp [Apart])]; exact p.v_mint
    mint := q1
    m_auth := by rw [hmd]; exact p.m_auth
    m_dec := by rw [hmd]; exact p.m_dec
    backed := by
      have hb := p.backed
      have he := f.escrow
      have hsup : supply L' XORCA_MINT_ID = supply L XORCA_MINT_ID := by rw [supply, hmd]; rfl
      rw [hsup, hesc']
      omega
    records := by
      obtain ⟨rs, h1, h2, h3⟩ := p.records
      have hm : pw.key ∈ rs := (h2 _).2 ⟨r.pw_prog, r.pw_len, r.pw_disc⟩
      refine ⟨rs.erase pw.key, h1.erase _, ?_, ?_⟩
      · intro k
        rw [h1.mem_erase_iff]
        by_cases hk : k = pw.key
        · subst hk; simp [hclosed]
        · rw [hrec k hk, ← h2]; simp [hk]
      · have : (rs.erase pw.key).map (recAmount L') = (rs.erase pw.key).map (recAmount L) := by
          apply List.map_congr_left
          intro k hk
          rw [h1.mem_erase_iff] at hk
          have hr := (h2 k).1 hk.2
          rw [recAmount, recAmount, hprog k hr.1 _ hk.1]
          rintro rfl
          have := hr.2.2
          rw [p.acc.tag] at this
          exact absurd this (by decide)
        rw [this, hesc']
        have hsum := List.sum_map_erase (recAmount L) hm
        have he := f.escrow
        omega }
  refine ⟨u, st, pw, oa, v, om, sp, tp, L1, L2, e, r, f, p, p', ?_⟩
  refine ⟨?_, q1.shape, Or.inl ⟨_, _, p'⟩⟩
  intro k hk
  by_cases hkp : k = pw.key
  · subst hkp; rw [f.pw_closed] at hk; exact absurd hk.symm program_ne_system
  by_cases hks : k = st.key
  · subst hks; exact Or.inr (Or.inl sacc)
  rw [f.owner k hkp] at hk
  have hd := hprog k hk hks hkp
  rcases i.owned k hk with h1 | h1 | h1
  · exact Or.inl (by rw [hd]; exact h1)
  · exact absurd (stateAddr_unique h1.addr p.acc.addr).1 hks
  · exact Or.inr (Or.inr (h1.congr hd
      (by rw [hlam k hk hkp (not_allZero (o := 0) (by rw [h1.tag]; decide))]; exact h1.lam)))

/-! ### Set -/

/-- A write to the state account that spares its other invariant fields keeps the invariant. -/
theorem Inv.setState {cr : Crypto} {L : Ledger} {st v : Pubkey} {d : Bytes} (i : Inv cr L)
    (p : Pool cr L st v) (hl : d.length = (L st).data.length) (h0 : readU8 d 0 = readU8 (L st).data 0)
    (h6 : readU8 d 6 = readU8 (L st).data 6) (h7 : readU8 d 7 = readU8 (L st).data 7)
    (he : readU64 d 8 = readU64 (L st).data 8) (hc : 0 ≤ (readI64 d 16).toInt) :
    Pool cr (L.setData st d) st v ∧ Inv cr (L.setData st d) := by
  have hst : (L.setData st d) st = { L st with data := d } := L.setData_same _ _
  have hoth : ∀ k, k ≠ st → (L.setData st d) k = L k := fun k hk => L.setData_other _ hk
  have hv : v ≠ st := by
    rintro rfl; exact token_ne_program (by rw [← p.v_tok.prog, p.prog])
  have hx : XORCA_MINT_ID ≠ st := by
    intro h; exact token_ne_program (by rw [← p.mint.prog, h, p.prog])
  have sacc : StateAcc cr st ((L.setData st d) st) := by
    rw [hst]; exact p.acc.congr hl h0 h6 h7 p.acc.lam hc
  have hrec : ∀ k, IsRecord (L.setData st d) k ↔ IsRecord L k := by
    intro k
    by_cases hk : k = st
    · subst hk; unfold IsRecord; rw [hst]; simp only [hl, h0]
    · exact isRecord_of_eq (by rw [hoth k hk]) (by rw [hoth k hk])
  have hesc : escrow (L.setData st d) st = escrow L st := by
    rw [escrow, hst]; simp only [he]; rfl
  have p' : Pool cr (L.setData st d) st v := {
    prog := by rw [hst]; exact p.prog
    acc := sacc
    v_addr := by rw [hst]; simp only [h7]; exact p.v_addr
    v_tok := by rw [hoth _ hv]; exact p.v_tok
    v_owner := by rw [ownerOf, hoth _ hv]; exact p.v_owner
    v_mint := by rw [mintOf, hoth _ hv]; exact p.v_mint
    mint := by rw [hoth _ hx]; exact p.mint
    m_auth := by rw [hoth _ hx]; exact p.m_auth
    m_dec := by rw [hoth _ hx]; exact p.m_dec
    backed := by
      rw [supply, hoth _ hx, hesc, balance, hoth _ hv]; exact p.backed
    records := by
      obtain ⟨rs, g1, g2, g3⟩ := p.records
      refine ⟨rs, g1, fun k => by rw [g2, hrec], ?_⟩
      rw [hesc, ← g3]
      congr 1
      apply List.map_congr_left
      intro k hk
      rw [recAmount, recAmount, hoth]
      rintro rfl
      have := ((g2 _).1 hk).2.2
      rw [p.acc.tag] at this
      exact absurd this (by decide) }
  refine ⟨p', ?_, by rw [hoth _ hx]; exact i.shape, Or.inl ⟨_, _, p'⟩⟩
  intro k hk
  by_cases hks : k = st
  · subst hks; exact Or.inr (Or.inl sacc)
  · rw [hoth k hks] at hk ⊢; exact i.owned k hk

theorem Inv.set {x : Ctx} {L L' : Ledger} {accs : List Meta} {ins : StateUpdateInstruction} {logs : List Bytes}
    (i : Inv x.cr L) (h : processSet x L accs ins = .ok (L', logs)) :
    ∃ a st v, SetRun x L accs a st ∧ Pool x.cr L st.key v ∧ Pool x.cr L' st.key v ∧ Inv x.cr L' ∧
      (∀ k, k ≠ st.key → L' k = L k) ∧ (L' st.key).lamports = (L st.key).lamports ∧
      escrow L' st.key = escrow L st.key := by
  cases ins with
  | UpdateCoolDownPeriod c =>
    obtain ⟨a, st, r, hc, rfl, -⟩ := processSet_coolDown_run h
    obtain ⟨v, p⟩ := i.poolOf r.st_prog r.st_disc
    have hlen := p.acc.len
    have hsl : 16 + (i64le c).length ≤ (L st.key).data.length := by simp; omega
    have he : readU64 (writeAt (L st.key).data 16 (i64le c)) 8 = readU64 (L st.key).data 8 :=
      readU64_writeAt_apart hsl (by simp [Apart])
    obtain ⟨p', i'⟩ := i.setState p (d := writeAt (L st.key).data 16 (i64le c)) (writeAt_length hsl)
      (readU8_writeAt_apart hsl (by simp [Apart])) (readU8_writeAt_apart hsl (by simp [Apart]))
      (readU8_writeAt_apart hsl (by simp [Apart])) he
      (by rw [readI64_writeAt_same (by omega)]; exact hc)
    exact ⟨a, st, v, r, p, p', i', fun k hk => L.setData_other _ hk, by simp,
      by rw [escrow, L.setData_same]; exact congrArg UInt64.toNat he⟩
  | UpdateUpdateAuthority c =>
    obtain ⟨a, st, r, rfl, -⟩ := processSet_authority_run h
    obtain ⟨v, p⟩ := i.poolOf r.st_prog r.st_disc
    have hlen := p.acc.len
    have hsl : 24 + c.bytes.length ≤ (L st.key).data.length := by rw [c.len]; omega
    have he : readU64 (writeAt (L st.key).data 24 c.bytes) 8 = readU64 (L st.key).data 8 :=
      readU64_writeAt_apart hsl (by simp [Apart, c.len])
    obtain ⟨p', i'⟩ := i.setState p (d := writeAt (L st.key).data 24 c.bytes) (writeAt_length hsl)
      (readU8_writeAt_apart hsl (by simp [Apart, c.len])) (readU8_writeAt_apart hsl (by simp [Apart, c.len]))
      (readU8_writeAt_apart hsl (by simp [Apart, c.len])) he
      (by rw [readI64_writeAt_apart hsl (by simp [Apart, c.len])]; exact p.acc.cool)
    exact ⟨a, st, v, r, p, p', i', fun k hk => L.setData_other _ hk, by simp,
      by rw [escrow, L.setData_same]; exact congrArg UInt64.toNat he⟩

/-! ### Initialize -/

theorem freshToken_fields (m o : Pubkey) :
    (freshTokenAccountData m o).length = 165 ∧ readKey (freshTokenAccountData m o) 0 = m ∧
    readKey (freshTokenAccountData m o) 32 = o ∧ readU64 (freshTokenAccountData m o) 64 = 0 ∧
    readU32 (freshTokenAccountData m o) 72 = 0 ∧ readU8 (freshTokenAccountData m o) 108 = 1 ∧
    readU32 (freshTokenAccountData m o) 109 = 0 ∧ readU32 (freshTokenAccountData m o) 129 = 0 := by
  have hm := m.len
  have ho := o.len
  have ht : (freshTokenAccountData m o).drop 64 = List.replicate 44 0 ++ [1] ++ List.replicate 56 0 := by
    have : freshTokenAccountData m o =
        (m.bytes ++ o.bytes) ++ (List.replicate 44 0 ++ [1] ++ List.replicate 56 0) := by
      simp only [freshTokenAccountData, List.append_assoc]
    rw [this, List.drop_append_of_le_length (by simp [hm, ho]), List.drop_of_length_le (by simp [hm, ho])]
    rfl
  refine ⟨by simp [freshTokenAccountData, hm, ho], ?_, ?_, ?_, ?_, ?_, ?_, ?_⟩
  · unfold freshTokenAccountData
    iterate 4 rw [readKey_append_left (by simp [hm, ho])]
    exact readKey_append_right (a := []) rfl
  · unfold freshTokenAccountData
    iterate 3 rw [readKey_append_left (by simp [hm, ho])]
    exact readKey_append_right hm.symm
  · rw [← readU64_drop (p := 64) (o := 0), ht]; decide +kernel
  · rw [← readU32_drop (p := 64) (o := 8), ht]; decide +kernel
  · rw [← readU8_drop (p := 64) (o := 44), ht]; decide +kernel
  · rw [← readU32_drop (p := 64) (o := 45), ht]; decide +kernel
  · rw [← readU32_drop (p := 64) (o := 65), ht]; decide +kernel

theorem Inv.initialize {x : Ctx} {L L' : Ledger} {accs : List Meta} {c : Int64} {logs : List Bytes}
    (hrent : ∀ n, x.rentMin n ≠ 0)
    (hs : SignersOk x.cr L accs) (i : Inv x.cr L) (h : processInitialize x L accs c = .ok (L', logs)) :
    ∃ p au st v xm om sp tp ap L1 b vb,
      InitRun x L accs c L' logs p au st v xm om sp tp ap L1 b vb ∧
      InitEff x L L' c p.key au.key st.key v.key b vb ∧
      (∀ k, (L k).owner = PROGRAM_ID → AllZero (L k).data) ∧
      Pool x.cr L' st.key v.key ∧ Inv x.cr L' ∧ (∀ k, ¬ IsRecord L' k) := by
  obtain ⟨p, au, st, v, xm, om, sp, tp, ap, L1, b, vb, r⟩ := processInitialize_run h
  have f := r.eff hs
  have hblank : ∀ k, (L k).owner = PROGRAM_ID → AllZero (L k).data := by
    rcases i.pool with ⟨st0, v0, q⟩ | h0
    · obtain ⟨hh, _⟩ := stateAddr_unique (k := st.key) (b := b) r.st_find q.acc.addr
      have := q.prog
      rw [← hh, r.st_sys] at this
      exact absurd this.symm program_ne_system
    · exact h0
  obtain ⟨l, g1, g2⟩ := f.st_new
  obtain ⟨l2, g3, g4⟩ := f.v_new
  obtain ⟨l3, g5, g6⟩ := f.paid
  obtain ⟨c0, c6, c7, c8, c16, c24⟩ := initialStateBytes_fields b vb c au.key
  obtain ⟨t1, t2, t3, t4, t5, t6, t7, t8⟩ := freshToken_fields ORCA_MINT_ID st.key
  have hxd : (L' XORCA_MINT_ID).data = (L XORCA_MINT_ID).data ∧
      (L' XORCA_MINT_ID).owner = (L XORCA_MINT_ID).owner := by
    by_cases hx : XORCA_MINT_ID = p.key
    · rw [hx, g5]; exact ⟨rfl, rfl⟩
    · rw [f.other]
      · exact ⟨rfl, rfl⟩
      · simp only [List.mem_cons, List.not_mem_nil, or_false, not_or]
        refine ⟨hx, ?_, ?_⟩ <;> intro hh
        · exact token_ne_system (by rw [← r.xm_prog, hh, r.st_sys])
        · exact token_ne_system (by rw [← r.xm_prog, hh, r.v_sys])
  have hshape := i.shape r.xm_prog
  have hshape : (L XORCA_MINT_ID).data.length = 82 ∧ readU8 (L XORCA_MINT_ID).data 45 = 1 :=
    hshape.resolve_left (not_allZero (o := 44) (by rw [r.xm_decimals]; decide))
  have sacc : StateAcc x.cr st.key (L' st.key) := by
    rw [g1]
    refine ⟨?_, ⟨v.key, ?_⟩, initialStateBytes_length .., c0, ?_, ?_⟩
    · show StateAddr _ _ _; simp only [c6]; exact r.st_find
    · show VaultAddr _ _ _ _; simp only [c7]; exact r.v_find
    · show l ≠ 0
      intro h0
      have := u64_ne_zero_iff.1 (hrent 2048)
      rw [h0] at g2
      have : (0 : UInt64).toNat = 0 := rfl
      omega
    · show 0 ≤ (readI64 (initialStateBytes b vb c au.key) 16).toInt
      rw [c16]; exact r.cool
  have q1 : PoolMint x.cr (L' XORCA_MINT_ID) := by
    refine ⟨by rw [hxd.2, r.xm_prog], by rw [hxd.1, hshape.1], by rw [hxd.1, hshape.2],
      by rw [hxd.1, r.xm_flag], ⟨b, ?_⟩, by rw [hxd.1, r.xm_freeze]⟩
    rw [hxd.1, r.xm_auth]; exact r.st_find
  have hdat : ∀ k, k ≠ st.key → k ≠ v.key → (L' k).owner = (L k).owner ∧ (L' k).data = (L k).data := by
    intro k h1 h2
    by_cases h3 : k = p.key
    · subst h3; rw [g5]; exact ⟨rfl, rfl⟩
    · rw [f.other k (by simp [h1, h2, h3])]; exact ⟨rfl, rfl⟩
  have hown : ∀ k, k ≠ st.key → (L' k).owner = PROGRAM_ID → AllZero (L' k).data := by
    intro k h1 h2
    by_cases h3 : k = v.key
    · subst h3; rw [g3] at h2; exact absurd h2 token_ne_program
    · obtain ⟨e1, e2⟩ := hdat k h1 h3
      rw [e2]; exact hblank k (by rw [← e1]; exact h2)
  have hnorec : ∀ k, ¬ IsRecord L' k := by
    intro k hk
    by_cases h1 : k = st.key
    · subst h1; have := hk.2.2; rw [sacc.tag] at this; exact absurd this (by decide)
    · exact not_allZero (o := 0) (by rw [hk.2.2]; decide) (hown k h1 hk.1)
  have hesc : escrow L' st.key = 0 := by
    rw [escrow, g1]; show (readU64 (initialStateBytes b vb c au.key) 8).toNat = 0; rw [c8]; rfl
  have p' : Pool x.cr L' st.key v.key := {
    prog := by rw [g1]
    acc := sacc
    v_addr := by rw [g1]; show VaultAddr _ _ _ _; simp only [c7]; exact r.v_find
    v_tok := by
      rw [g3]
      exact ⟨rfl, t1, Or.inl t6, ⟨b, by simp only [t3]; exact r.st_find⟩, t5, t7, t8⟩
    v_owner := by rw [ownerOf, g3]; exact t3
    v_mint := by rw [mintOf, g3]; exact t2
    mint := q1
    m_auth := by rw [hxd.1]; exact r.xm_auth
    m_dec := by rw [hxd.1]; exact r.xm_decimals
    backed := by
      have : supply L' XORCA_MINT_ID = supply L XORCA_MINT_ID := by rw [supply, hxd.1]; rfl
      rw [this, r.xm_supply, hesc]; omega
    records := ⟨[], List.nodup_nil, fun k => by simp [hnorec k], by rw [hesc]; rfl⟩ }
  refine ⟨p, au, st, v, xm, om, sp, tp, ap, L1, b, vb, r, f, hblank, p', ?_, hnorec⟩
  refine ⟨?_, q1.shape, Or.inl ⟨_, _, p'⟩⟩
  intro k hk
  by_cases hks : k = st.key
  · subst hks; exact Or.inr (Or.inl sacc)
  · exact Or.inl (hown k hks hk)

/-! ### Environment -/

theorem slice_congr {d d' : Bytes} {o n : Nat} (h : ∀ j, o ≤ j → j < o + n → d'[j]? = d[j]?) :
    slice d' o n = slice d o n := by
  simp only [slice]
  apply List.ext_getElem?
  intro i
  simp only [List.getElem?_take, List.getElem?_drop]
  split
  · exact h _ (by omega) (by omega)
  · rfl

theorem readU8_congr {d d' : Bytes} {o : Nat} (h : d'[o]? = d[o]?) : readU8 d' o = readU8 d o := by
  simp only [readU8, List.getD, h]

/-- What an environment step does to the pool's vault. -/
theorem Spec.EnvStep.vault {cr : Crypto} {L L' : Ledger} (s : EnvStep cr L L') {k : Pubkey}
    (h : PoolToken cr (L k)) :
    PoolToken cr (L' k) ∧ ownerOf L' k = ownerOf L k ∧ mintOf L' k = mintOf L k := by
  obtain ⟨h1, h2, h3, h4, h5⟩ := s.token k h
  have e0 : slice (L' k).data 0 32 = slice (L k).data 0 32 := slice_congr fun j _ _ => h3 j (by omega) (by omega) (by omega)
  have e1 : slice (L' k).data 32 32 = slice (L k).data 32 32 :=
    slice_congr fun j _ _ => h3 j (by omega) (by omega) (by omega)
  have e2 : slice (L' k).data 72 4 = slice (L k).data 72 4 :=
    slice_congr fun j _ _ => h3 j (by omega) (by omega) (by omega)
  have e3 : slice (L' k).data 109 4 = slice (L k).data 109 4 :=
    slice_congr fun j _ _ => h3 j (by omega) (by omega) (by omega)
  have e4 : slice (L' k).data 129 4 = slice (L k).data 129 4 :=
    slice_congr fun j _ _ => h3 j (by omega) (by omega) (by omega)
  refine ⟨⟨h1, h2, h4, ?_, ?_, ?_, ?_⟩, ?_, ?_⟩
  · rw [readKey, e1]; exact h.owner
  · rw [readU32, e2]; exact h.delegate
  · rw [readU32, e3]; exact h.native
  · rw [readU32, e4]; exact h.close
  · rw [ownerOf, readKey, e1]; rfl
  · rw [mintOf, readKey, e0]; rfl

theorem Spec.EnvStep.poolMint {cr : Crypto} {L L' : Ledger} (s : EnvStep cr L L')
    (h : PoolMint cr (L XORCA_MINT_ID)) :
    PoolMint cr (L' XORCA_MINT_ID) ∧ readKey (L' XORCA_MINT_ID).data 4 = readKey (L XORCA_MINT_ID).data 4 ∧
      readU8 (L' XORCA_MINT_ID).data 44 = readU8 (L XORCA_MINT_ID).data 44 := by
  obtain ⟨h1, h2, h3⟩ := s.mint h
  have e1 := h2.slice (p := 0) (m := 4) (Or.inl (by omega))
  have e2 := h2.slice (p := 4) (m := 32) (Or.inl (by omega))
  have e3 := h2.slice (p := 46) (m := 4) (Or.inr (by omega))
  have e4 := readU8_congr (h2.2 45 (Or.inr (by omega)))
  have e5 := readU8_congr (h2.2 44 (Or.inr (by omega)))
  refine ⟨⟨h1, by rw [h2.1, h.len], by rw [e4]; exact h.init, ?_, ?_, ?_⟩, ?_, e5⟩
  · rw [readU32, e1]; exact h.flag
  · rw [readKey, e2]; exact h.auth
  · rw [readU32, e3]; exact h.freeze
  · rw [readKey, e2]; rfl

theorem Inv.env {cr : Crypto} {L L' : Ledger} (i : Inv cr L) (s : EnvStep cr L L') :
    Inv cr L' ∧ ∀ st v, Pool cr L st v → Pool cr L' st v := by
  -- every account that is not blank stays or comes from before
  have hback : ∀ k, (L' k).owner = PROGRAM_ID → ¬ AllZero (L' k).data →
      (L k).owner = PROGRAM_ID ∧ (L' k).data = (L k).data ∧ (L' k).lamports ≠ 0 := by
    intro k hk hz
    obtain ⟨h1, h2⟩ := (s.given k hk).resolve_left hz
    refine ⟨h1, h2, ?_⟩
    have hl : (L k).lamports ≠ 0 := by
      rcases i.owned k h1 with h | h | h
      · rw [h2] at hz; exact absurd h hz
      · exact h.lam
      · exact h.lam
    have := (s.owned k h1 hl).2.2
    intro h0
    apply u64_ne_zero_iff.1 hl
    rw [h0] at this
    have : (0 : UInt64).toNat = 0 := rfl
    omega
  have hrec : ∀ k, (IsRecord L' k ↔ IsRecord L k) := by
    intro k
    constructor
    · intro hr
      obtain ⟨h1, h2, _⟩ := hback k hr.1 (not_allZero (o := 0) (by rw [hr.2.2]; decide))
      exact (isRecord_of_eq (by rw [h1, hr.1]) h2).1 hr
    · intro hr
      obtain ⟨h1, h2, _⟩ := s.owned k hr.1 (i.isRec hr).lam
      exact (isRecord_of_eq (by rw [h1, hr.1]) h2).2 hr
  have hpool : ∀ st v, Pool cr L st v → Pool cr L' st v := by
    intro st v p
    obtain ⟨a1, a2, a3⟩ := s.owned st p.prog p.acc.lam
    obtain ⟨b1, b2, b3⟩ := s.vault p.v_tok
    obtain ⟨c1, c2, c3⟩ := s.poolMint p.mint
    have hlam : (L' st).lamports ≠ 0 :=
      (hback st a1 (not_allZero (o := 0) (by rw [a2, p.acc.tag]; decide))).2.2
    have hesc : escrow L' st = escrow L st := by rw [escrow, a2]; rfl
    exact {
      prog := a1
      acc := p.acc.congr (by rw [a2]) (by rw [a2]) (by rw [a2]) (by rw [a2]) hlam (by rw [a2]; exact p.acc.cool)
      v_addr := by rw [a2]; exact p.v_addr
      v_tok := b1
      v_owner := by rw [b2]; exact p.v_owner
      v_mint := by rw [b3]; exact p.v_mint
      mint := c1
      m_auth := by rw [c2]; exact p.m_auth
      m_dec := by rw [c3]; exact p.m_dec
      backed := by
        have h1 := p.backed
        have h2 := (s.token v p.v_tok).2.2.2.2
        have h3 := (s.mint p.mint).2.2
        omega
      records := by
        obtain ⟨rs, g1, g2, g3⟩ := p.records
        obtain ⟨g4, g5⟩ := recordsCongr hrec (fun k hk => (s.owned k hk.1 (i.isRec hk).lam).2.1) g2
        exact ⟨rs, g1, g4, by rw [g5, g3, hesc]⟩ }
  refine ⟨⟨?_, s.shape, ?_⟩, hpool⟩
  · intro k hk
    by_cases hz : AllZero (L' k).data
    · exact Or.inl hz
    · obtain ⟨h1, h2, h3⟩ := hback k hk hz
      rcases i.owned k h1 with h | h | h
      · exact Or.inl (by rw [h2]; exact h)
      · exact Or.inr (Or.inl (h.congr (by rw [h2]) (by rw [h2]) (by rw [h2]) (by rw [h2]) h3
          (by rw [h2]; exact h.cool)))
      · exact Or.inr (Or.inr (h.congr h2 h3))
  · rcases i.pool with ⟨st, v, p⟩ | h
    · exact Or.inl ⟨st, v, hpool st v p⟩
    · refine Or.inr fun k hk => ?_
      by_cases hz : AllZero (L' k).data
      · exact hz
      · obtain ⟨h1, h2, h3⟩ := hback k hk hz
        rw [h2]; exact h k h1

/-! ### Histories -/

theorem Pool.unique {cr : Crypto} {L L' : Ledger} {st st' v v' : Pubkey} (p : Pool cr L st v)
    (p' : Pool cr L' st' v') : st' = st ∧ v' = v ∧ readU8 (L' st').data 7 = readU8 (L st).data 7 := by
  obtain ⟨rfl, _⟩ := stateAddr_unique p'.acc.addr p.acc.addr
  obtain ⟨rfl, h⟩ := vaultAddr_unique p'.v_addr p.v_addr
  exact ⟨rfl, rfl, h⟩

/-- One step keeps the invariant and the pool. -/
theorem Spec.Entry.Ok.inv {cr : Crypto} {e : Entry} (ok : e.Ok cr) (i : Inv cr e.pre) :
    Inv cr e.post ∧ ∀ st v, Pool cr e.pre st v → Pool cr e.post st v := by
  cases ok with
  | env s => exact i.env s
  | @call x accs ix logs L L' hcr hrent hs hr =>
    subst hcr
    have hd := hr.dispatch
    simp only at i ⊢
    cases ix with
    | Stake a =>
      obtain ⟨s, v, oa, xa, xm, st, om, tp, L1, m, r, f, p, p', i'⟩ := i.stake hs hd
      refine ⟨i', fun st0 v0 q => ?_⟩
      obtain ⟨rfl, rfl, _⟩ := q.unique p
      exact p'
    | Unstake a ixx =>
      obtain ⟨u, st, pw, xa, xm, om, v, sp, tp, L1, L3, w, e, ts, b, r, f, p, p', i'⟩ := i.unstake hrent hs hd
      refine ⟨i', fun st0 v0 q => ?_⟩
      obtain ⟨rfl, rfl, _⟩ := q.unique p
      exact p'
    | Withdraw ixx =>
      obtain ⟨u, st, pw, oa, v, om, sp, tp, L1, L2, e, r, f, p, p', i'⟩ := i.withdraw hs hd
      refine ⟨i', fun st0 v0 q => ?_⟩
      obtain ⟨rfl, rfl, _⟩ := q.unique p
      exact p'
    | Initialize c =>
      obtain ⟨p, au, st, v, xm, om, sp, tp, ap, L1, b, vb, r, f, hbl, p', i', _⟩ := i.initialize hrent hs hd
      refine ⟨i', fun st0 v0 q => ?_⟩
      exact absurd (hbl st0 q.prog) (not_allZero (o := 0) (by rw [q.acc.tag]; decide))
    | Set ins =>
      obtain ⟨a, st, v, r, p, p', i', _⟩ := i.set hd
      refine ⟨i', fun st0 v0 q => ?_⟩
      obtain ⟨rfl, rfl, _⟩ := q.unique p
      exact p'

theorem Spec.Path.inv {cr : Crypto} {h : List Entry} {L L' : Ledger} (hp : Path cr L h L') (i : Inv cr L) :
    Inv cr L' ∧ ∀ st v, Pool cr L st v → Pool cr L' st v := by
  induction hp with
  | nil => exact ⟨i, fun _ _ p => p⟩
  | step _ ok ih => exact ⟨(ok.inv ih.1).1, fun st v p => (ok.inv ih.1).2 st v (ih.2 st v p)⟩

theorem Spec.Hist.inv {cr : Crypto} {h : List Entry} {L : Ledger} (hh : Hist cr h L) : Inv cr L := by
  obtain ⟨L0, g, p⟩ := hh
  exact (p.inv (Inv.genesis g)).1

theorem Spec.Path.split {cr : Crypto} {L L' : Ledger} {h2 h1 : List Entry} {e : Entry}
    (hp : Path cr L (h2 ++ e :: h1) L') : Path cr L h1 e.pre ∧ e.Ok cr ∧ Path cr e.post h2 L' := by
  induction h2 generalizing L' with
  | nil =>
    cases hp with
    | step p ok => exact ⟨p, ok, .nil⟩
  | cons f h2 ih =>
    cases hp with
    | step p ok =>
      obtain ⟨a, b, c⟩ := ih p
      exact ⟨a, b, .step c ok⟩

theorem Spec.Path.append {cr : Crypto} {L M N : Ledger} {h2 h1 : List Entry}
    (p1 : Path cr L h1 M) (p2 : Path cr M h2 N) : Path cr L (h2 ++ h1) N := by
  induction p2 with
  | nil => exact p1
  | step _ ok ih => exact .step ih ok

theorem Spec.Hist.split {cr : Crypto} {L : Ledger} {h2 h1 : List Entry} {e : Entry}
    (hp : Hist cr (h2 ++ e :: h1) L) : Hist cr h1 e.pre ∧ e.Ok cr ∧ Path cr e.post h2 L := by
  obtain ⟨L0, g, p⟩ := hp
  obtain ⟨a, b, c⟩ := p.split
  exact ⟨⟨L0, g, a⟩, b, c⟩

theorem Spec.Reachable.inv {cr : Crypto} {L : Ledger} (h : Reachable cr L) : Inv cr L := by
  obtain ⟨_, hh⟩ := h; exact hh.inv

/-- An initialised pool satisfies the pool part of the invariant. -/
theorem Inv.ofInitialised {cr : Crypto} {L : Ledger} {st : Pubkey} (i : Inv cr L)
    (h : Initialised cr L st) : ∃ v, Pool cr L st v := i.poolOf h.2.1 h.2.2

end Xorca
