import Verif.Lemmas.DemoWorld
import Verif.Lemmas.BankRun
import Verif.Props.Effects
import Verif.Props.Liveness
/-
Every combination of figures is produced by real steps: ORCA is minted, staked, a part is unstaked, and the rest of the
ORCA is sent to the vault.
-/
namespace Xorca.Demo
open Xorca.Spec Xorca.Props

/-- Before deployment: two mints without supply, the deployer, a user without tokens. -/
def Z0 : Ledger := ledgerOf [
  (DEPLOYER_ADDRESS, ⟨1000000000, SYSTEM_PROGRAM_ID, []⟩),
  (US, ⟨3000000000, SYSTEM_PROGRAM_ID, []⟩),
  (ORCA_MINT_ID, ⟨1461600, SPL_TOKEN_PROGRAM_ID, mintData US 0⟩),
  (XORCA_MINT_ID, ⟨1461600, SPL_TOKEN_PROGRAM_ID, mintData ST 0⟩),
  (UO, ⟨2039280, SPL_TOKEN_PROGRAM_ID, tokenData ORCA_MINT_ID US 0⟩),
  (UX, ⟨2039280, SPL_TOKEN_PROGRAM_ID, tokenData XORCA_MINT_ID US 0⟩)]
def z1 : Res Outcome := entry (ctx 1000) PROGRAM_ID Z0 initAccs (3 :: i64le 100)
def Z1 : Ledger := outLedger z1

/-- The accounts of the calls below. -/
def named : List Pubkey := [US, VA, UO, UX, XORCA_MINT_ID, ST, ORCA_MINT_ID, SYSTEM_PROGRAM_ID, SPL_TOKEN_PROGRAM_ID, R255, R0]

/-- What is used of the first call, evaluated together. -/
theorem zero :
    (isOk z1 = true ∧ Sign Z0 initAccs ∧ LamportsFit Z0 initAccs) ∧
    ((Z1 ST).owner = PROGRAM_ID ∧ readU8 (Z1 ST).data 0 = 1) ∧
    (readU8 (Z1 VA).data 108 = 1 ∧ balance Z1 VA = 0 ∧ supply Z1 XORCA_MINT_ID = 0 ∧ escrow Z1 ST = 0 ∧
      balance Z1 UX = 0 ∧ balance Z1 UO = 0 ∧ coolDown Z1 ST = 100) ∧
    TokenOk Z1 UX XORCA_MINT_ID US ∧ TokenOk Z1 UO ORCA_MINT_ID US ∧ MintOk Z1 ORCA_MINT_ID ∧
    (readU32 (Z1 ORCA_MINT_ID).data 0 = 1 ∧ readKey (Z1 ORCA_MINT_ID).data 4 = US ∧ supply Z1 ORCA_MINT_ID = 0 ∧
      readU32 (Z1 ORCA_MINT_ID).data 46 = 0) ∧
    (Blank (Z1 US) ∧ Blank (Z1 R255) ∧ Blank (Z1 R0)) ∧ 20000000 ≤ (Z1 US).lamports.toNat ∧
    ∀ k ∈ named, (Z1 k).lamports.toNat ≤ 3000000000 := by decide +kernel

theorem runZ1 : Runs (ctx 1000) Z0 initAccs (.Initialize 100) Z1 (outLogs z1) :=
  ⟨_, by decide +kernel, out_eq (r := z1) zero.1.1⟩

theorem genesisZ : Genesis Z0 where
  blank k h := by
    exfalso
    revert h
    exact ledgerOf_forall (P := fun a => a.owner ≠ PROGRAM_ID) (by decide +kernel) (by decide +kernel) k
  shape := fun _ => Or.inr (by decide +kernel)

theorem steadyZ : Steady cr Z0 where
  state k b h := by
    obtain ⟨rfl, -⟩ := stateAddr_unique h st_addr
    decide +kernel
  nobody b := ⟨sys_ne_st b, inc_ne_st b⟩
  sound k _ := by
    have h : ((Z0 k).data.length = 165 → readU8 (Z0 k).data 108 ≠ 0 → readU32 (Z0 k).data 109 = 0 →
        (Z0 k).lamports ≠ 0) ∧
        ((Z0 k).data.length = 165 → readKey (Z0 k).data 0 = XORCA_MINT_ID → readU32 (Z0 k).data 109 = 0) :=
      ledgerOf_forall (P := fun a =>
        (a.data.length = 165 → readU8 a.data 108 ≠ 0 → readU32 a.data 109 = 0 → a.lamports ≠ 0) ∧
        (a.data.length = 165 → readKey a.data 0 = XORCA_MINT_ID → readU32 a.data 109 = 0))
        (by decide +kernel) (by decide +kernel) k
    exact ⟨h.1, h.2⟩
  mint := by decide +kernel

theorem worldZ1 : World cr Z0 [⟨Z0, .call (ctx 1000) initAccs (.Initialize 100) (outLogs z1), Z1⟩] Z1 :=
  world_call .nil (signersOk zero.1.2.1) zero.1.2.2 runZ1

theorem keys_differ : ∀ k ∈ [R255, R0], k ∉ [US, VA, UO, UX, XORCA_MINT_ID, ST, ORCA_MINT_ID] := by decide +kernel
theorem two_records : R0 ≠ R255 := by decide +kernel

theorem rent_small : ((ctx 1001).rentMin 1024).toNat = 8017920 := by decide +kernel

theorem rent_left {c r x y z : Nat} (h : (c + 1) * r ≤ y) (hp : x + (r - z) = y) : c * r ≤ x := by
  rw [Nat.add_mul] at h
  generalize c * r = q at h ⊢
  omega

theorem only_us : ∀ m ∈ stakeAccs, m.isSigner = true → cr.onCurve m.key = true ∧ m.key = US := by decide +kernel
theorem only_us' (pw : Pubkey) : ∀ m ∈ unstakeAccs pw, m.isSigner = true → cr.onCurve m.key = true ∧ m.key = US := by
  intro m hm h
  simp only [unstakeAccs, List.mem_cons, List.not_mem_nil, or_false] at hm
  rcases hm with rfl | rfl | rfl | rfl | rfl | rfl | rfl | rfl | rfl
  · exact ⟨(only_us ⟨US, true, true⟩ (by decide +kernel) rfl).1, rfl⟩
  all_goals cases h

theorem system_ne_program : SYSTEM_PROGRAM_ID ≠ PROGRAM_ID := by decide +kernel

variable {L L' : Ledger} {k : Pubkey} {n : UInt64}

/-- A usable token account stays usable when its amount is reduced by the owner. -/
theorem tokenOk_amountSet {m o : Pubkey} {w : UInt64} (h : TokenOk L k m o) (ho : (L' k).owner = (L k).owner)
    (hs : AmountSet (L k).data (L' k).data w) : TokenOk L' k m o := by
  obtain ⟨h1, h2, h3, h4, h5, h6, h7, h8, h9⟩ := h
  have hk : ∀ j, j + 32 ≤ 64 → readKey (L' k).data j = readKey (L k).data j := fun j hj => by
    unfold readKey
    have e : slice (L' k).data j 32 = slice (L k).data j 32 := by
      have a := slice_slice (d := (L' k).data) (o := 0) (n := 64) (p := j) (m := 32) hj
      have b := slice_slice (d := (L k).data) (o := 0) (n := 64) (p := j) (m := 32) hj
      rw [hs.head, Nat.zero_add] at a
      rw [Nat.zero_add] at b
      exact a.symm.trans b
    simp only [e]
  have hm : ∀ p n, p + n ≤ 45 → slice (L' k).data (76 + p) n = slice (L k).data (76 + p) n := fun p n hp => by
    have a := slice_slice (d := (L' k).data) (o := 76) (n := 45) (p := p) (m := n) hp
    have b := slice_slice (d := (L k).data) (o := 76) (n := 45) (p := p) (m := n) hp
    rw [hs.mid] at a
    exact a.symm.trans b
  have ht : slice (L' k).data 129 4 = slice (L k).data 129 4 := by
    have a := slice_slice (d := (L' k).data) (o := 129) (n := 36) (p := 0) (m := 4) (by omega)
    have b := slice_slice (d := (L k).data) (o := 129) (n := 36) (p := 0) (m := 4) (by omega)
    rw [hs.tail] at a
    exact a.symm.trans b
  have hd : readKey (L' k).data 76 = readKey (L k).data 76 := by
    unfold readKey
    simp only [hm 0 32 (by omega)]
  refine ⟨by rw [ho]; exact h1, by rw [hs.len]; exact h2, ?_, ?_, ?_, ?_, ?_, ?_, ?_⟩
  · rw [readU8_eq_slice, hm 32 1 (by omega), ← readU8_eq_slice]; exact h3
  · rw [readU32, hm 33 4 (by omega), ← readU32]; exact h4
  · rcases hs.flag with e | e
    · rw [e]; exact h5
    · exact Or.inl e
  · rw [readU32, ht, ← readU32]; exact h6
  · rw [mintOf, hk 0 (by omega)]; exact h7
  · rw [ownerOf, hk 32 (by omega)]; exact h8
  · rintro ⟨a, b⟩
    rcases hs.flag with e | e
    · exact h9 ⟨e.symm.trans a, hd.symm.trans b⟩
    · rw [e] at a; exact absurd a (by decide)

/-- The pool has these figures, by real steps. -/
structure Figures (L : Ledger) (s m e : Nat) : Prop where
  world : ∃ h, World cr Z0 h L
  init : Initialised cr L ST
  supply : supply L XORCA_MINT_ID = s
  vault : balance L VA = m
  escrow : escrow L ST = e

theorem Figures.reach {s m e : Nat} (h : Figures L s m e) : Reachable cr L := by
  obtain ⟨l, hl⟩ := h.world
  exact ⟨l, Z0, genesisZ, (world_path steadyZ hl).1⟩

/-- The pool at par, with the accounts of a user who holds the whole supply, `u` ORCA and the rent of `c` records. -/
structure AtPar (L : Ledger) (s e u c : Nat) : Prop extends Figures L s (s + e) e where
  held : balance L UX = s
  purse : balance L UO = u
  thawed : readU8 (L VA).data 108 = 1
  ux : TokenOk L UX XORCA_MINT_ID US
  uo : TokenOk L UO ORCA_MINT_ID US
  om : MintOk L ORCA_MINT_ID
  us : Blank (L US)
  cd : coolDown L ST = 100
  rent : c * 8017920 ≤ (L US).lamports.toNat
  small : ∀ k ∈ named, (L k).lamports.toNat ≤ 3000000000

theorem fit_of_small {accs : List Meta} (h : ∀ k ∈ named, (L k).lamports.toNat ≤ 3000000000)
    (ha : ∀ m ∈ accs, m.key ∈ named) : LamportsFit L accs := fun a ha' b hb _ => by
  have h1 := h _ (ha a ha')
  have h2 := h _ (ha b hb)
  omega

theorem tokUsable_of {m o : Pubkey} (h : TokenOk L k m o) : TokUsable (L k) :=
  ⟨h.prog, h.len, h.state, h.native, h.delegate, h.close⟩

theorem us_plain {s e u c : Nat} (h : AtPar L s e u c) : NotMultisig L US := fun hc => by
  have := hc.1
  rw [h.us.1] at this
  exact absurd this (by decide +kernel)

/-- The fresh pool, and somebody has ORCA. -/
theorem minted {t : Nat} (ht : t < 2 ^ 64) : ∃ L, AtPar L 0 0 t 2 ∧ Blank (L R255) ∧ Blank (L R0) := by
  have hn : (UInt64.ofNat t).toNat = t := by rw [UInt64.toNat_ofNat']; omega
  obtain ⟨-, hi, ⟨f3, f4, f5, f6, f7, f7', f12⟩, hux, huo, hom, ⟨m1, m2, m3, m4⟩, ⟨hus, hr1, hr2⟩, hrich, hsmall⟩ := zero
  have hms : ¬ ((Z1 US).owner = SPL_TOKEN_PROGRAM_ID ∧ (Z1 US).data.length = 355) := fun hc => by
    have := hc.1
    rw [hus.1] at this
    exact absurd this (by decide +kernel)
  obtain ⟨L', h⟩ := splMintTo_succeeds (L := Z1) (mint := ORCA_MINT_ID) (dst := UO) (auth := US) (amt := UInt64.ofNat t)
    ⟨hom.prog, hom.len, hom.init, Or.inr m1, Or.inl m4⟩ (tokUsable_of huo) huo.mint m1 m2 hms
    (by change balance Z1 UO + _ < _; rw [f7', hn]; omega) (by change Spec.supply Z1 ORCA_MINT_ID + _ < _; rw [m3, hn]; omega)
  have ef := splMintTo_eff h
  have hw : World cr Z0 _ L' := world_out worldZ1 (.token (rent := (ctx 0).rentMin) (sg := usSigns)
    (ix := .mintTo ORCA_MINT_ID UO US [] (UInt64.ofNat t) none) rent_ne us_notPool (mintTo_agrees (by decide) h))
  obtain ⟨w1, p1, p2⟩ := ef.supply
  obtain ⟨w2, q1, q2⟩ := ef.credit
  have hoth : ∀ k, k ∉ [ORCA_MINT_ID, UO] → L' k = Z1 k := ef.frame.other
  have eVA := hoth VA (by decide +kernel)
  have eUX := hoth UX (by decide +kernel)
  have eXM := hoth XORCA_MINT_ID (by decide +kernel)
  have eST := hoth ST (by decide +kernel)
  have eUS := hoth US (by decide +kernel)
  have hl : 64 + (u64le w2).length ≤ (Z1 UO).data.length := by rw [huo.len]; simp
  have hl' : 36 + (u64le w1).length ≤ (Z1 ORCA_MINT_ID).data.length := by rw [hom.len]; simp
  refine ⟨L', ⟨⟨⟨_, hw⟩, initialised (by rw [eST]; exact hi.1) (by rw [eST]; exact hi.2), ?_, ?_, ?_⟩, ?_, ?_, ?_, ?_, ?_, ?_,
    ?_, ?_, ?_, ?_⟩, ?_, ?_⟩
  · rw [Spec.supply, eXM]; exact f5
  · rw [balance, eVA]; exact f4
  · rw [Spec.escrow, eST]; exact f6
  · rw [balance, eUX]; exact f7
  · rw [balance_of_writeAt (by rw [huo.len]; omega) q1, q2, hn]
    change balance Z1 UO + t = t
    omega
  · rw [eVA]; exact f3
  · exact hux.amount (by rw [eUX]) (by rw [eUX]; exact ⟨rfl, fun _ _ => rfl⟩)
  · refine huo.amount (ef.frame.owner _) ?_
    rw [q1]
    have := sameExcept_writeAt hl
    simpa using this
  · refine ⟨(ef.frame.owner _).trans hom.prog, by rw [p1, writeAt_length hl']; exact hom.len, ?_⟩
    rw [p1, readU8_writeAt_apart hl' (by simp [Apart])]; exact hom.init
  · rw [eUS]; exact hus
  · rw [coolDown, eST]; exact f12
  · rw [eUS]; omega
  · intro k hk; rw [ef.frame.lamports]; exact hsmall k hk
  · rw [hoth R255 (by decide +kernel)]; exact hr1
  · rw [hoth R0 (by decide +kernel)]; exact hr2

/-- Somebody stakes `t` into the fresh pool. -/
theorem AtPar.stake {t u c : Nat} {M : Ledger} (hp : AtPar M 0 0 (t + u) c) (h0 : 0 < t) (ht : t < 2 ^ 64) :
    ∃ L, AtPar L t 0 u c ∧ (Blank (M R255) → Blank (L R255)) ∧ (Blank (M R0) → Blank (L R0)) := by
  have hn : (UInt64.ofNat t).toNat = t := by rw [UInt64.toNat_ofNat']; omega
  have hb : backing M VA ST = 0 := by rw [backing, hp.vault]; omega
  have hmf : mintFor (UInt64.ofNat t).toNat (backing M VA ST) (Spec.supply M XORCA_MINT_ID) = t := by
    rw [mintFor, if_pos (Or.inr hb), hn]
  have hsig : SignersOk cr M stakeAccs := signersOk fun m hm h => by
    obtain ⟨c1, c2⟩ := only_us m hm h
    exact ⟨c1, by rw [c2, hp.us.1]; exact system_ne_program⟩
  have c2 : (UInt64.ofNat t).toNat ≤ balance M UO := by rw [hn, hp.purse]; omega
  have c3 : 0 < mintFor (UInt64.ofNat t).toNat (backing M VA ST) (Spec.supply M XORCA_MINT_ID) := by rw [hmf]; exact h0
  have c4 : balance M VA + (UInt64.ofNat t).toNat < 2 ^ 64 := by rw [hp.vault, hn]; omega
  have c5 : balance M UX + mintFor (UInt64.ofNat t).toNat (backing M VA ST) (Spec.supply M XORCA_MINT_ID) < 2 ^ 64 := by
    rw [hmf, hp.held]; omega
  have hs : Succeeds (ctx 1001) M stakeAccs (.Stake (UInt64.ofNat t)) :=
    C47_stake_succeeds (s := ⟨US, true, true⟩) (v := ⟨VA, false, true⟩) (oa := ⟨UO, false, true⟩)
      (xa := ⟨UX, false, true⟩) (st := ⟨ST, false, false⟩) hp.reach rfl hsig hp.init va_addr stakeCall hp.uo hp.ux
      (us_plain hp) c2 c3 c4 c5 hp.thawed hp.om.prog
  obtain ⟨L', logs, hrun⟩ := succeeds_iff.1 hs
  have hrun' := hrun
  have hsig' := hsig
  unfold stakeAccs at hrun' hsig'
  obtain ⟨-, -, -, -, -, -, -, g0, g1, -, g2, g3, -, -, -, g4, g5, g6⟩ := C16_stake_effects hrun' hsig'
  obtain ⟨-, g7, g8, -⟩ := C01_exact_mint_amount hrun' hsig'
  obtain ⟨K1, w, r⟩ := hrun'.stake
  obtain ⟨w2, q1, q2⟩ := (r.eff hsig').oa_data
  simp only at g0 g1 g2 g3 g5 g6 g7 g8 q1 q2
  have hmf' : mintFor (UInt64.ofNat t).toNat (balance M VA - Spec.escrow M ST) (Spec.supply M XORCA_MINT_ID) = t := hmf
  have oUS := g6 US (by decide +kernel)
  have oOM := g6 ORCA_MINT_ID (by decide +kernel)
  obtain ⟨l, hl⟩ := hp.world
  refine ⟨L', ⟨⟨⟨_, world_call hl hsig (fit_of_small hp.small (by decide +kernel)) hrun⟩,
    initialised (by rw [g5]; exact hp.init.2.1) (by rw [g5]; exact hp.init.2.2), ?_, ?_, ?_⟩,
    ?_, ?_, ?_, hp.ux.amount (g4 _).1 g3, tokenOk_amountSet hp.uo (g4 _).1 q1, ?_, ?_, ?_, ?_, ?_⟩, ?_, ?_⟩
  · rw [g7, hmf', hp.supply]; omega
  · rw [g1, hp.vault, hn]; omega
  · rw [Spec.escrow, g5]; exact hp.escrow
  · rw [g8, hmf', hp.held]; omega
  · rw [hp.purse, hn] at g0; omega
  · rw [readU8_eq_slice, g2.slice (Or.inr (by omega)), ← readU8_eq_slice]; exact hp.thawed
  · exact ⟨by rw [oOM]; exact hp.om.1, by rw [oOM]; exact hp.om.2, by rw [oOM]; exact hp.om.3⟩
  · rw [oUS]; exact hp.us
  · rw [coolDown, g5]; exact hp.cd
  · rw [(g4 _).2]; exact hp.rent
  · intro k hk; rw [(g4 _).2]; exact hp.small k hk
  · intro h; rw [g6 R255 (by decide +kernel)]; exact h
  · intro h; rw [g6 R0 (by decide +kernel)]; exact h

/-- An unstake at par leaves the pool at par. -/
theorem AtPar.unstake {s a e u c : Nat} {pw : Pubkey} {i b : UInt8} {M : Ledger} (hp : AtPar M (s + a) e u (c + 1))
    (h0 : 0 < a) (h1 : a ≤ 2 ^ 63) (h2 : s + a + e < 2 ^ 64) (hpw : RecordAddr cr US i pw b) (hbl : Blank (M pw))
    (hin : pw ∈ named) (hne : pw ∉ [US, VA, UO, UX, XORCA_MINT_ID, ST, ORCA_MINT_ID]) :
    ∃ L', AtPar L' s (e + a) u c ∧
      ∀ k, k ∉ [US, VA, UO, UX, XORCA_MINT_ID, ST, ORCA_MINT_ID, pw] → Blank (M k) → Blank (L' k) := by
  have hn : (UInt64.ofNat a).toNat = a := by rw [UInt64.toNat_ofNat']; omega
  have hrent := rent_small
  simp only [List.mem_cons, List.not_mem_nil, or_false, not_or] at hne
  have hb : backing M VA ST = s + a := by rw [backing, hp.vault, hp.escrow]; omega
  have hsig : SignersOk cr M (unstakeAccs pw) := signersOk fun m hm hs => by
    obtain ⟨c1, c2⟩ := only_us' pw m hm hs
    exact ⟨c1, by rw [c2, hp.us.1]; exact system_ne_program⟩
  have c1 : ((ctx 1001).rentMin 1024).toNat ≤ (M US).lamports.toNat + (M pw).lamports.toNat := by
    have := hp.rent
    rw [hrent]; omega
  have c2 : 0 < (UInt64.ofNat a).toNat := by rw [hn]; exact h0
  have c3 : (UInt64.ofNat a).toNat ≤ balance M UX := by rw [hn, hp.held]; omega
  have c4 : (UInt64.ofNat a).toNat ≤ Spec.supply M XORCA_MINT_ID := by rw [hn, hp.supply]; omega
  have c5 : (UInt64.ofNat a).toNat * (backing M VA ST + 100) < 2 ^ 128 := by
    rw [hb, hn]
    have : a * (s + a + 100) ≤ 2 ^ 63 * (2 ^ 64 + 100) := Nat.mul_le_mul (by omega) (by omega)
    omega
  have c6 : (ctx 1001).now.toInt + coolDown M ST < 2 ^ 63 := by rw [hp.cd]; decide
  have hs : Succeeds (ctx 1001) M (unstakeAccs pw) (.Unstake (UInt64.ofNat a) i) :=
    C48_unstake_succeeds (u := ⟨US, true, true⟩) (st := ⟨ST, false, true⟩) (pw := ⟨pw, false, true⟩)
      (xa := ⟨UX, false, true⟩) (v := ⟨VA, false, false⟩) hp.reach rfl hsig hp.init va_addr (unstakeCall pw) hpw hbl
      hp.ux hp.us c1 c2 c3 c4 c5 c6 hp.om
  obtain ⟨L', logs, hrun⟩ := succeeds_iff.1 hs
  have hrun' := hrun
  have hsig' := hsig
  unfold unstakeAccs at hrun' hsig'
  obtain ⟨-, -, -, -, g1, g2, g3, -, -, -, -, -, -, -, g5, -, -, -, g8, g8', g9⟩ := C15_unstake_effects hrun' hsig'
  obtain ⟨-, -, -, -, g10, -⟩ := C02_exact_redemption_amount hrun' hsig'
  obtain ⟨K1, K2, w, e', ts, bb, r⟩ := hrun'.unstake
  have ef := (r.eff hsig').1
  obtain ⟨w2, q1, q2⟩ := ef.xa_data
  obtain ⟨l1, n1, n2⟩ := ef.pw_new
  have paid := ef.paid
  simp only at g1 g2 g3 g5 g8 g8' g9 g10 q1 q2 n1 n2 paid
  rw [hrent] at n2 paid
  have ne : ∀ {k}, ¬ pw = k → k ≠ pw := fun h e => h e.symm
  have hpar : (UInt64.ofNat a).toNat * (balance M VA - Spec.escrow M ST + 100) / (Spec.supply M XORCA_MINT_ID + 100) = a := by
    rw [hn, hp.vault, hp.escrow, hp.supply, Nat.add_sub_cancel]
    exact Nat.mul_div_cancel _ (by omega)
  have hdata : ∀ {k}, ¬ pw = k → k ∉ [UX, XORCA_MINT_ID, ST] → (L' k).data = (M k).data := fun h h' =>
    g9 _ (by rw [List.mem_cons, not_or]; exact ⟨ne h, h'⟩)
  have oOM := hdata hne.2.2.2.2.2.2 (by decide +kernel)
  obtain ⟨l, hl⟩ := hp.world
  have hacc : ∀ m ∈ unstakeAccs pw, m.key ∈ named := by
    intro m hm
    simp only [unstakeAccs, List.mem_cons, List.not_mem_nil, or_false] at hm
    rcases hm with rfl | rfl | rfl | rfl | rfl | rfl | rfl | rfl | rfl
    case inr.inr.inl => exact hin
    all_goals simp [named]
  refine ⟨L', ⟨⟨⟨_, world_call hl hsig (fit_of_small hp.small hacc) hrun⟩, initialised ?_ ?_, ?_, ?_, ?_⟩,
    ?_, ?_, ?_, ?_, ?_, ?_, ?_, ?_, ?_, ?_⟩, ?_⟩
  · rw [g8 _ (ne hne.2.2.2.2.2.1)]; exact hp.init.2.1
  · rw [readU8_eq_slice, g5.slice (Or.inl (by omega)), ← readU8_eq_slice]; exact hp.init.2.2
  · rw [hn, hp.supply] at g2; omega
  · rw [balance, g3]
    show balance M VA = _
    rw [hp.vault]; omega
  · rw [g10, hpar, hp.escrow]
  · rw [hn, hp.held] at g1; omega
  · rw [balance, hdata hne.2.2.1 (by decide +kernel)]; exact hp.purse
  · rw [g3]; exact hp.thawed
  · exact tokenOk_amountSet hp.ux (g8 _ (ne hne.2.2.2.1)) q1
  · exact hp.uo.amount (g8 _ (ne hne.2.2.1)) (by
      rw [hdata hne.2.2.1 (by decide +kernel)]; exact ⟨rfl, fun _ _ => rfl⟩)
  · exact ⟨by rw [g8 _ (ne hne.2.2.2.2.2.2)]; exact hp.om.1, by rw [oOM]; exact hp.om.2, by rw [oOM]; exact hp.om.3⟩
  · exact ⟨by rw [g8 _ (ne hne.1)]; exact hp.us.1, by rw [hdata hne.1 (by decide +kernel)]; exact hp.us.2⟩
  · rw [coolDown, readI64, g5.slice (Or.inr (by omega)), ← readI64]; exact hp.cd
  · exact rent_left hp.rent paid
  · intro k hk
    by_cases k1 : k = pw
    · rw [k1, n1]
      have := hp.small pw hin
      show l1.toNat ≤ _
      omega
    · by_cases k2 : k = US
      · have := hp.small US (by simp [named])
        rw [k2]; omega
      · rw [g8' _ (by simp only [List.mem_cons, List.not_mem_nil, or_false, not_or]; exact ⟨k1, k2⟩)]
        exact hp.small k hk
  · intro k hk hbk
    simp only [List.mem_cons, List.not_mem_nil, or_false, not_or] at hk
    refine ⟨by rw [g8 _ hk.2.2.2.2.2.2.2]; exact hbk.1, ?_⟩
    rw [hdata (fun e => hk.2.2.2.2.2.2.2 e.symm) (by
      simp only [List.mem_cons, List.not_mem_nil, or_false, not_or]
      exact ⟨hk.2.2.2.1, hk.2.2.2.2.1, hk.2.2.2.2.2.1⟩)]
    exact hbk.2

/-- Every split of an amount into supply and escrow, with `u` ORCA left over. -/
theorem split {s e u : Nat} (h : s + e + u < 2 ^ 64) : ∃ L c, AtPar L s e u c := by
  have k1 := keys_differ R255 (by simp)
  have k2 := keys_differ R0 (by simp)
  obtain ⟨M, hm, m1, m2⟩ := minted h
  by_cases h0 : s + e = 0
  · have hs : s = 0 := by omega
    have he : e = 0 := by omega
    subst hs he
    rw [show 0 + 0 + u = u by omega] at hm
    exact ⟨M, 2, hm⟩
  obtain ⟨L, hp, b1, b2⟩ := hm.stake (t := s + e) (by omega) (by omega)
  have b1 := b1 m1
  have b2 := b2 m2
  by_cases he : e = 0
  · subst he; exact ⟨L, 2, hp⟩
  by_cases hl : e < 2 ^ 63
  · obtain ⟨L', hq, -⟩ := hp.unstake (pw := R255) (i := 255) (b := 255) (by omega) (Nat.le_of_lt hl) (by omega) r255_addr b1
      (by decide +kernel) k1
    rw [Nat.zero_add] at hq
    exact ⟨L', 1, hq⟩
  · obtain ⟨d, c, rfl, d0, d1, c0, c1⟩ : ∃ d c, e = d + c ∧ 0 < d ∧ d ≤ 2 ^ 63 ∧ 0 < c ∧ c ≤ 2 ^ 63 :=
      ⟨e - (2 ^ 63 - 1), 2 ^ 63 - 1, by omega, by omega, by omega, by omega, by omega⟩
    rw [← Nat.add_assoc] at hp
    obtain ⟨L2, hq, hb⟩ := hp.unstake (pw := R255) (i := 255) (b := 255) c0 c1 (by omega) r255_addr b1
      (by decide +kernel) k1
    have b3 := hb R0 (by
      rw [show [US, VA, UO, UX, XORCA_MINT_ID, ST, ORCA_MINT_ID, R255] =
        [US, VA, UO, UX, XORCA_MINT_ID, ST, ORCA_MINT_ID] ++ [R255] from rfl, List.mem_append, not_or]
      exact ⟨k2, fun hc => two_records (List.mem_singleton.1 hc)⟩) b2
    obtain ⟨L3, hq', -⟩ := hq.unstake (pw := R0) (i := 0) (b := 252) (s := s) (a := d) d0 d1 (by omega) r0_addr b3
      (by decide +kernel) k2
    rw [show 0 + c + d = d + c by omega] at hq'
    exact ⟨L3, 0, hq'⟩

/-- The rest of the ORCA goes to the vault. -/
theorem AtPar.deposit {s e u c : Nat} (hp : AtPar L s e u c) (h : s + e + u < 2 ^ 64) : ∃ L', Figures L' s (s + e + u) e := by
  have hn : (UInt64.ofNat u).toNat = u := by rw [UInt64.toNat_ofNat']; omega
  obtain ⟨v', p⟩ := hp.reach.inv.ofInitialised hp.init
  obtain ⟨rfl, -⟩ := vaultAddr_unique va_addr p.v_addr
  obtain ⟨L', ht⟩ := splTransfer_succeeds (L := L) (src := UO) (dst := VA) (auth := US) (amt := UInt64.ofNat u)
    (by decide +kernel) (tokUsable_of hp.uo)
    ⟨p.v_tok.prog, p.v_tok.len, hp.thawed, p.v_tok.native, Or.inl p.v_tok.delegate, Or.inl p.v_tok.close⟩
    (hp.uo.mint.trans p.v_mint.symm) hp.uo.owner (Or.inl hp.uo.undelegated) (us_plain hp)
    (by change _ ≤ balance L UO; rw [hp.purse, hn]) (by change balance L VA + _ < _; rw [hp.vault, hn]; omega)
  have ef := splTransfer_eff (by decide +kernel) ht
  obtain ⟨l, hl⟩ := hp.world
  have hw : World cr Z0 _ L' := world_out hl (.token (rent := (ctx 0).rentMin) (sg := usSigns)
    (ix := .transfer UO VA US [] (UInt64.ofNat u) none) rent_ne us_notPool (transfer_agrees (by decide) ht))
  obtain ⟨w2, q1, q2⟩ := ef.credit
  have eXM := ef.frame.other XORCA_MINT_ID (by decide +kernel)
  have eST := ef.frame.other ST (by decide +kernel)
  refine ⟨L', ⟨_, hw⟩, initialised (by rw [eST]; exact hp.init.2.1) (by rw [eST]; exact hp.init.2.2), ?_, ?_, ?_⟩
  · rw [Spec.supply, eXM]; exact hp.supply
  · rw [balance_of_writeAt (by rw [p.v_tok.len]; omega) q1, q2, hn]
    change balance L VA + u = _
    rw [hp.vault]
  · rw [Spec.escrow, eST]; exact hp.escrow

end Xorca.Demo
