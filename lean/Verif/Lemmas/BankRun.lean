import Verif.BankRun
import Verif.Props.Exit
import Verif.Props.Conservation
import Verif.Props.Histories
/-
Lemmas for `Props/BankRun.lean`: what one user's call leaves to the others.
-/
namespace Xorca
open Spec

variable {cr : Crypto} {x : Ctx} {L L' : Ledger} {st v : Pubkey} {logs : List Bytes} {g h : Leaver} {rent : Nat}

theorem ne_of_owner {a b p q : Pubkey} (ha : (L a).owner = p) (hb : (L b).owner = q) (h : p ≠ q) : a ≠ b :=
  fun e => h (by rw [← ha, ← hb, e])

theorem tok_ne {a b m o m' o' : Pubkey} (ha : TokenOk L a m o) (hb : TokenOk L b m' o') (hh : m ≠ m' ∨ o ≠ o') :
    a ≠ b := by
  rintro rfl
  rcases hh with hh | hh
  · exact hh (ha.mint.symm.trans hb.mint)
  · exact hh (ha.owner.symm.trans hb.owner)

theorem Spec.TokenOk.ne_mint {a b m o : Pubkey} (ha : TokenOk L a m o) (hb : (L b).data.length = 82) : a ≠ b := by
  rintro rfl
  rw [ha.len] at hb
  cases hb

/-- The token account agrees with itself on a ledger that has the same account. -/
theorem Spec.TokenOk.same {k m o : Pubkey} (ha : TokenOk L k m o) (e : L' k = L k) : TokenOk L' k m o := by
  obtain ⟨h1, h2, h3, h4, h5, h6, h7, h8, h9⟩ := ha
  unfold mintOf at h7
  unfold ownerOf at h8
  constructor <;> (try unfold mintOf) <;> (try unfold ownerOf) <;> (rw [e]; assumption)

theorem signersOk_one {accs : List Meta} {u : Pubkey} (hu : Signer cr u) (hw : Blank (L u))
    (ha : ∀ m ∈ accs, m.isSigner = true → m.key = u) : SignersOk cr L accs := by
  intro m hm hs
  rw [ha m hm hs]
  exact ⟨fun ho => absurd (hw.1.symm.trans ho) program_ne_system.symm, hu.1, hu.2.1, fun i b => hu.2.2 _ i b⟩

theorem Spec.Leaver.signers_unstake (hg : g.HasAccounts cr L) : SignersOk cr L (g.unstakeAccs st v) :=
  signersOk_one hg.signer hg.wallet (by
    intro m hm hs
    simp only [Leaver.unstakeAccs, List.mem_cons, List.not_mem_nil, or_false] at hm
    rcases hm with rfl | rfl | rfl | rfl | rfl | rfl | rfl | rfl | rfl <;> first | rfl | cases hs)

theorem Spec.Leaver.signers_withdraw (hg : g.HasAccounts cr L) : SignersOk cr L (g.withdrawAccs st v) :=
  signersOk_one hg.signer hg.wallet (by
    intro m hm hs
    simp only [Leaver.withdrawAccs, List.mem_cons, List.not_mem_nil, or_false] at hm
    rcases hm with rfl | rfl | rfl | rfl | rfl | rfl | rfl | rfl <;> first | rfl | cases hs)

/-- Everything but five accounts is as before after an Unstake. -/
theorem Spec.Leaver.unstake_frame {a : UInt64} {i : UInt8} {k : Pubkey} (hr : Runs x L (g.unstakeAccs st v) (.Unstake a i) L' logs)
    (hs : SignersOk x.cr L (g.unstakeAccs st v)) (h1 : k ≠ g.user) (h2 : k ≠ st) (h3 : k ≠ g.record) (h4 : k ≠ g.xorca)
    (h5 : k ≠ XORCA_MINT_ID) : L' k = L k := by
  refine C34_bystanders_untouched hr hs fun m hm hw => ?_
  simp only [Leaver.unstakeAccs, List.mem_cons, List.not_mem_nil, or_false] at hm
  rcases hm with rfl | rfl | rfl | rfl | rfl | rfl | rfl | rfl | rfl <;>
    first | exact h1.symm | exact h2.symm | exact h3.symm | exact h4.symm | exact h5.symm | cases hw

/-- Everything but five accounts is as before after a Withdraw. -/
theorem Spec.Leaver.withdraw_frame {i : UInt8} {k : Pubkey} (hr : Runs x L (g.withdrawAccs st v) (.Withdraw i) L' logs)
    (hs : SignersOk x.cr L (g.withdrawAccs st v)) (h1 : k ≠ g.user) (h2 : k ≠ st) (h3 : k ≠ g.record) (h4 : k ≠ g.orca)
    (h5 : k ≠ v) : L' k = L k := by
  refine C34_bystanders_untouched hr hs fun m hm hw => ?_
  simp only [Leaver.withdrawAccs, List.mem_cons, List.not_mem_nil, or_false] at hm
  rcases hm with rfl | rfl | rfl | rfl | rfl | rfl | rfl | rfl <;>
    first | exact h1.symm | exact h2.symm | exact h3.symm | exact h4.symm | exact h5.symm | cases hw

/-! ### One Unstake -/

section
variable (p : Pool cr L st v) (hg : g.CanUnstake cr rent L)
  (hr : Runs x L (g.unstakeAccs st v) (.Unstake g.amount g.index) L' logs) (hx : x.cr = cr)
include p hg hr hx

theorem Spec.Leaver.unstake_wallet (hh : h.HasAccounts cr L) (hne : g.user ≠ h.user) : L' h.user = L h.user :=
  Leaver.unstake_frame hr (hx ▸ Leaver.signers_unstake hg.toHasAccounts) (Ne.symm hne)
    (ne_of_owner hh.wallet.1 p.prog program_ne_system.symm)
    (fun e => hh.signer.2.2 _ _ _ (e ▸ hg.addr))
    (ne_of_owner hh.wallet.1 hg.xorca.prog token_ne_system.symm)
    (ne_of_owner hh.wallet.1 p.mint.prog token_ne_system.symm)

theorem Spec.Leaver.unstake_token {k m o : Pubkey} (hk : TokenOk L k m o) (hm : m ≠ XORCA_MINT_ID ∨ g.user ≠ o) :
    L' k = L k :=
  Leaver.unstake_frame hr (hx ▸ Leaver.signers_unstake hg.toHasAccounts)
    (ne_of_owner hk.prog hg.wallet.1 token_ne_system) (ne_of_owner hk.prog p.prog token_ne_program)
    (ne_of_owner hk.prog hg.free.1 token_ne_system) (tok_ne hk hg.xorca (hm.imp_right Ne.symm)) (hk.ne_mint p.mint.len)

theorem Spec.Leaver.unstake_free (hh : h.CanUnstake cr rent L) (hne : g.record ≠ h.record) : L' h.record = L h.record :=
  Leaver.unstake_frame hr (hx ▸ Leaver.signers_unstake hg.toHasAccounts)
    (fun e => hg.signer.2.2 _ _ _ (e ▸ hh.addr))
    (ne_of_owner hh.free.1 p.prog program_ne_system.symm) (Ne.symm hne)
    (ne_of_owner hh.free.1 hg.xorca.prog token_ne_system.symm)
    (ne_of_owner hh.free.1 p.mint.prog token_ne_system.symm)

theorem Spec.Leaver.unstake_record {k : Pubkey} (hk : IsRecord L k) : L' k = L k := by
  refine Leaver.unstake_frame hr (hx ▸ Leaver.signers_unstake hg.toHasAccounts)
    (ne_of_owner hk.1 hg.wallet.1 program_ne_system) (fun e => ?_)
    (ne_of_owner hk.1 hg.free.1 program_ne_system)
    (ne_of_owner hk.1 hg.xorca.prog token_ne_program.symm)
    (ne_of_owner hk.1 p.mint.prog token_ne_program.symm)
  have h1 := hk.2.2
  rw [e, p.acc.tag] at h1
  cases h1

theorem Spec.Leaver.unstake_orca_mint (hom : MintOk L ORCA_MINT_ID) : L' ORCA_MINT_ID = L ORCA_MINT_ID :=
  Leaver.unstake_frame hr (hx ▸ Leaver.signers_unstake hg.toHasAccounts)
    (ne_of_owner hom.prog hg.wallet.1 token_ne_system) (ne_of_owner hom.prog p.prog token_ne_program)
    (ne_of_owner hom.prog hg.free.1 token_ne_system) (hg.xorca.ne_mint hom.len).symm orca_ne_xorca

/-- The others can still unstake. -/
theorem Spec.Leaver.CanUnstake.next (hh : h.CanUnstake cr rent L) (hne : g.user ≠ h.user ∧ g.record ≠ h.record) :
    h.CanUnstake cr rent L' := by
  have e1 := Leaver.unstake_wallet p hg hr hx hh.toHasAccounts hne.1
  have e2 := Leaver.unstake_token p hg hr hx hh.orca (Or.inl orca_ne_xorca)
  have e3 := Leaver.unstake_token p hg hr hx hh.xorca (Or.inr hne.1)
  have e4 := Leaver.unstake_free p hg hr hx hh hne.2
  exact ⟨⟨hh.signer, by rw [e1]; exact hh.wallet, hh.addr, hh.orca.same e2⟩, by rw [e4]; exact hh.free,
    by rw [e1, e4]; exact hh.deposit, hh.xorca.same e3, hh.pos, by rw [balance, e3]; exact hh.enough⟩

/-- One Unstake in full. -/
theorem Spec.Leaver.unstake_one (hreach : Reachable cr L) (hrent : ∀ n, x.rentMin n ≠ 0) :
    Reachable cr L' ∧ Pool cr L' st v ∧ L' v = L v ∧ supply L' XORCA_MINT_ID + g.amount.toNat = supply L XORCA_MINT_ID ∧
    backing L' v st ≤ backing L v st ∧ escrow L' st = escrow L st + recAmount L' g.record ∧
    coolDown L' st = coolDown L st ∧ g.HasAccounts cr L' ∧ IsRecord L' g.record ∧
    recOwner L' g.record = g.user ∧ recIndex L' g.record = g.index ∧
    recAmount L' g.record = redeemFor g.amount.toNat (backing L v st) (supply L XORCA_MINT_ID) ∧
    recTime L' g.record = x.now.toInt + coolDown L st ∧
    ∀ a, redeemFor a (backing L v st) (supply L XORCA_MINT_ID) ≤ redeemFor a (backing L' v st) (supply L' XORCA_MINT_ID) := by
  subst hx
  have hs := Leaver.signers_unstake (st := st) (v := v) hg.toHasAccounts
  have ok : Entry.Ok x.cr ⟨L, .call x (g.unstakeAccs st v) (.Unstake g.amount g.index) logs, L'⟩ := .call rfl hrent hs hr
  have q : Path x.cr L [_] L' := .step .nil ok
  have hv := Leaver.unstake_token p hg hr rfl (k := g.orca) hg.orca (Or.inl orca_ne_xorca)
  obtain ⟨-, -, -, -, -, e2, e3, -, e4, -, e5, e6, e7, e8, e9, -, -, -, e10, -, e12⟩ := Props.C15_unstake_effects hr hs
  obtain ⟨-, -, -, e13, e14, -⟩ := Props.C02_exact_redemption_amount hr hs
  simp only [] at e2 e3 e4 e5 e6 e7 e8 e9 e10 e12 e13 e14
  have p' : Pool x.cr L' st v := (q.inv hreach.inv).2 _ _ p
  refine ⟨hreach.path q, p', e3, e2, ?_, e7, ?_, ⟨hg.signer, ?_, hg.addr, hg.orca.same hv⟩, e4, e5, e6, e13, e8, ?_⟩
  · rw [backing, backing, balance, balance, e3, e14]
    omega
  · rw [coolDown, coolDown, readI64, readI64, e9.slice (Or.inr (by omega))]
  · have n1 : g.user ≠ g.record := fun e => hg.signer.2.2 g.user g.index g.bump (by
      have h1 := hg.addr
      rwa [← e] at h1)
    refine ⟨by rw [e10 _ n1]; exact hg.wallet.1, ?_⟩
    rw [e12 _ ?_]
    · exact hg.wallet.2
    · simp only [List.mem_cons, List.not_mem_nil, or_false, not_or]
      exact ⟨n1, ne_of_owner hg.wallet.1 hg.xorca.prog token_ne_system.symm,
        ne_of_owner hg.wallet.1 p.mint.prog token_ne_system.symm, ne_of_owner hg.wallet.1 p.prog program_ne_system.symm⟩
  · refine (C09_no_dilution hreach ⟨⟨_, p.acc.addr⟩, p.prog, p.acc.tag⟩ p.v_addr q ?_).2
    intro e he ho
    obtain ⟨⟨y, accs, n, lg, hl⟩, -⟩ := ho
    rw [List.mem_singleton.1 he] at hl
    cases hl

end

/-- Accounts survive another user's Unstake. -/
theorem Spec.Leaver.HasAccounts.next (p : Pool cr L st v) (hg : g.CanUnstake cr rent L)
    (hr : Runs x L (g.unstakeAccs st v) (.Unstake g.amount g.index) L' logs) (hx : x.cr = cr)
    (hh : h.HasAccounts cr L) (hne : g.user ≠ h.user) : h.HasAccounts cr L' :=
  ⟨hh.signer, by rw [Leaver.unstake_wallet p hg hr hx hh hne]; exact hh.wallet, hh.addr,
    hh.orca.same (Leaver.unstake_token p hg hr hx hh.orca (Or.inl orca_ne_xorca))⟩

/-! ### All Unstakes -/

/-- What holds of a user's request after the Unstakes. -/
structure Spec.Leaver.Left (cr : Crypto) (L0 L : Ledger) (st v : Pubkey) (now : Int) (g : Leaver) : Prop extends
    g.HasAccounts cr L where
  isRecord : IsRecord L g.record
  owner : recOwner L g.record = g.user
  index : recIndex L g.record = g.index
  amount : redeemFor g.amount.toNat (backing L0 v st) (supply L0 XORCA_MINT_ID) ≤ recAmount L g.record
  time : recTime L g.record = now + coolDown L0 st
  kept : L g.orca = L0 g.orca

theorem unstakes_run (hx : x.cr = cr) (hrent : ∀ n, x.rentMin n ≠ 0) : ∀ (gs : List Leaver) {L : Ledger},
    Reachable cr L → Pool cr L st v → (∀ g ∈ gs, g.CanUnstake cr (x.rentMin 1024).toNat L) → Leaver.Apart gs →
    (gs.map fun g => g.amount.toNat).sum ≤ supply L XORCA_MINT_ID →
    supply L XORCA_MINT_ID * (backing L v st + 100) < 2 ^ 128 → x.now.toInt + coolDown L st < 2 ^ 63 →
    MintOk L ORCA_MINT_ID →
    ∃ L', CallsRun x L (unstakes st v gs) L' ∧ Reachable cr L' ∧ Pool cr L' st v ∧ L' v = L v ∧
      L' ORCA_MINT_ID = L ORCA_MINT_ID ∧ coolDown L' st = coolDown L st ∧
      escrow L' st = escrow L st + (gs.map fun g => recAmount L' g.record).sum ∧
      supply L' XORCA_MINT_ID + (gs.map fun g => g.amount.toNat).sum = supply L XORCA_MINT_ID ∧
      (∀ k, IsRecord L k → L' k = L k) ∧ (∀ k o, TokenOk L k ORCA_MINT_ID o → L' k = L k) ∧
      (∀ h : Leaver, h.HasAccounts cr L → (∀ g ∈ gs, g.user ≠ h.user) → h.HasAccounts cr L') ∧
      ∀ g ∈ gs, g.Left cr L L' st v x.now.toInt := by
  intro gs
  induction gs with
  | nil =>
    intro L hreach p _ _ _ _ _ _
    exact ⟨L, .nil, hreach, p, rfl, rfl, rfl, by simp, by simp, fun _ _ => rfl, fun _ _ _ => rfl, fun _ h _ => h,
      fun g hg => by cases hg⟩
  | cons g gs ih =>
    intro L hreach p hcan hap hsum hfit hclk hom
    have hg := hcan g (List.mem_cons_self ..)
    obtain ⟨hap1, hap2⟩ := List.pairwise_cons.1 hap
    simp only [List.map_cons, List.sum_cons] at hsum
    have hs := Leaver.signers_unstake (st := st) (v := v) hg.toHasAccounts
    have hsucc : Succeeds x L (g.unstakeAccs st v) (.Unstake g.amount g.index) := by
      refine C48_unstake_succeeds (u := ⟨g.user, true, true⟩) (st := ⟨st, false, true⟩) (pw := ⟨g.record, false, true⟩)
        (xa := ⟨g.xorca, false, true⟩) (xm := ⟨XORCA_MINT_ID, false, true⟩) (om := ⟨ORCA_MINT_ID, false, false⟩)
        (v := ⟨v, false, false⟩) (sp := ⟨SYSTEM_PROGRAM_ID, false, false⟩) (tp := ⟨SPL_TOKEN_PROGRAM_ID, false, false⟩)
        hreach hx hs ⟨⟨_, p.acc.addr⟩, p.prog, p.acc.tag⟩ p.v_addr
        ⟨⟨[], rfl⟩, rfl, rfl, rfl, rfl, rfl, rfl, rfl, rfl, rfl, rfl⟩ hg.addr hg.free hg.xorca hg.wallet hg.deposit
        hg.pos hg.enough (by omega) ?_ hclk hom
      exact lt_of_le_of_lt (Nat.mul_le_mul_right _ (by omega)) hfit
    obtain ⟨L1, logs, hr⟩ := succeeds_iff.1 hsucc
    obtain ⟨hreach1, p1, e1, e2, e3, ee, e4, e5, e6, e7, e8, e9, e10, e11⟩ :=
      Leaver.unstake_one p hg hr hx hreach hrent
    have eo := Leaver.unstake_orca_mint p hg hr hx hom
    obtain ⟨L', hc, hreach', p', f1, f2, f3, fe, f4, f5, f6, f7, f8⟩ := ih hreach1 p1
      (fun h hh => Leaver.CanUnstake.next p hg hr hx (hcan h (List.mem_cons_of_mem _ hh)) (hap1 h hh)) hap2 (by omega)
      (lt_of_le_of_lt (Nat.mul_le_mul (by omega) (by omega)) hfit) (by rw [e4]; exact hclk)
      ⟨by rw [eo]; exact hom.prog, by rw [eo]; exact hom.len, by rw [eo]; exact hom.init⟩
    refine ⟨L', .cons (hx ▸ hs) hr hc, hreach', p', f1.trans e1, f2.trans eo, f3.trans e4, ?_, ?_, ?_, ?_, ?_, ?_⟩
    · simp only [List.map_cons, List.sum_cons]
      have : recAmount L' g.record = recAmount L1 g.record := by rw [recAmount, recAmount, f5 _ e6]
      omega
    · simp only [List.map_cons, List.sum_cons]; omega
    · intro k hk
      have h1 := Leaver.unstake_record p hg hr hx hk
      rw [f5 k ⟨by rw [h1]; exact hk.1, by rw [h1]; exact hk.2.1, by rw [h1]; exact hk.2.2⟩, h1]
    · intro k o hk
      have h1 := Leaver.unstake_token p hg hr hx hk (Or.inl orca_ne_xorca)
      rw [f6 k o (hk.same h1), h1]
    · intro h hh hne
      exact f7 h (hh.next p hg hr hx (hne g (List.mem_cons_self ..)))
        fun g' hg' => hne g' (List.mem_cons_of_mem _ hg')
    · intro h hh
      rcases List.mem_cons.1 hh with rfl | hh
      · have k1 := f5 _ e6
        refine ⟨f7 h e5 fun g' hg' => Ne.symm (hap1 g' hg').1, ?_, ?_, ?_, ?_, ?_, ?_⟩
        · exact ⟨by rw [k1]; exact e6.1, by rw [k1]; exact e6.2.1, by rw [k1]; exact e6.2.2⟩
        · rw [recOwner, k1]; exact e7
        · rw [recIndex, k1]; exact e8
        · rw [← e9, recAmount, recAmount, k1]
        · rw [recTime, k1]; exact e10
        · have h1 := Leaver.unstake_token p hg hr hx hg.orca (Or.inl orca_ne_xorca)
          rw [f6 _ _ (hg.orca.same h1), h1]
      · have l := f8 h hh
        have hhc := hcan h (List.mem_cons_of_mem _ hh)
        exact ⟨l.toHasAccounts, l.isRecord, l.owner, l.index, (e11 _).trans l.amount, by rw [l.time, e4],
          l.kept.trans (Leaver.unstake_token p hg hr hx hhc.orca (Or.inl orca_ne_xorca))⟩

/-! ### One Withdraw -/

theorem Spec.TokenOk.amount {k m o : Pubkey} (ha : TokenOk L k m o) (ho : (L' k).owner = (L k).owner)
    (hd : SameExcept 64 8 (L k).data (L' k).data) : TokenOk L' k m o := by
  obtain ⟨h1, h2, h3, h4, h5, h6, h7, h8, h9⟩ := ha
  have r8 : ∀ j, j < 64 ∨ 72 ≤ j → readU8 (L' k).data j = readU8 (L k).data j := fun j hj => by
    rw [readU8_eq_slice, readU8_eq_slice, hd.slice (by omega)]
  have r32 : ∀ j, j + 4 ≤ 64 ∨ 72 ≤ j → readU32 (L' k).data j = readU32 (L k).data j := fun j hj => by
    rw [readU32, readU32, hd.slice (by omega)]
  have rk : ∀ j, j + 32 ≤ 64 ∨ 72 ≤ j → readKey (L' k).data j = readKey (L k).data j := fun j hj => by
    unfold readKey
    simp only [hd.slice (p := j) (m := 32) (by omega)]
  exact ⟨by rw [ho]; exact h1, by rw [hd.1]; exact h2, by rw [r8 _ (by omega)]; exact h3,
    by rw [r32 _ (by omega)]; exact h4, by rw [r32 _ (by omega)]; exact h5, by rw [r32 _ (by omega)]; exact h6,
    by rw [mintOf, rk _ (by omega)]; exact h7, by rw [ownerOf, rk _ (by omega)]; exact h8,
    by rw [r32 _ (by omega), rk _ (by omega)]; exact h9⟩

section
variable (p : Pool cr L st v) (hg : g.CanWithdraw cr L)
  (hr : Runs x L (g.withdrawAccs st v) (.Withdraw g.index) L' logs) (hx : x.cr = cr)
include p hg hr hx

theorem Spec.Leaver.withdraw_plain {k : Pubkey} (hk : (L k).owner = SYSTEM_PROGRAM_ID) (hne : k ≠ g.user) :
    L' k = L k :=
  Leaver.withdraw_frame hr (hx ▸ Leaver.signers_withdraw hg.toHasAccounts) hne
    (ne_of_owner hk p.prog program_ne_system.symm) (ne_of_owner hk hg.isRecord.1 program_ne_system.symm)
    (ne_of_owner hk hg.orca.prog token_ne_system.symm) (ne_of_owner hk p.v_tok.prog token_ne_system.symm)

theorem Spec.Leaver.withdraw_token {k m o : Pubkey} (hk : TokenOk L k m o) (ho : o ≠ st) (hne : g.user ≠ o) :
    L' k = L k :=
  Leaver.withdraw_frame hr (hx ▸ Leaver.signers_withdraw hg.toHasAccounts)
    (ne_of_owner hk.prog hg.wallet.1 token_ne_system) (ne_of_owner hk.prog p.prog token_ne_program)
    (ne_of_owner hk.prog hg.isRecord.1 token_ne_program) (tok_ne hk hg.orca (Or.inr (Ne.symm hne)))
    (fun e => ho (by rw [← hk.owner, e, p.v_owner]))

theorem Spec.Leaver.withdraw_record {k : Pubkey} (hk : IsRecord L k) (hne : k ≠ g.record) : L' k = L k := by
  refine Leaver.withdraw_frame hr (hx ▸ Leaver.signers_withdraw hg.toHasAccounts)
    (ne_of_owner hk.1 hg.wallet.1 program_ne_system) (fun e => ?_) hne
    (ne_of_owner hk.1 hg.orca.prog token_ne_program.symm) (ne_of_owner hk.1 p.v_tok.prog token_ne_program.symm)
  have h1 := hk.2.2
  rw [e, p.acc.tag] at h1
  cases h1

theorem Spec.Leaver.withdraw_orca_mint (hom : MintOk L ORCA_MINT_ID) : L' ORCA_MINT_ID = L ORCA_MINT_ID :=
  Leaver.withdraw_frame hr (hx ▸ Leaver.signers_withdraw hg.toHasAccounts)
    (ne_of_owner hom.prog hg.wallet.1 token_ne_system) (ne_of_owner hom.prog p.prog token_ne_program)
    (ne_of_owner hom.prog hg.isRecord.1 token_ne_program) (hg.orca.ne_mint hom.len).symm (by
      intro e
      have h1 := hom.len
      rw [e, p.v_tok.len] at h1
      cases h1)

/-- The others can still withdraw. -/
theorem Spec.Leaver.CanWithdraw.next (hh : h.CanWithdraw cr L) (hne : g.user ≠ h.user ∧ g.record ≠ h.record) :
    h.CanWithdraw cr L' ∧ recAmount L' h.record = recAmount L h.record ∧ recTime L' h.record = recTime L h.record ∧
      balance L' h.orca = balance L h.orca := by
  have e1 := Leaver.withdraw_plain p hg hr hx hh.wallet.1 (Ne.symm hne.1)
  have e2 := Leaver.withdraw_token p hg hr hx hh.orca (fun e => hh.signer.1 _ (e ▸ p.acc.addr)) hne.1
  have e3 := Leaver.withdraw_record p hg hr hx hh.isRecord (Ne.symm hne.2)
  have b1 : balance L' h.orca = balance L h.orca := by rw [balance, balance, e2]
  have b2 : recAmount L' h.record = recAmount L h.record := by rw [recAmount, recAmount, e3]
  refine ⟨⟨⟨hh.signer, by rw [e1]; exact hh.wallet, hh.addr, hh.orca.same e2⟩,
    ⟨by rw [e3]; exact hh.isRecord.1, by rw [e3]; exact hh.isRecord.2.1, by rw [e3]; exact hh.isRecord.2.2⟩,
    by rw [recOwner, e3]; exact hh.owner, by rw [recIndex, e3]; exact hh.index, by rw [b1, b2]; exact hh.fits⟩, b2, ?_, b1⟩
  rw [recTime, recTime, e3]

/-- One Withdraw in full. -/
theorem Spec.Leaver.withdraw_one (hreach : Reachable cr L) (hrent : ∀ n, x.rentMin n ≠ 0) :
    Reachable cr L' ∧ Pool cr L' st v ∧ readU8 (L' v).data 108 = 1 ∧
    balance L' g.orca = balance L g.orca + recAmount L g.record ∧ TokenOk L' g.orca ORCA_MINT_ID g.user ∧
    L' g.record = ⟨0, SYSTEM_PROGRAM_ID, []⟩ ∧ escrow L' st + recAmount L g.record = escrow L st ∧
    supply L' XORCA_MINT_ID = supply L XORCA_MINT_ID := by
  subst hx
  have hs := Leaver.signers_withdraw (st := st) (v := v) hg.toHasAccounts
  have ok : Entry.Ok x.cr ⟨L, .call x (g.withdrawAccs st v) (.Withdraw g.index) logs, L'⟩ := .call rfl hrent hs hr
  have q : Path x.cr L [_] L' := .step .nil ok
  obtain ⟨-, -, -, -, -, e1, e2, e3, e4, e5, -, e6, -, -, e7, e8, -⟩ := Props.C14_withdraw_effects hr hs
  simp only [] at e1 e2 e3 e4 e6 e7 e8
  refine ⟨hreach.path q, (q.inv hreach.inv).2 _ _ p, ?_, e1,
    hg.orca.amount (e8 _ (ne_of_owner hg.orca.prog hg.isRecord.1 token_ne_program)) e6, e4, e3,
    e7 (ne_of_owner p.mint.prog hg.isRecord.1 token_ne_program)⟩
  obtain ⟨L1, L2, e', r⟩ := hr.withdraw
  have e := (r.eff hs).1
  obtain ⟨w, hw⟩ := e.v_exact (by rw [p.v_tok.delegate]; decide)
  simp only [] at hw
  have hst := e.v_ok.state
  simp only [] at hst
  rw [hw, readU8_writeAt_apart (by simp [p.v_tok.len]) (Or.inr (by simp))]
  exact hst

end

/-! ### All Withdraws -/

theorem withdraws_run (hx : x.cr = cr) (hrent : ∀ n, x.rentMin n ≠ 0) : ∀ (gs : List Leaver) {L : Ledger},
    Reachable cr L → Pool cr L st v → (∀ g ∈ gs, g.CanWithdraw cr L) → Leaver.Apart gs →
    (∀ g ∈ gs, recTime L g.record ≤ x.now.toInt) → readU8 (L v).data 108 = 1 → MintOk L ORCA_MINT_ID →
    ∃ L', CallsRun x L (withdraws st v gs) L' ∧ Reachable cr L' ∧ Pool cr L' st v ∧
      escrow L' st + (gs.map fun g => recAmount L g.record).sum = escrow L st ∧
      supply L' XORCA_MINT_ID = supply L XORCA_MINT_ID ∧
      (∀ k, (L k).owner = SYSTEM_PROGRAM_ID → (∀ g ∈ gs, k ≠ g.user) → L' k = L k) ∧
      (∀ k o, TokenOk L k ORCA_MINT_ID o → o ≠ st → (∀ g ∈ gs, g.user ≠ o) → L' k = L k) ∧
      ∀ g ∈ gs, balance L' g.orca = balance L g.orca + recAmount L g.record ∧
        L' g.record = ⟨0, SYSTEM_PROGRAM_ID, []⟩ := by
  intro gs
  induction gs with
  | nil =>
    intro L hreach p _ _ _ _ _
    exact ⟨L, .nil, hreach, p, by simp, rfl, fun _ _ _ => rfl, fun _ _ _ _ _ => rfl, fun g hg => by cases hg⟩
  | cons g gs ih =>
    intro L hreach p hcan hap hmat hthaw hom
    have hg := hcan g (List.mem_cons_self ..)
    obtain ⟨hap1, hap2⟩ := List.pairwise_cons.1 hap
    have hs := Leaver.signers_withdraw (st := st) (v := v) hg.toHasAccounts
    have hsucc : Succeeds x L (g.withdrawAccs st v) (.Withdraw g.index) := by
      have := C21_matured_withdrawal_succeeds (x := x) (u := ⟨g.user, true, true⟩) (st := ⟨st, false, true⟩)
        (pw := ⟨g.record, false, true⟩) (oa := ⟨g.orca, false, true⟩) (v := ⟨v, false, true⟩)
        (om := ⟨ORCA_MINT_ID, false, false⟩) (sp := ⟨SYSTEM_PROGRAM_ID, false, false⟩)
        (tp := ⟨SPL_TOKEN_PROGRAM_ID, false, false⟩) hreach hx hs ⟨⟨_, p.acc.addr⟩, p.prog, p.acc.tag⟩ p.v_addr
        ⟨⟨[], rfl⟩, rfl, rfl, rfl, rfl, rfl, rfl, rfl, rfl, rfl⟩ hg.isRecord hg.owner (hmat g (List.mem_cons_self ..))
        hg.orca hg.fits hthaw hom.prog
      rwa [hg.index] at this
    obtain ⟨L1, logs, hr⟩ := succeeds_iff.1 hsucc
    obtain ⟨hreach1, p1, e1, e2, e3, e4, e5, e6⟩ := Leaver.withdraw_one p hg hr hx hreach hrent
    have eo := Leaver.withdraw_orca_mint p hg hr hx hom
    have hnext : ∀ h ∈ gs, _ := fun h hh =>
      Leaver.CanWithdraw.next p hg hr hx (hcan h (List.mem_cons_of_mem _ hh)) (hap1 h hh)
    obtain ⟨L', hc, hreach', p', f1, f2, f3, f4, f5⟩ := ih hreach1 p1 (fun h hh => (hnext h hh).1) hap2
      (fun h hh => by rw [(hnext h hh).2.2.1]; exact hmat h (List.mem_cons_of_mem _ hh)) e1
      ⟨by rw [eo]; exact hom.prog, by rw [eo]; exact hom.len, by rw [eo]; exact hom.init⟩
    have hsum : (gs.map fun g => recAmount L1 g.record) = gs.map fun g => recAmount L g.record :=
      List.map_congr_left fun h hh => (hnext h hh).2.1
    rw [hsum] at f1
    refine ⟨L', .cons (hx ▸ hs) hr hc, hreach', p', ?_, f2.trans e6, ?_, ?_, ?_⟩
    · simp only [List.map_cons, List.sum_cons]; omega
    · intro k hk hne
      have h1 := Leaver.withdraw_plain p hg hr hx hk (hne g (List.mem_cons_self ..))
      rw [f3 k (by rw [h1]; exact hk) fun g' hg' => hne g' (List.mem_cons_of_mem _ hg'), h1]
    · intro k o hk ho hne
      have h1 := Leaver.withdraw_token p hg hr hx hk ho (hne g (List.mem_cons_self ..))
      rw [f4 k o (hk.same h1) ho fun g' hg' => hne g' (List.mem_cons_of_mem _ hg'), h1]
    · intro h hh
      rcases List.mem_cons.1 hh with rfl | hh
      · constructor
        · rw [balance, f4 _ _ e3 (fun e => hg.signer.1 _ (e ▸ p.acc.addr)) fun g' hg' => Ne.symm (hap1 g' hg').1]
          exact e2
        · rw [f3 _ (by rw [e4]) fun g' hg' e => (hcan g' (List.mem_cons_of_mem _ hg')).signer.2.2 h.user h.index h.bump
            (e ▸ hg.addr), e4]
      · obtain ⟨l1, l2⟩ := f5 h hh
        exact ⟨by rw [l1, (hnext h hh).2.2.2, (hnext h hh).2.1], l2⟩

end Xorca
