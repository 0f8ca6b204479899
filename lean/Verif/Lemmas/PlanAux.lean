import Verif.Plan
import Verif.Lemmas.FiguresAux
import Verif.Lemmas.View
import Verif.Props.Accept
import Verif.Props.Invariants
/-
Plans are carried out: in the ledger the user holds all xORCA, all ORCA outside the vault and all open requests.
-/
namespace Xorca.Demo
open Xorca.Spec Xorca.Props

theorem record_offCurve {k : Pubkey} {i b : UInt8} (h : RecordAddr cr US i k b) : k ≠ DEPLOYER_ADDRESS ∧ k ≠ US := by
  have hd : cr.onCurve DEPLOYER_ADDRESS = true := by decide +kernel
  exact ⟨fun e => onCurve_ne hd (e ▸ h), fun e => onCurve_ne us_curve (e ▸ h)⟩

/-- The ledger mirrors the plan; `l` are the indices of open requests. -/
structure Holds (L : Ledger) (V : View) (e : Nat) (l : List UInt8) : Prop where
  init : Initialised cr L ST
  view : view L ST VA = V
  escrow : Spec.escrow L ST = e
  held : balance L UX = V.supply
  purse : balance L UO + balance L VA = 18446744073709551615
  thawed : readU8 (L VA).data 108 = 1
  ux : TokenOk L UX XORCA_MINT_ID US
  uo : TokenOk L UO ORCA_MINT_ID US
  om : MintOk L ORCA_MINT_ID
  us : Blank (L US)
  nodup : l.Nodup
  own : ∀ k r, V.requests k = some r → r.owner = US ∧ r.index ∈ l ∧ (∃ b, RecordAddr cr US r.index k b) ∧ k ∉ taken ∧
    (L k).lamports.toNat = 8017920
  back : ∀ i ∈ l, ∃ k r, V.requests k = some r ∧ r.index = i
  cash : (L US).lamports.toNat + 8017920 * l.length = 3000000000
  small : ∀ k ∈ taken, (L k).lamports.toNat ≤ 3000000000
  free : ∀ k, k ∉ taken → V.requests k = none → L k = ⟨0, SYSTEM_PROGRAM_ID, []⟩

variable {L L' : Ledger} {V : View} {e : Nat} {l : List UInt8} {t : Int64} {a : UInt64} {i : UInt8} {k : Pubkey}

theorem Holds.lam (h : Holds L V e l) (k : Pubkey) : (L k).lamports.toNat ≤ 3000000000 := by
  by_cases hk : k ∈ taken
  · exact h.small k hk
  · cases hr : V.requests k with
    | none => rw [h.free k hk hr]; simp
    | some r => have := (h.own k r hr).2.2.2.2; omega

theorem Holds.fit (h : Holds L V e l) {accs : List Meta} : LamportsFit L accs := fun a _ b _ _ => by
  have h1 := h.lam a.key
  have h2 := h.lam b.key
  omega

theorem Holds.sig (h : Holds L V e l) {accs : List Meta}
    (ha : ∀ m ∈ accs, m.isSigner = true → cr.onCurve m.key = true ∧ m.key = US) : SignersOk cr L accs :=
  signersOk fun m hm hs => by
    obtain ⟨c1, c2⟩ := ha m hm hs
    exact ⟨c1, by rw [c2, h.us.1]; exact system_ne_program⟩

theorem only_us_withdraw (pw : Pubkey) :
    ∀ m ∈ withdrawAccs pw, m.isSigner = true → cr.onCurve m.key = true ∧ m.key = US := by
  intro m hm h
  simp only [withdrawAccs, List.mem_cons, List.not_mem_nil, or_false] at hm
  rcases hm with rfl | rfl | rfl | rfl | rfl | rfl | rfl | rfl
  · exact ⟨us_curve, rfl⟩
  all_goals cases h

theorem only_us_set : ∀ m ∈ setAccs, m.isSigner = true → cr.onCurve m.key = true ∧ m.key = US := by decide +kernel

theorem Holds.plain (h : Holds L V e l) : NotMultisig L US := fun hc => by
  have := hc.1
  rw [h.us.1] at this
  exact absurd this (by decide +kernel)

/-- The figures of the ledger. -/
theorem Holds.figures (h : Holds L V e l) (hr : Reachable cr L) :
    supply L XORCA_MINT_ID = V.supply ∧ backing L VA ST = V.backing ∧ coolDown L ST = V.coolDown ∧
    authority L ST = V.authority ∧ (∀ k, requestAt L k = V.requests k) ∧ balance L VA = V.backing + e ∧
    V.supply ≤ V.backing ∧ Pool cr L ST VA := by
  obtain ⟨v', p⟩ := hr.inv.ofInitialised h.init
  obtain ⟨rfl, -⟩ := vaultAddr_unique va_addr p.v_addr
  have hb := p.backed
  have he := h.escrow
  have hv := h.view
  subst hv
  refine ⟨rfl, rfl, rfl, rfl, fun _ => rfl, ?_, ?_, p⟩
  · show balance L VA = balance L VA - Spec.escrow L ST + e
    omega
  · show supply L XORCA_MINT_ID ≤ balance L VA - Spec.escrow L ST
    omega

theorem Holds.step (h : Holds L V e l) (hr : Reachable cr L) {accs : List Meta} {ix : Instruction} {logs : List Bytes}
    (hs : SignersOk cr L accs) (hrun : Runs (ctx t) L accs ix L' logs) :
    ViewStep cr V (.call (ctx t) accs ix logs) (Spec.view L' ST VA) := by
  have := view_step (e := ⟨L, .call (ctx t) accs ix logs, L'⟩) (.call rfl rent_ne hs hrun) hr h.init va_addr
  simp only [h.view] at this
  exact this

theorem Holds.stake (h : Holds L V e l) (hr : Reachable cr L) (hm : 0 < mintFor a.toNat V.backing V.supply)
    (hf : V.backing + e + a.toNat < 2 ^ 64) :
    ∃ L' logs, Runs (ctx t) L stakeAccs (.Stake a) L' logs ∧
      Holds L' { V with supply := V.supply + mintFor a.toNat V.backing V.supply, backing := V.backing + a.toNat } e l := by
  obtain ⟨f1, f2, f3, f4, f5, f6, f7, p⟩ := h.figures hr
  have hpurse := h.purse
  have hsig : SignersOk cr L stakeAccs := h.sig only_us
  have hle := mintFor_le (a := a.toNat) f7
  have c2 : a.toNat ≤ balance L UO := by omega
  have c3 : 0 < mintFor a.toNat (backing L VA ST) (Spec.supply L XORCA_MINT_ID) := by rw [f1, f2]; exact hm
  have c4 : balance L VA + a.toNat < 2 ^ 64 := by omega
  have c5 : balance L UX + mintFor a.toNat (backing L VA ST) (Spec.supply L XORCA_MINT_ID) < 2 ^ 64 := by
    rw [f1, f2, h.held]; omega
  have hs : Succeeds (ctx t) L stakeAccs (.Stake a) :=
    C47_stake_succeeds (s := ⟨US, true, true⟩) (v := ⟨VA, false, true⟩) (oa := ⟨UO, false, true⟩)
      (xa := ⟨UX, false, true⟩) (st := ⟨ST, false, false⟩) hr rfl hsig h.init va_addr stakeCall h.uo h.ux
      h.plain c2 c3 c4 c5 h.thawed h.om.prog
  obtain ⟨L', logs, hrun⟩ := succeeds_iff.1 hs
  refine ⟨L', logs, hrun, ?_⟩
  have hv := h.step hr hsig hrun
  have hrun' := hrun
  have hsig' := hsig
  unfold stakeAccs at hrun' hsig'
  obtain ⟨-, -, -, -, -, -, -, g0, g1, -, g2, g3, -, -, -, g4, g5, g6⟩ := C16_stake_effects hrun' hsig'
  obtain ⟨-, g7, g8, -⟩ := C01_exact_mint_amount hrun' hsig'
  obtain ⟨K1, w, r⟩ := hrun'.stake
  obtain ⟨w2, q1, q2⟩ := (r.eff hsig').oa_data
  simp only at g0 g1 g2 g3 g5 g6 g7 g8 q1 q2
  have g8' : balance L' UX = balance L UX + mintFor a.toNat (backing L VA ST) (Spec.supply L XORCA_MINT_ID) := g8
  obtain ⟨W, hW⟩ : ∃ W, Spec.view L' ST VA = W := ⟨_, rfl⟩
  rw [hW] at hv
  cases hv
  have oUS := g6 US (by decide +kernel)
  have oOM := g6 ORCA_MINT_ID (by decide +kernel)
  exact {
    init := initialised (by rw [g5]; exact h.init.2.1) (by rw [g5]; exact h.init.2.2)
    view := hW
    escrow := by rw [Spec.escrow, g5]; exact h.escrow
    held := by rw [g8', f1, f2, h.held]
    purse := by omega
    thawed := by rw [readU8_eq_slice, g2.slice (Or.inr (by omega)), ← readU8_eq_slice]; exact h.thawed
    ux := h.ux.amount (g4 _).1 g3
    uo := tokenOk_amountSet h.uo (g4 _).1 q1
    om := ⟨by rw [oOM]; exact h.om.1, by rw [oOM]; exact h.om.2, by rw [oOM]; exact h.om.3⟩
    us := by rw [oUS]; exact h.us
    nodup := h.nodup
    own := fun k r hk => by rw [(g4 k).2]; exact h.own k r hk
    back := h.back
    cash := by rw [(g4 _).2]; exact h.cash
    small := fun k hk => by rw [(g4 _).2]; exact h.small k hk
    free := fun k hk hn => by
      rw [g6 k (fun hc => hk (by
        simp only [List.mem_cons, List.not_mem_nil, or_false] at hc
        rcases hc with rfl | rfl | rfl | rfl <;> simp [taken]))]
      exact h.free k hk hn }

theorem length_lt {l : List UInt8} {i : UInt8} (h : l.Nodup) (hi : i ∉ l) : l.length < 256 := by
  have hn : (List.map UInt8.toNat (i :: l)).Nodup :=
    List.Nodup.map (fun a b hab => UInt8.toNat_inj.1 hab) (List.nodup_cons.2 ⟨hi, h⟩)
  have hs : List.map UInt8.toNat (i :: l) ⊆ List.range 256 := fun n hn => by
    obtain ⟨j, -, rfl⟩ := List.mem_map.1 hn
    exact List.mem_range.2 j.toNat_lt
  have := (hn.subperm hs).length_le
  simp only [List.length_map, List.length_cons, List.length_range] at this
  omega

theorem cash_less {x y r n c : Nat} (h : x + (r - 0) = y) (hc : y + r * n = c) : x + r * (n + 1) = c := by
  rw [Nat.mul_add]
  generalize r * n = q at *
  omega

theorem Holds.unstake {b : UInt8} (h : Holds L V e l) (hr : Reachable cr L) (hpw : RecordAddr cr US i k b) (hk : k ∉ taken)
    (hfree : V.requests k = none) (h0 : 0 < a.toNat) (ha : a.toNat ≤ V.supply)
    (hfit : a.toNat * (V.backing + 100) < 2 ^ 128) (hclk : t.toInt + V.coolDown < 2 ^ 63) :
    ∃ L' logs, Runs (ctx t) L (unstakeAccs k) (.Unstake a i) L' logs ∧
      Holds L'
        { V with
          supply := V.supply - a.toNat
          backing := V.backing - redeemFor a.toNat V.backing V.supply
          requests := putRequest V.requests k
            (some ⟨US, i, redeemFor a.toNat V.backing V.supply, t.toInt + V.coolDown⟩) }
        (e + redeemFor a.toNat V.backing V.supply) (i :: l) := by
  obtain ⟨f1, f2, f3, f4, f5, f6, f7, p⟩ := h.figures hr
  have hi : i ∉ l := fun hc => by
    obtain ⟨k', r, hr', rfl⟩ := h.back i hc
    obtain ⟨-, -, ⟨b', hb'⟩, -⟩ := h.own k' r hr'
    obtain ⟨rfl, -⟩ := recordAddr_unique hpw hb'
    rw [hfree] at hr'
    cases hr'
  have hlen := length_lt h.nodup hi
  have hcash := h.cash
  have hbl := h.free k hk hfree
  have hrent : ((ctx t).rentMin 1024).toNat = 8017920 := rent_small
  have hsig : SignersOk cr L (unstakeAccs k) := h.sig (only_us' k)
  have c1 : ((ctx t).rentMin 1024).toNat ≤ (L US).lamports.toNat + (L k).lamports.toNat := by rw [hrent]; omega
  have c3 : a.toNat ≤ balance L UX := by rw [h.held]; exact ha
  have c4 : a.toNat ≤ Spec.supply L XORCA_MINT_ID := by rw [f1]; exact ha
  have c5 : a.toNat * (backing L VA ST + 100) < 2 ^ 128 := by rw [f2]; exact hfit
  have c6 : (ctx t).now.toInt + coolDown L ST < 2 ^ 63 := by rw [f3]; exact hclk
  have hs : Succeeds (ctx t) L (unstakeAccs k) (.Unstake a i) :=
    C48_unstake_succeeds (u := ⟨US, true, true⟩) (st := ⟨ST, false, true⟩) (pw := ⟨k, false, true⟩)
      (xa := ⟨UX, false, true⟩) (v := ⟨VA, false, false⟩) hr rfl hsig h.init va_addr (unstakeCall k) hpw
      (by rw [hbl]; exact ⟨rfl, rfl⟩) h.ux h.us c1 h0 c3 c4 c5 c6 h.om
  obtain ⟨L', logs, hrun⟩ := succeeds_iff.1 hs
  refine ⟨L', logs, hrun, ?_⟩
  have hv := h.step hr hsig hrun
  have hrun' := hrun
  have hsig' := hsig
  unfold unstakeAccs at hrun' hsig'
  obtain ⟨-, -, -, -, g1, g2, g3, -, -, -, -, -, -, -, g5, -, -, -, g8, g8', g9⟩ := C15_unstake_effects hrun' hsig'
  obtain ⟨-, -, -, -, g10, -⟩ := C02_exact_redemption_amount hrun' hsig'
  obtain ⟨K1, K2, w, e', ts, bb, r⟩ := hrun'.unstake
  have ef := (r.eff hsig').1
  obtain ⟨w2, q1, q2⟩ := ef.xa_data
  obtain ⟨l1, n1, n2⟩ := ef.pw_new
  have paid := ef.paid
  simp only at g1 g2 g3 g5 g8 g8' g9 g10 q1 q2 n1 n2 paid
  rw [hrent, hbl] at n2 paid
  have g10' : Spec.escrow L' ST = Spec.escrow L ST + redeemFor a.toNat (backing L VA ST) (Spec.supply L XORCA_MINT_ID) := g10
  obtain ⟨W, hW⟩ : ∃ W, Spec.view L' ST VA = W := ⟨_, rfl⟩
  rw [hW] at hv
  cases hv with
  | @unstake _ _ _ _ _ u k' signed at_ =>
  obtain ⟨m, hm, rfl, -⟩ := signed
  obtain ⟨m', hm', rfl⟩ := at_
  simp only [unstakeAccs, List.getElem?_cons_zero, List.getElem?_cons_succ, Option.some.injEq] at hm hm'
  subst hm hm'
  have hne : ∀ j ∈ taken, j ≠ k := fun j hj e => hk (e ▸ hj)
  have hdata : ∀ {j}, j ≠ k → j ∉ [UX, XORCA_MINT_ID, ST] → (L' j).data = (L j).data := fun h1 h2 =>
    g9 _ (by rw [List.mem_cons, not_or]; exact ⟨h1, h2⟩)
  have oOM := hdata (hne ORCA_MINT_ID (by simp [taken])) (by decide +kernel)
  have oUO := hdata (hne UO (by simp [taken])) (by decide +kernel)
  have hlam : ∀ j, j ≠ k → j ≠ US → (L' j).lamports = (L j).lamports := fun j h1 h2 =>
    g8' j (by simp only [List.mem_cons, List.not_mem_nil, or_false, not_or]; exact ⟨h1, h2⟩)
  exact {
    init := initialised (by rw [g8 _ (hne ST (by simp [taken]))]; exact h.init.2.1)
      (by rw [readU8_eq_slice, g5.slice (Or.inl (by omega)), ← readU8_eq_slice]; exact h.init.2.2)
    view := hW
    escrow := by rw [g10', h.escrow, f1, f2]
    held := by
      have := h.held
      show balance L' UX = V.supply - a.toNat
      omega
    purse := by
      rw [balance, oUO, balance, g3]
      exact h.purse
    thawed := by rw [g3]; exact h.thawed
    ux := tokenOk_amountSet h.ux (g8 _ (hne UX (by simp [taken]))) q1
    uo := h.uo.amount (g8 _ (hne UO (by simp [taken]))) (by rw [oUO]; exact ⟨rfl, fun _ _ => rfl⟩)
    om := ⟨by rw [g8 _ (hne ORCA_MINT_ID (by simp [taken]))]; exact h.om.1, by rw [oOM]; exact h.om.2,
      by rw [oOM]; exact h.om.3⟩
    us := ⟨by rw [g8 _ (hne US (by simp [taken]))]; exact h.us.1,
      by rw [hdata (hne US (by simp [taken])) (by decide +kernel)]; exact h.us.2⟩
    nodup := List.nodup_cons.2 ⟨hi, h.nodup⟩
    own := fun j rq hj => by
      simp only [putRequest] at hj
      split at hj
      · rename_i hjk
        subst hjk
        cases hj
        refine ⟨rfl, List.mem_cons_self, ⟨b, hpw⟩, hk, ?_⟩
        rw [n1]
        show l1.toNat = _
        rw [n2]; rfl
      · rename_i hjk
        obtain ⟨o1, o2, o3, o4, o5⟩ := h.own j rq hj
        exact ⟨o1, List.mem_cons_of_mem _ o2, o3, o4, by
          rw [hlam j hjk (fun e => o4 (by rw [e]; simp [taken]))]; exact o5⟩
    back := fun j hj => by
      rcases List.mem_cons.1 hj with rfl | hj
      · exact ⟨k, _, if_pos rfl, rfl⟩
      · obtain ⟨k', rq, h1, h2⟩ := h.back j hj
        have : k' ≠ k := fun e => by rw [e, hfree] at h1; cases h1
        exact ⟨k', rq, by simp only [putRequest, if_neg this]; exact h1, h2⟩
    cash := by
      have : (⟨0, SYSTEM_PROGRAM_ID, []⟩ : Account).lamports.toNat = 0 := rfl
      rw [this] at paid
      exact cash_less paid hcash
    small := fun j hj => by
      by_cases h2 : j = US
      · have := h.small US (by simp [taken])
        rw [h2]; omega
      · rw [hlam j (hne j hj) h2]; exact h.small j hj
    free := fun j hj hn => by
      simp only [putRequest] at hn
      split at hn
      · cases hn
      · rename_i hjk
        rw [← h.free j hj hn]
        refine account_ext (hlam j hjk (fun e => hj (by rw [e]; simp [taken]))) (g8 j hjk) (hdata hjk ?_)
        intro hc
        simp only [List.mem_cons, List.not_mem_nil, or_false] at hc
        exact hj (by rcases hc with rfl | rfl | rfl <;> simp [taken]) }

theorem Holds.withdraw {r : Request} (h : Holds L V e l) (hr : Reachable cr L) (hreq : V.requests k = some r)
    (hdue : r.due ≤ t.toInt) :
    ∃ L' logs, Runs (ctx t) L (withdrawAccs k) (.Withdraw r.index) L' logs ∧
      Holds L' { V with requests := putRequest V.requests k none } (e - r.amount) (l.erase r.index) := by
  obtain ⟨f1, f2, f3, f4, f5, f6, f7, p⟩ := h.figures hr
  obtain ⟨o1, o2, ⟨b, hpw⟩, hk, o5⟩ := h.own k r hreq
  have hpurse := h.purse
  have hsig : SignersOk cr L (withdrawAccs k) := h.sig (only_us_withdraw k)
  have hat : requestAt L k = some r := (f5 k).trans hreq
  have hrec : IsRecord L k := by
    by_contra hc
    rw [requestAt_none hc] at hat
    cases hat
  rw [requestAt_some hrec] at hat
  cases hat
  simp only at *
  have hsum : recAmount L k ≤ Spec.escrow L ST := by
    obtain ⟨rs, h1, h2, h3⟩ := p.records
    rw [← h3]
    exact List.single_le_sum (by simp) _ (List.mem_map_of_mem ((h2 k).2 hrec))
  have he := h.escrow
  have hs : Succeeds (ctx t) L (withdrawAccs k) (.Withdraw (recIndex L k)) :=
    C21_matured_withdrawal_succeeds (u := ⟨US, true, true⟩) (st := ⟨ST, false, true⟩) (pw := ⟨k, false, true⟩)
      (oa := ⟨UO, false, true⟩) (v := ⟨VA, false, true⟩) hr rfl hsig h.init va_addr (withdrawCall k) hrec o1 hdue h.uo
      (by show balance L UO + recAmount L k < 2 ^ 64; omega) h.thawed h.om.prog
  obtain ⟨L', logs, hrun⟩ := succeeds_iff.1 hs
  refine ⟨L', logs, hrun, ?_⟩
  have hv := h.step hr hsig hrun
  have hrun' := hrun
  have hsig' := hsig
  unfold withdrawAccs at hrun' hsig'
  obtain ⟨-, -, -, -, -, g1, g2, g3, g4, g5, g6, g7, -, -, -, g8, g9, g10⟩ := C14_withdraw_effects hrun' hsig'
  obtain ⟨K1, K2, e', rr⟩ := hrun'.withdraw
  obtain ⟨w2, q1, q2⟩ := ((rr.eff hsig').1).v_data
  simp only at g1 g2 g3 g4 g5 g6 g7 g8 g9 g10 q1 q2
  obtain ⟨W, hW⟩ : ∃ W, Spec.view L' ST VA = W := ⟨_, rfl⟩
  rw [hW] at hv
  cases hv with
  | @withdraw _ _ _ _ u k' _ _ signed at_ =>
  obtain ⟨m', hm', rfl⟩ := at_
  simp only [withdrawAccs, List.getElem?_cons_zero, List.getElem?_cons_succ, Option.some.injEq] at hm'
  subst hm'
  have hne : ∀ j ∈ taken, j ≠ k := fun j hj e => hk (e ▸ hj)
  have hdata : ∀ {j}, j ≠ k → j ∉ [UO, VA, ST] → (L' j).data = (L j).data := fun h1 h2 =>
    g10 _ (by rw [List.mem_cons, not_or]; exact ⟨h1, h2⟩)
  have oOM := hdata (hne ORCA_MINT_ID (by simp [taken])) (by decide +kernel)
  have oUX := hdata (hne UX (by simp [taken])) (by decide +kernel)
  have hlam : ∀ j, j ≠ k → j ≠ US → (L' j).lamports = (L j).lamports := fun j h1 h2 =>
    g9 j (by simp only [List.mem_cons, List.not_mem_nil, or_false, not_or]; exact ⟨h1, h2⟩)
  have hpos : 0 < l.length := List.length_pos_of_mem o2
  have hcash := h.cash
  have hus : (L' US).lamports.toNat = (L US).lamports.toNat + 8017920 := by
    rw [g5, UInt64.toNat_add, o5]
    have := h.lam US
    omega
  have hlen : (l.erase (recIndex L k)).length = l.length - 1 := List.length_erase_of_mem o2
  exact {
    init := initialised (by rw [g8 _ (hne ST (by simp [taken]))]; exact h.init.2.1)
      (by rw [readU8_eq_slice, g6.slice (Or.inl (by omega)), ← readU8_eq_slice]; exact h.init.2.2)
    view := hW
    escrow := by omega
    held := by rw [balance, oUX]; exact h.held
    purse := by omega
    thawed := by rw [q1.state]; exact h.thawed
    ux := h.ux.amount (g8 _ (hne UX (by simp [taken]))) (by rw [oUX]; exact ⟨rfl, fun _ _ => rfl⟩)
    uo := h.uo.amount (g8 _ (hne UO (by simp [taken]))) g7
    om := ⟨by rw [g8 _ (hne ORCA_MINT_ID (by simp [taken]))]; exact h.om.1, by rw [oOM]; exact h.om.2,
      by rw [oOM]; exact h.om.3⟩
    us := ⟨by rw [g8 _ (hne US (by simp [taken]))]; exact h.us.1,
      by rw [hdata (hne US (by simp [taken])) (by decide +kernel)]; exact h.us.2⟩
    nodup := h.nodup.erase _
    own := fun j rq hj => by
      simp only [putRequest] at hj
      split at hj
      · cases hj
      · rename_i hjk
        obtain ⟨p1, p2, ⟨b', p3⟩, p4, p5⟩ := h.own j rq hj
        refine ⟨p1, (h.nodup.mem_erase_iff).2 ⟨fun hc => hjk ?_, p2⟩, ⟨b', p3⟩, p4, by
          rw [hlam j hjk (fun e => p4 (by rw [e]; simp [taken]))]; exact p5⟩
        rw [hc] at p3
        exact (recordAddr_unique p3 hpw).1
    back := fun j hj => by
      obtain ⟨hji, hj⟩ := (h.nodup.mem_erase_iff).1 hj
      obtain ⟨k', rq, h1, h2⟩ := h.back j hj
      have : k' ≠ k := fun e => by
        rw [e, hreq] at h1
        cases h1
        exact hji h2.symm
      exact ⟨k', rq, by simp only [putRequest, if_neg this]; exact h1, h2⟩
    cash := by
      rw [hlen, Nat.mul_sub]
      omega
    small := fun j hj => by
      by_cases h2 : j = US
      · rw [h2, hus]; omega
      · rw [hlam j (hne j hj) h2]; exact h.small j hj
    free := fun j hj hn => by
      simp only [putRequest] at hn
      split at hn
      · rename_i hjk; rw [hjk]; exact g4
      · rename_i hjk
        rw [← h.free j hj hn]
        refine account_ext (hlam j hjk (fun e => hj (by rw [e]; simp [taken]))) (g8 j hjk) (hdata hjk ?_)
        intro hc
        simp only [List.mem_cons, List.not_mem_nil, or_false] at hc
        exact hj (by rcases hc with rfl | rfl | rfl <;> simp [taken]) }

/-- A change of the settings. -/
theorem Holds.settings {W : View} (h : Holds L V e l) (ho : ∀ k, k ≠ ST → L' k = L k) (hown : (L' ST).owner = (L ST).owner)
    (hlam : (L' ST).lamports = (L ST).lamports) (h0 : slice (L' ST).data 0 1 = slice (L ST).data 0 1)
    (h8 : slice (L' ST).data 8 8 = slice (L ST).data 8 8) (hv : Spec.view L' ST VA = W) (hr : W.requests = V.requests)
    (hs : W.supply = V.supply) : Holds L' W e l := by
  have hl : ∀ k, (L' k).lamports = (L k).lamports := fun k => by
    by_cases hk : k = ST
    · rw [hk, hlam]
    · rw [ho k hk]
  have eUX := ho UX (by decide +kernel)
  have eUO := ho UO (by decide +kernel)
  have eVA := ho VA (by decide +kernel)
  have eOM := ho ORCA_MINT_ID (by decide +kernel)
  have eUS := ho US (by decide +kernel)
  exact {
    init := initialised (by rw [hown]; exact h.init.2.1) (by rw [readU8_eq_slice, h0, ← readU8_eq_slice]; exact h.init.2.2)
    view := hv
    escrow := by rw [Spec.escrow, readU64, h8, ← readU64]; exact h.escrow
    held := by rw [balance, eUX, hs]; exact h.held
    purse := by rw [balance, eUO, balance, eVA]; exact h.purse
    thawed := by rw [eVA]; exact h.thawed
    ux := h.ux.amount (by rw [eUX]) (by rw [eUX]; exact ⟨rfl, fun _ _ => rfl⟩)
    uo := h.uo.amount (by rw [eUO]) (by rw [eUO]; exact ⟨rfl, fun _ _ => rfl⟩)
    om := ⟨by rw [eOM]; exact h.om.1, by rw [eOM]; exact h.om.2, by rw [eOM]; exact h.om.3⟩
    us := by rw [eUS]; exact h.us
    nodup := h.nodup
    own := fun k r hk => by rw [hl]; rw [hr] at hk; exact h.own k r hk
    back := by rw [hr]; exact h.back
    cash := by rw [hl]; exact h.cash
    small := fun k hk => by rw [hl]; exact h.small k hk
    free := fun j hj hn => by
      rw [hr] at hn
      rw [ho j (fun hc => hj (by rw [hc]; simp [taken]))]
      exact h.free j hj hn }

theorem Holds.setCoolDown {c : Int64} (h : Holds L V e l) (hr : Reachable cr L) (ha : V.authority = US) (hc : 0 ≤ c.toInt) :
    ∃ L' logs, Runs (ctx t) L setAccs (.Set (.UpdateCoolDownPeriod c)) L' logs ∧
      Holds L' { V with coolDown := c.toInt } e l := by
  obtain ⟨f1, f2, f3, f4, f5, f6, f7, p⟩ := h.figures hr
  have hs : Succeeds (ctx t) L setAccs (.Set (.UpdateCoolDownPeriod c)) :=
    (C58_set_accepted_iff (x := ctx t) (au := ⟨US, true, true⟩) (st := ⟨ST, false, true⟩) hr rfl).2
      ⟨⟨⟨[], rfl⟩, rfl, rfl, rfl⟩, h.init, (f4.trans ha).symm, fun c' hc' => by cases hc'; exact hc⟩
  obtain ⟨L', logs, hrun⟩ := succeeds_iff.1 hs
  refine ⟨L', logs, hrun, ?_⟩
  have hv := h.step hr (h.sig only_us_set) hrun
  have hrun' := hrun
  unfold setAccs at hrun'
  obtain ⟨-, -, -, -, -, -, g1, g2, g3, g4, -⟩ := C23_set_cool_down hrun'
  simp only at g1 g2 g3 g4
  obtain ⟨W, hW⟩ : ∃ W, Spec.view L' ST VA = W := ⟨_, rfl⟩
  rw [hW] at hv
  cases hv
  exact h.settings g4 g2 g3 (g1.slice (Or.inl (by omega))) (g1.slice (Or.inl (by omega))) hW rfl rfl

theorem Holds.setAuthority {n : Pubkey} (h : Holds L V e l) (hr : Reachable cr L) (ha : V.authority = US) :
    ∃ L' logs, Runs (ctx t) L setAccs (.Set (.UpdateUpdateAuthority n)) L' logs ∧
      Holds L' { V with authority := n } e l := by
  obtain ⟨f1, f2, f3, f4, f5, f6, f7, p⟩ := h.figures hr
  have hs : Succeeds (ctx t) L setAccs (.Set (.UpdateUpdateAuthority n)) :=
    (C58_set_accepted_iff (x := ctx t) (au := ⟨US, true, true⟩) (st := ⟨ST, false, true⟩) hr rfl).2
      ⟨⟨⟨[], rfl⟩, rfl, rfl, rfl⟩, h.init, (f4.trans ha).symm, fun c' hc' => by cases hc'⟩
  obtain ⟨L', logs, hrun⟩ := succeeds_iff.1 hs
  refine ⟨L', logs, hrun, ?_⟩
  have hv := h.step hr (h.sig only_us_set) hrun
  have hrun' := hrun
  unfold setAccs at hrun'
  obtain ⟨-, -, -, -, -, g1, g2, g3, g4⟩ := C23_set_authority hrun'
  simp only at g1 g2 g3 g4
  obtain ⟨W, hW⟩ : ∃ W, Spec.view L' ST VA = W := ⟨_, rfl⟩
  rw [hW] at hv
  cases hv
  exact h.settings g4 g2 g3 (g1.slice (Or.inl (by omega))) (g1.slice (Or.inl (by omega))) hW rfl rfl

/-- A token instruction of the user between two of the accounts of the pool and the user. -/
theorem Holds.token {k1 k2 : Pubkey} {W : View} (h : Holds L V e l) (hf : DataFrame L L' [k1, k2])
    (hk : k1 ∈ taken ∧ k2 ∈ taken) (hne : ST ∉ [k1, k2] ∧ ORCA_MINT_ID ∉ [k1, k2] ∧ US ∉ [k1, k2])
    (hv : Spec.view L' ST VA = W) (hr : W.requests = V.requests) (held : balance L' UX = W.supply)
    (purse : balance L' UO + balance L' VA = 18446744073709551615) (thawed : readU8 (L' VA).data 108 = 1)
    (ux : TokenOk L' UX XORCA_MINT_ID US) (uo : TokenOk L' UO ORCA_MINT_ID US) : Holds L' W e l := by
  have eST := hf.other ST hne.1
  have eOM := hf.other ORCA_MINT_ID hne.2.1
  have eUS := hf.other US hne.2.2
  exact {
    init := initialised (by rw [eST]; exact h.init.2.1) (by rw [eST]; exact h.init.2.2)
    view := hv
    escrow := by rw [Spec.escrow, eST]; exact h.escrow
    held := held
    purse := purse
    thawed := thawed
    ux := ux
    uo := uo
    om := ⟨by rw [eOM]; exact h.om.1, by rw [eOM]; exact h.om.2, by rw [eOM]; exact h.om.3⟩
    us := by rw [eUS]; exact h.us
    nodup := h.nodup
    own := fun k r hk => by rw [hf.lamports]; rw [hr] at hk; exact h.own k r hk
    back := by rw [hr]; exact h.back
    cash := by rw [hf.lamports]; exact h.cash
    small := fun k hk => by rw [hf.lamports]; exact h.small k hk
    free := fun j hj hn => by
      rw [hr] at hn
      rw [hf.other j (fun hc => hj (by
        simp only [List.mem_cons, List.not_mem_nil, or_false] at hc
        rcases hc with rfl | rfl
        · exact hk.1
        · exact hk.2))]
      exact h.free j hj hn }

/-- Requests do not depend on token accounts. -/
theorem requestAt_token {ks : List Pubkey} (hf : DataFrame L L' ks) (ht : ∀ k ∈ ks, (L k).owner = SPL_TOKEN_PROGRAM_ID)
    (k : Pubkey) : requestAt L' k = requestAt L k := by
  by_cases hk : k ∈ ks
  · have h1 : ¬ IsRecord L k := fun hc => token_ne_program ((ht k hk).symm.trans hc.1)
    have h2 : ¬ IsRecord L' k := fun hc => token_ne_program ((ht k hk).symm.trans ((hf.owner k).symm.trans hc.1))
    rw [requestAt_none h1, requestAt_none h2]
  · unfold requestAt recOwner recIndex recAmount recTime
    rw [hf.other k hk]

theorem Holds.gift {d : UInt64} (h : Holds L V e l) (hr : Reachable cr L) (hd : V.backing + e + d.toNat < 2 ^ 64) :
    ∃ L', Outside cr L L' ∧ Holds L' { V with backing := V.backing + d.toNat } e l := by
  obtain ⟨f1, f2, f3, f4, f5, f6, f7, p⟩ := h.figures hr
  have hpurse := h.purse
  obtain ⟨L', ht⟩ := splTransfer_succeeds (L := L) (src := UO) (dst := VA) (auth := US) (amt := d)
    (by decide +kernel) (tokUsable_of h.uo)
    ⟨p.v_tok.prog, p.v_tok.len, h.thawed, p.v_tok.native, Or.inl p.v_tok.delegate, Or.inl p.v_tok.close⟩
    (h.uo.mint.trans p.v_mint.symm) h.uo.owner (Or.inl h.uo.undelegated) h.plain
    (by change _ ≤ balance L UO; omega) (by change balance L VA + _ < _; omega)
  have ef := splTransfer_eff (by decide +kernel) ht
  refine ⟨L', .token (rent := (ctx 0).rentMin) (sg := usSigns)
    (ix := .transfer UO VA US [] d none) rent_ne us_notPool (transfer_agrees (by decide) ht), ?_⟩
  obtain ⟨w1, q1, q2⟩ := ef.credit
  obtain ⟨w2, q3, q4⟩ := ef.debit
  have eXM := ef.frame.other XORCA_MINT_ID (by decide +kernel)
  have eST := ef.frame.other ST (by decide +kernel)
  have eUX := ef.frame.other UX (by decide +kernel)
  have b1 : balance L' VA = balance L VA + d.toNat := by
    rw [balance_of_writeAt (by rw [p.v_tok.len]; omega) q1, q2]; rfl
  have b2 : balance L' UO + d.toNat = balance L UO := by rw [balance_of_amountSet q3, q4]; rfl
  have hlen : 64 + (u64le w1).length ≤ (L VA).data.length := by rw [p.v_tok.len]; simp
  refine h.token ef.frame (by simp [taken]) (by decide +kernel) (view_ext ?_ ?_ ?_ ?_ ?_) rfl ?_ ?_ ?_ ?_ ?_
  · show supply L' XORCA_MINT_ID = V.supply
    rw [Spec.supply, eXM]; exact f1
  · show balance L' VA - Spec.escrow L' ST = V.backing + d.toNat
    have he := h.escrow
    rw [Spec.escrow, eST]
    change balance L' VA - Spec.escrow L ST = V.backing + d.toNat
    omega
  · show coolDown L' ST = V.coolDown
    rw [coolDown, eST]; exact f3
  · show authority L' ST = V.authority
    rw [authority, eST]; exact f4
  · intro k
    show requestAt L' k = V.requests k
    rw [requestAt_token ef.frame (by
      intro k hk
      simp only [List.mem_cons, List.not_mem_nil, or_false] at hk
      rcases hk with rfl | rfl
      · exact h.uo.prog
      · exact p.v_tok.prog)]
    exact f5 k
  · rw [balance, eUX]; exact h.held
  · omega
  · rw [q1, readU8_writeAt_apart hlen (by simp [Apart])]; exact h.thawed
  · exact h.ux.amount (by rw [eUX]) (by rw [eUX]; exact ⟨rfl, fun _ _ => rfl⟩)
  · exact tokenOk_amountSet h.uo (ef.frame.owner _) q3

theorem Holds.burn {b : UInt64} (h : Holds L V e l) (hr : Reachable cr L) (hb : b.toNat ≤ V.supply) :
    ∃ L', Outside cr L L' ∧ Holds L' { V with supply := V.supply - b.toNat } e l := by
  obtain ⟨f1, f2, f3, f4, f5, f6, f7, p⟩ := h.figures hr
  have hheld := h.held
  obtain ⟨L', ht⟩ := splBurn_succeeds (L := L) (src := UX) (mint := XORCA_MINT_ID) (auth := US) (amt := b)
    p.m_usable (tokUsable_of h.ux) h.ux.mint h.ux.owner (Or.inl h.ux.undelegated) h.plain
    (by change _ ≤ balance L UX; omega) (by change _ ≤ supply L XORCA_MINT_ID; omega)
  have ef := splBurn_eff ht
  refine ⟨L', .token (rent := (ctx 0).rentMin) (sg := usSigns)
    (ix := .burn UX XORCA_MINT_ID US [] b none) rent_ne us_notPool (burn_agrees (by decide) ht), ?_⟩
  obtain ⟨w1, q1, q2⟩ := ef.supply
  obtain ⟨w2, q3, q4⟩ := ef.debit
  have eVA := ef.frame.other VA (by decide +kernel)
  have eST := ef.frame.other ST (by decide +kernel)
  have eUO := ef.frame.other UO (by decide +kernel)
  have b1 : supply L' XORCA_MINT_ID + b.toNat = supply L XORCA_MINT_ID := by
    rw [supply_of_writeAt (by rw [p.mint.len]; omega) q1, q2]; rfl
  have b2 : balance L' UX + b.toNat = balance L UX := by rw [balance_of_amountSet q3, q4]; rfl
  refine h.token ef.frame (by simp [taken]) (by decide +kernel) (view_ext ?_ ?_ ?_ ?_ ?_) rfl ?_ ?_ ?_ ?_ ?_
  · show supply L' XORCA_MINT_ID = V.supply - b.toNat
    omega
  · show balance L' VA - Spec.escrow L' ST = V.backing
    rw [balance, eVA, Spec.escrow, eST]; exact f2
  · show coolDown L' ST = V.coolDown
    rw [coolDown, eST]; exact f3
  · show authority L' ST = V.authority
    rw [authority, eST]; exact f4
  · intro k
    show requestAt L' k = V.requests k
    rw [requestAt_token ef.frame (by
      intro k hk
      simp only [List.mem_cons, List.not_mem_nil, or_false] at hk
      rcases hk with rfl | rfl
      · exact h.ux.prog
      · exact p.mint.prog)]
    exact f5 k
  · show balance L' UX = V.supply - b.toNat
    omega
  · rw [balance, eUO, balance, eVA]; exact h.purse
  · rw [eVA]; exact h.thawed
  · exact tokenOk_amountSet h.ux (ef.frame.owner _) q3
  · exact h.uo.amount (by rw [eUO]) (by rw [eUO]; exact ⟨rfl, fun _ _ => rfl⟩)

/-- What else is used of the first call. -/
theorem zero_more : authority Z1 ST = US ∧ (∀ k ∈ taken, (Z1 k).lamports.toNat ≤ 3000000000) ∧
    (∀ k ∈ taken, ¬ ((Z1 k).owner = PROGRAM_ID ∧ 1024 ≤ (Z1 k).data.length ∧ readU8 (Z1 k).data 0 = 2)) ∧
    (Z1 US).lamports.toNat = 3000000000 := by decide +kernel

theorem z1_free {k : Pubkey} (hk : k ∉ taken) : Z1 k = ⟨0, SYSTEM_PROGRAM_ID, []⟩ := by
  have hs : SignersOk cr Z0 initAccs := signersOk zero.1.2.1
  have hr := runZ1
  unfold initAccs at hs hr
  obtain ⟨K, b, vb, r⟩ := hr.init
  have ho := (r.eff hs).other k (by
    simp only [taken, List.mem_cons, List.not_mem_nil, or_false, not_or] at hk ⊢
    exact ⟨hk.1, hk.2.2.2.2.2.2.1, hk.2.2.1⟩)
  rw [ho]
  simp only [taken, List.mem_cons, List.not_mem_nil, or_false, not_or] at hk
  obtain ⟨k1, k2, -, k4, k5, k6, -, k8⟩ := hk
  have hn : ∀ {j}, ¬ k = j → ¬ (j = k) := fun h e => h e.symm
  simp only [Z0, ledgerOf, List.find?_cons, hn k1, hn k2, hn k4, hn k5, hn k6, hn k8, decide_false, List.find?_nil]

/-- The new pool, and the user has all ORCA there can be. -/
theorem opened : ∃ g G, World cr Z0 g G ∧ Holds G ⟨0, 0, 100, US, fun _ => none⟩ 0 [] := by
  obtain ⟨n, hn⟩ : ∃ n : UInt64, n.toNat = 18446744073709551615 := ⟨18446744073709551615, by decide⟩
  obtain ⟨-, hi, ⟨f3, f4, f5, f6, f7, f7', f12⟩, hux, huo, hom, ⟨m1, m2, m3, m4⟩, ⟨hus, -, -⟩, -, -⟩ := zero
  obtain ⟨y1, y2, y3, y4⟩ := zero_more
  have hms : ¬ ((Z1 US).owner = SPL_TOKEN_PROGRAM_ID ∧ (Z1 US).data.length = 355) := fun hc => by
    have := hc.1
    rw [hus.1] at this
    exact absurd this (by decide +kernel)
  obtain ⟨L', h⟩ := splMintTo_succeeds (L := Z1) (mint := ORCA_MINT_ID) (dst := UO) (auth := US) (amt := n)
    ⟨hom.prog, hom.len, hom.init, Or.inr m1, Or.inl m4⟩ (tokUsable_of huo) huo.mint m1 m2 hms
    (by change balance Z1 UO + _ < _; rw [f7', hn]; omega) (by change Spec.supply Z1 ORCA_MINT_ID + _ < _; rw [m3, hn]; omega)
  have ef := splMintTo_eff h
  have hw : World cr Z0 _ L' := world_out worldZ1 (.token (rent := (ctx 0).rentMin) (sg := usSigns)
    (ix := .mintTo ORCA_MINT_ID UO US [] n none) rent_ne us_notPool (mintTo_agrees (by decide) h))
  obtain ⟨w1, p1, p2⟩ := ef.supply
  obtain ⟨w2, q1, q2⟩ := ef.credit
  have hoth : ∀ k, k ∉ [ORCA_MINT_ID, UO] → L' k = Z1 k := ef.frame.other
  have eVA := hoth VA (by decide +kernel)
  have eUX := hoth UX (by decide +kernel)
  have eXM := hoth XORCA_MINT_ID (by decide +kernel)
  have eST := hoth ST (by decide +kernel)
  have eUS := hoth US (by decide +kernel)
  have hl : 64 + (u64le w2).length ≤ (Z1 UO).data.length := by rw [huo.len]; simp
  have hl' : 36 + (u64le w1).length ≤ (Z1 ORCA_MINT_ID).data.length := by rw [hom.len]; simp
  refine ⟨_, L', hw, ?_⟩
  have hreq : ∀ k, requestAt L' k = none := fun k => by
    rw [requestAt_token ef.frame (by
      intro k hk
      simp only [List.mem_cons, List.not_mem_nil, or_false] at hk
      rcases hk with rfl | rfl
      · exact hom.prog
      · exact huo.prog)]
    apply requestAt_none
    by_cases hk : k ∈ taken
    · exact y3 k hk
    · intro hc
      have := hc.1
      rw [z1_free hk] at this
      exact system_ne_program this
  exact {
    init := initialised (by rw [eST]; exact hi.1) (by rw [eST]; exact hi.2)
    view := view_ext (by show supply L' XORCA_MINT_ID = 0; rw [Spec.supply, eXM]; exact f5)
      (by show balance L' VA - Spec.escrow L' ST = 0; rw [balance, eVA]; change balance Z1 VA - _ = 0; rw [f4]; omega)
      (by show coolDown L' ST = 100; rw [coolDown, eST]; exact f12)
      (by show authority L' ST = US; rw [authority, eST]; exact y1) hreq
    escrow := by rw [Spec.escrow, eST]; exact f6
    held := by rw [balance, eUX]; exact f7
    purse := by
      have h1 : balance L' VA = 0 := by rw [balance, eVA]; exact f4
      have h2 : w2.toNat = balance Z1 UO + n.toNat := q2
      rw [h1, balance_of_writeAt (by rw [huo.len]; omega) q1, h2, f7', hn]
    thawed := by rw [eVA]; exact f3
    ux := hux.amount (by rw [eUX]) (by rw [eUX]; exact ⟨rfl, fun _ _ => rfl⟩)
    uo := huo.amount (ef.frame.owner _) (by
      rw [q1]
      have := sameExcept_writeAt hl
      simpa using this)
    om := ⟨(ef.frame.owner _).trans hom.prog, by rw [p1, writeAt_length hl']; exact hom.len, by
      rw [p1, readU8_writeAt_apart hl' (by simp [Apart])]; exact hom.init⟩
    us := by rw [eUS]; exact hus
    nodup := List.nodup_nil
    own := fun k r hk => by cases hk
    back := fun i hi => by cases hi
    cash := by rw [eUS, List.length_nil, Nat.mul_zero, Nat.add_zero]; exact y4
    small := fun k hk => by rw [ef.frame.lamports]; exact y2 k hk
    free := fun k hk _ => by
      rw [hoth k (fun hc => hk (by
        simp only [List.mem_cons, List.not_mem_nil, or_false] at hc
        rcases hc with rfl | rfl <;> simp [taken]))]
      exact z1_free hk }

/-- Every plan is carried out. -/
theorem carried {g : List Entry} {G : Ledger} (hg : World cr Z0 g G) (h0 : Holds G ⟨0, 0, 100, US, fun _ => none⟩ 0 [])
    {acts : List Act} (hp : Plan acts V e) :
    ∃ h L l, World cr Z0 (h ++ g) L ∧ World cr G h L ∧ List.Forall₂ Does h acts ∧ Holds L V e l := by
  have reach : ∀ {h L}, World cr Z0 (h ++ g) L → Reachable cr L := fun hw =>
    ⟨_, _, genesisZ, (world_path steadyZ hw).1⟩
  induction hp with
  | start => exact ⟨[], G, [], hg, .nil, .nil, h0⟩
  | stake _ hm hf ih =>
    obtain ⟨h, L, l, w1, w2, hd, hh⟩ := ih
    obtain ⟨L', logs, hrun, hh'⟩ := hh.stake (reach w1) hm hf
    exact ⟨_ :: h, L', _, world_call w1 (hh.sig only_us) hh.fit hrun, world_call w2 (hh.sig only_us) hh.fit hrun,
      .cons ⟨logs, rfl⟩ hd, hh'⟩
  | unstake _ h1 h2 h3 h4 h5 h6 h7 ih =>
    obtain ⟨h, L, l, w1, w2, hd, hh⟩ := ih
    rw [← cr_eq] at h1
    obtain ⟨L', logs, hrun, hh'⟩ := hh.unstake (reach w1) h1 h2 h3 h4 h5 h6 h7
    exact ⟨_ :: h, L', _, world_call w1 (hh.sig (only_us' _)) hh.fit hrun, world_call w2 (hh.sig (only_us' _)) hh.fit hrun,
      .cons ⟨logs, rfl⟩ hd, hh'⟩
  | withdraw _ h1 hi h2 ih =>
    subst hi
    obtain ⟨h, L, l, w1, w2, hd, hh⟩ := ih
    obtain ⟨L', logs, hrun, hh'⟩ := hh.withdraw (reach w1) h1 h2
    exact ⟨_ :: h, L', _, world_call w1 (hh.sig (only_us_withdraw _)) hh.fit hrun,
      world_call w2 (hh.sig (only_us_withdraw _)) hh.fit hrun, .cons ⟨logs, rfl⟩ hd, hh'⟩
  | setCoolDown _ h1 h2 ih =>
    obtain ⟨h, L, l, w1, w2, hd, hh⟩ := ih
    obtain ⟨L', logs, hrun, hh'⟩ := hh.setCoolDown (reach w1) h1 h2
    exact ⟨_ :: h, L', _, world_call w1 (hh.sig only_us_set) hh.fit hrun, world_call w2 (hh.sig only_us_set) hh.fit hrun,
      .cons ⟨logs, rfl⟩ hd, hh'⟩
  | setAuthority _ h1 ih =>
    obtain ⟨h, L, l, w1, w2, hd, hh⟩ := ih
    obtain ⟨L', logs, hrun, hh'⟩ := hh.setAuthority (reach w1) h1
    exact ⟨_ :: h, L', _, world_call w1 (hh.sig only_us_set) hh.fit hrun, world_call w2 (hh.sig only_us_set) hh.fit hrun,
      .cons ⟨logs, rfl⟩ hd, hh'⟩
  | gift _ h1 ih =>
    obtain ⟨h, L, l, w1, w2, hd, hh⟩ := ih
    obtain ⟨L', ho, hh'⟩ := hh.gift (reach w1) h1
    exact ⟨_ :: h, L', _, world_out w1 ho, world_out w2 ho, .cons rfl hd, hh'⟩
  | burn _ h1 ih =>
    obtain ⟨h, L, l, w1, w2, hd, hh⟩ := ih
    obtain ⟨L', ho, hh'⟩ := hh.burn (reach w1) h1
    exact ⟨_ :: h, L', _, world_out w1 ho, world_out w2 ho, .cons rfl hd, hh'⟩

/-- The acts determine the figures. -/
theorem plan_unique {acts : List Act} {V V' : View} {e e' : Nat} (h : Plan acts V e) (h' : Plan acts V' e') :
    V = V' ∧ e = e' := by
  induction h generalizing V' e' with
  | start => cases h'; exact ⟨rfl, rfl⟩
  | withdraw _ h1 _ _ ih =>
    cases h' with
    | withdraw p h2 _ _ =>
      obtain ⟨rfl, rfl⟩ := ih p
      rw [h1] at h2
      cases h2
      exact ⟨rfl, rfl⟩
  | stake _ _ _ ih => cases h' with | stake p => obtain ⟨rfl, rfl⟩ := ih p; exact ⟨rfl, rfl⟩
  | unstake _ _ _ _ _ _ _ _ ih => cases h' with | unstake p => obtain ⟨rfl, rfl⟩ := ih p; exact ⟨rfl, rfl⟩
  | setCoolDown _ _ _ ih => cases h' with | setCoolDown p => obtain ⟨rfl, rfl⟩ := ih p; exact ⟨rfl, rfl⟩
  | setAuthority _ _ ih => cases h' with | setAuthority p => obtain ⟨rfl, rfl⟩ := ih p; exact ⟨rfl, rfl⟩
  | gift _ _ ih => cases h' with | gift p => obtain ⟨rfl, rfl⟩ := ih p; exact ⟨rfl, rfl⟩
  | burn _ _ ih => cases h' with | burn p => obtain ⟨rfl, rfl⟩ := ih p; exact ⟨rfl, rfl⟩

/-- The program accepts no other calls. -/
theorem accepts {acts : List Act} {act : Act} {accs : List Meta} {ix : Instruction} (h : Holds L V e l) (hr : Reachable cr L)
    (hp : Plan acts V e) (hc : act.call = some (t, accs, ix)) (hcl : NoClash V act) :
    Succeeds (ctx t) L accs ix ↔ ∃ V' e', Plan (act :: acts) V' e' := by
  obtain ⟨f1, f2, f3, f4, f5, f6, f7, p⟩ := h.figures hr
  have hpurse := h.purse
  cases act with
  | stake t' a =>
    cases hc
    constructor
    · intro hs
      have hsig := h.sig only_us
      unfold stakeAccs at hs hsig
      obtain ⟨-, -, -, -, -, -, c1, c2, c3, -⟩ := (C58_stake_accepted_iff hr rfl hsig h.uo h.ux).1 hs
      simp only at c1 c2 c3
      rw [f1, f2] at c2
      exact ⟨_, _, .stake hp c2 (by omega)⟩
    · rintro ⟨V', e', hp'⟩
      cases hp' with
      | stake q h1 h2 =>
        obtain ⟨rfl, rfl⟩ := plan_unique hp q
        obtain ⟨L', logs, hrun, -⟩ := h.stake hr h1 h2
        exact succeeds_iff.2 ⟨_, _, hrun⟩
  | unstake t' a i k =>
    cases hc
    constructor
    · intro hs
      have hsig := h.sig (only_us' k)
      unfold unstakeAccs at hs hsig
      obtain ⟨-, -, -, ⟨b, hb⟩, hbl, -, -, c0, -, c1, c2, c3⟩ :=
        (C58_unstake_accepted_iff hr rfl hsig h.ux h.om h.us).1 hs
      simp only at hb hbl c1 c2 c3
      rw [f1] at c1
      rw [f2] at c2
      rw [f3] at c3
      obtain ⟨n1, n2⟩ := record_offCurve hb
      have sys : ∀ {j q}, (L j).owner = q → SYSTEM_PROGRAM_ID ≠ q → k ≠ j := fun h1 h2 e =>
        h2 (hbl.1.symm.trans (by rw [e]; exact h1))
      have tok : SYSTEM_PROGRAM_ID ≠ SPL_TOKEN_PROGRAM_ID := by decide +kernel
      have hk : k ∉ taken := by
        simp only [taken, List.mem_cons, List.not_mem_nil, or_false, not_or]
        exact ⟨n1, n2, sys p.v_tok.prog tok, sys h.uo.prog tok, sys h.ux.prog tok, sys p.mint.prog tok,
          sys h.init.2.1 system_ne_program, sys h.om.prog tok⟩
      have hf : V.requests k = none := by
        rw [← f5 k]
        exact requestAt_none fun hc => system_ne_program (hbl.1.symm.trans hc.1)
      rw [cr_eq] at hb
      exact ⟨_, _, .unstake hp hb hk hf c0 c1 c2 c3⟩
    · rintro ⟨V', e', hp'⟩
      cases hp' with
      | unstake q h1 h2 h3 h4 h5 h6 h7 =>
        obtain ⟨rfl, rfl⟩ := plan_unique hp q
        rw [← cr_eq] at h1
        obtain ⟨L', logs, hrun, -⟩ := h.unstake hr h1 h2 h3 h4 h5 h6 h7
        exact succeeds_iff.2 ⟨_, _, hrun⟩
  | withdraw t' i k =>
    cases hc
    constructor
    · intro hs
      have hsig := h.sig (only_us_withdraw k)
      obtain ⟨L', logs, hrun⟩ := succeeds_iff.1 hs
      have hv := h.step hr hsig hrun
      cases hr' : V.requests k with
      | none =>
        exfalso
        generalize Spec.view L' ST VA = W at hv
        cases hv with
        | @withdraw _ _ _ _ u k' r' _ signed at_ req =>
        obtain ⟨m', hm', rfl⟩ := at_
        simp only [withdrawAccs, List.getElem?_cons_zero, List.getElem?_cons_succ, Option.some.injEq] at hm'
        subst hm'
        rw [hr'] at req
        cases req
      | some r =>
        generalize Spec.view L' ST VA = W at hv
        cases hv with
        | @withdraw _ _ _ _ u k' r' b signed at_ req due own =>
        obtain ⟨m, hm, rfl, -⟩ := signed
        obtain ⟨m', hm', rfl⟩ := at_
        simp only [withdrawAccs, List.getElem?_cons_zero, List.getElem?_cons_succ, Option.some.injEq] at hm hm'
        subst hm hm'
        rw [hr'] at req
        cases req
        rcases own with ⟨-, rfl⟩ | hcl'
        · exact ⟨_, _, .withdraw hp hr' rfl due⟩
        · rw [(h.own k r hr').1, cr_eq] at hcl'
          exact absurd hcl' (hcl r b hr')
    · rintro ⟨V', e', hp'⟩
      cases hp' with
      | withdraw q h1 hi h2 =>
        subst hi
        obtain ⟨rfl, rfl⟩ := plan_unique hp q
        obtain ⟨L', logs, hrun, -⟩ := h.withdraw hr h1 h2
        exact succeeds_iff.2 ⟨_, _, hrun⟩
  | setCoolDown t' c =>
    cases hc
    unfold setAccs
    rw [C58_set_accepted_iff hr rfl]
    constructor
    · rintro ⟨-, -, h1, h2⟩
      exact ⟨_, _, .setCoolDown hp (f4.symm.trans h1.symm) (h2 c rfl)⟩
    · rintro ⟨V', e', hp'⟩
      cases hp' with
      | setCoolDown q h1 h2 =>
        obtain ⟨rfl, rfl⟩ := plan_unique hp q
        exact ⟨⟨⟨[], rfl⟩, rfl, rfl, rfl⟩, h.init, (f4.trans h1).symm, fun c' hc' => by cases hc'; exact h2⟩
  | setAuthority t' n =>
    cases hc
    unfold setAccs
    rw [C58_set_accepted_iff hr rfl]
    constructor
    · rintro ⟨-, -, h1, h2⟩
      exact ⟨_, _, .setAuthority hp (f4.symm.trans h1.symm)⟩
    · rintro ⟨V', e', hp'⟩
      cases hp' with
      | setAuthority q h1 =>
        obtain ⟨rfl, rfl⟩ := plan_unique hp q
        exact ⟨⟨⟨[], rfl⟩, rfl, rfl, rfl⟩, h.init, (f4.trans h1).symm, fun c' hc' => by cases hc'⟩
  | gift d => cases hc
  | burn b => cases hc

end Xorca.Demo
