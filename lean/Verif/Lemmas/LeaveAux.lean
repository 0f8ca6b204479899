import Verif.Lemmas.PlanAux
import Verif.Lemmas.YieldAux
import Verif.Leave
/-
Lemmas for C116: whatever the user has planned, they can go on to take everything out.
-/
namespace Xorca.Demo
open Xorca.Spec

variable {L : Ledger} {V V' : View} {e e' : Nat} {l : List UInt8} {acts : List Act}

/-- The open requests of a plan, and when they are due. -/
structure Books (V : View) (e : Nat) (ks : List Pubkey) : Prop where
  nodup : ks.Nodup
  mem : ∀ k, k ∈ ks ↔ ∃ r, V.requests k = some r
  sum : (ks.map fun k => ((V.requests k).map Request.amount).getD 0).sum = e

theorem map_put {f : Pubkey → Option Request} {ks : List Pubkey} {k : Pubkey} {r : Option Request} (h : k ∉ ks) :
    ks.map (fun j => ((putRequest f k r j).map Request.amount).getD 0) = ks.map fun j => ((f j).map Request.amount).getD 0 := by
  apply List.map_congr_left
  intro j hj
  have he : j ≠ k := fun he => h (he ▸ hj)
  rw [putRequest, if_neg he]

theorem books (hp : Plan acts V e) : ∃ ks, Books V e ks := by
  induction hp with
  | start => exact ⟨[], List.nodup_nil, fun k => by simp, rfl⟩
  | @unstake l V e t a i k b _ _ _ hf _ _ _ _ ih =>
    obtain ⟨ks, h1, h2, h3⟩ := ih
    have hk : k ∉ ks := fun hc => by
      obtain ⟨r, hr⟩ := (h2 k).1 hc
      rw [hf] at hr
      cases hr
    refine ⟨k :: ks, List.nodup_cons.2 ⟨hk, h1⟩, fun j => ?_, ?_⟩
    · rw [List.mem_cons, h2 j]
      simp only [putRequest]
      by_cases hj : j = k
      · simp [hj]
      · simp [hj]
    · simp only [List.map_cons, List.sum_cons]
      rw [map_put hk, h3]
      simp [putRequest]
      omega
  | @withdraw l V e t i k r _ hr _ _ ih =>
    obtain ⟨ks, h1, h2, h3⟩ := ih
    have hk : k ∈ ks := (h2 k).2 ⟨r, hr⟩
    refine ⟨ks.erase k, h1.erase k, fun j => ?_, ?_⟩
    · rw [h1.mem_erase_iff, h2 j]
      simp only [putRequest]
      by_cases hj : j = k
      · simp [hj]
      · simp [hj]
    · show ((ks.erase k).map fun j => ((putRequest V.requests k none j).map Request.amount).getD 0).sum = _
      rw [map_put h1.not_mem_erase]
      have := (List.perm_cons_erase hk).map (fun j => ((V.requests j).map Request.amount).getD 0)
      have := this.sum_eq
      rw [h3, List.map_cons, List.sum_cons, hr] at this
      simp only [Option.map_some, Option.getD_some] at this
      omega
  | stake _ _ _ ih => obtain ⟨ks, h1, h2, h3⟩ := ih; exact ⟨ks, h1, h2, h3⟩
  | setCoolDown _ _ _ ih => obtain ⟨ks, h1, h2, h3⟩ := ih; exact ⟨ks, h1, h2, h3⟩
  | setAuthority _ _ ih => obtain ⟨ks, h1, h2, h3⟩ := ih; exact ⟨ks, h1, h2, h3⟩
  | gift _ _ ih => obtain ⟨ks, h1, h2, h3⟩ := ih; exact ⟨ks, h1, h2, h3⟩
  | burn _ _ ih => obtain ⟨ks, h1, h2, h3⟩ := ih; exact ⟨ks, h1, h2, h3⟩

/-- All open requests can be paid. -/
theorem withdraw_all {t : Int64} (ks : List Pubkey) (hp : Plan acts V e) (hb : Books V e ks)
    (hd : ∀ k r, V.requests k = some r → r.due ≤ t.toInt) :
    ∃ ws, Plan (ws ++ acts) ⟨V.supply, V.backing, V.coolDown, V.authority, fun _ => none⟩ 0 ∧
      ∀ w ∈ ws, w.takesOut = some t := by
  induction ks generalizing V e acts with
  | nil =>
    obtain ⟨-, h2, h3⟩ := hb
    have hn : V.requests = fun _ => none := funext fun k => by
      cases hr : V.requests k with
      | none => rfl
      | some r => exact absurd ((h2 k).2 ⟨r, hr⟩) (by simp)
    cases h3
    refine ⟨[], ?_, by simp⟩
    rw [← hn]
    exact hp
  | cons k ks ih =>
    obtain ⟨h1, h2, h3⟩ := hb
    obtain ⟨hk, h1⟩ := List.nodup_cons.1 h1
    obtain ⟨r, hr⟩ := (h2 k).1 (List.mem_cons_self ..)
    have hp' := Plan.withdraw (t := t) hp hr rfl (hd k r hr)
    rw [List.map_cons, List.sum_cons, hr] at h3
    simp only [Option.map_some, Option.getD_some] at h3
    obtain ⟨ws, hw, hws⟩ := ih hp' ⟨h1, fun j => by
        have := h2 j
        rw [List.mem_cons] at this
        simp only [putRequest]
        by_cases hj : j = k
        · subst hj; simp [hk]
        · simp only [hj, false_or] at this; simp only [hj, if_false]; exact this, by
        show ((ks.map fun j => ((putRequest V.requests k none j).map Request.amount).getD 0)).sum = _
        rw [map_put hk]
        omega⟩ (fun j r' hj => by
        simp only [putRequest] at hj
        split at hj
        · cases hj
        · exact hd j r' hj)
    refine ⟨ws ++ [.withdraw t r.index k], ?_, ?_⟩
    · rw [List.append_assoc]; exact hw
    · intro w hw
      rcases List.mem_append.1 hw with h | h
      · exact hws w h
      · rw [List.mem_singleton.1 h]; rfl

/-- One unstake and its payment, at an address that is free. -/
theorem out_and_paid {t t' : Int64} {n : Nat} {S B : Nat} {c : Int} {au : Pubkey}
    (hp : Plan acts ⟨S, B, c, au, fun _ => none⟩ 0) (h0 : 0 < n) (hn : n ≤ S) (h64 : n < 2 ^ 64)
    (hfit : n * (B + 100) < 2 ^ 128) (ht : t.toInt + c ≤ t'.toInt) :
    ∃ w u, Plan (w :: u :: acts) ⟨S - n, B - redeemFor n B S, c, au, fun _ => none⟩ 0 ∧ u.takesOut = some t ∧
      w.takesOut = some t' := by
  obtain ⟨a, rfl⟩ : ∃ a : UInt64, a.toNat = n := ⟨UInt64.ofNat n, UInt64.toNat_ofNat_of_lt' h64⟩
  have hlt := Int64.toInt_lt t'
  have p1 := Plan.unstake (t := t) (a := a) hp (by rw [← cr_eq]; exact r255_addr) (by decide +kernel) rfl h0 hn hfit
    (by show t.toInt + c < 2 ^ 63; omega)
  have p2 := Plan.withdraw (t := t') p1 (if_pos rfl) rfl ht
  refine ⟨.withdraw t' 255 R255, .unstake t a 255 R255, ?_, rfl, rfl⟩
  convert p2 using 2
  · funext j
    simp only [putRequest]
    split <;> rfl
  · simp

theorem two_parts {S B n q r : Nat} (hB : S ≤ B) (hn : n ≤ S) (hq : n * (B + 100) < (q + 1) * (S + 100))
    (hq' : q ≤ B) (hS' : S - n ≤ B - q)
    (hr : r * (S - n + 100) < 100 * (B - q - (S - n)) + (S - n + 100)) :
    r * (S + 100) < 100 * (B - S) + 2 * (S + 100) := by
  obtain ⟨m, rfl⟩ := Nat.exists_eq_add_of_le hn
  obtain ⟨d, rfl⟩ := Nat.exists_eq_add_of_le hB
  obtain ⟨g, hg⟩ := Nat.exists_eq_add_of_le hq'
  rw [Nat.add_sub_cancel_left] at hS' hr
  have e1 : n + m + d - q = g := by omega
  rw [e1] at hS' hr
  obtain ⟨f, rfl⟩ := Nat.exists_eq_add_of_le hS'
  rw [Nat.add_sub_cancel_left] at hr ⊢
  -- q = n + d - f
  have e2 : n + d = q + f := by omega
  by_contra hc
  push Not at hc
  -- multiply out
  have k1 : f * (n + m + 100) < d * (m + 100) + (n + m + 100) := by
    have e3 : d = q + f - n := by omega
    zify at hq hg e2 ⊢
    nlinarith
  have k2 : (100 * d + 2 * (n + m + 100)) * (m + 100) ≤ r * (n + m + 100) * (m + 100) := Nat.mul_le_mul_right _ hc
  have k3 : r * (m + 100) * (n + m + 100) < (100 * f + (m + 100)) * (n + m + 100) :=
    (Nat.mul_lt_mul_right (by omega)).2 hr
  nlinarith

/-- From any plan everything can be taken out, in three waves. -/
theorem drained {t1 t2 t3 : Int64} (hp : Plan acts V e) (hS : V.supply ≤ V.backing) (hB : V.backing < 2 ^ 64)
    (hd : ∀ k r, V.requests k = some r → r.due ≤ t1.toInt) (h12 : t1.toInt + V.coolDown ≤ t2.toInt)
    (h23 : t2.toInt + V.coolDown ≤ t3.toInt) :
    ∃ m1 m2 m3 V', Plan (m3 ++ m2 ++ m1 ++ acts) V' 0 ∧ (∀ m ∈ m1, m.takesOut = some t1) ∧
      (∀ m ∈ m2, m.takesOut = some t2) ∧ (∀ m ∈ m3, m.takesOut = some t3) ∧ V'.supply = 0 ∧
      (∀ k, V'.requests k = none) ∧ V'.backing * (V.supply + 100) < 100 * (V.backing - V.supply) + 2 * (V.supply + 100) := by
  obtain ⟨ks, hb⟩ := books hp
  obtain ⟨ws, hw, hws⟩ := withdraw_all ks hp hb hd
  obtain ⟨S, B, c, au, req⟩ := V
  simp only at *
  by_cases h0 : S = 0
  · subst h0
    refine ⟨ws, [], [], _, hw, hws, by simp, by simp, rfl, fun _ => rfl, ?_⟩
    simp only
    omega
  by_cases hf : S * (B + 100) < 2 ^ 128
  · obtain ⟨w, u, hq, hu, hw'⟩ := out_and_paid hw (by omega) (le_refl S) (by omega) hf h12
    refine ⟨u :: ws, [w], [], _, hq, ?_, ?_, by simp, Nat.sub_self S, fun _ => rfl, ?_⟩
    · intro m hm
      rcases List.mem_cons.1 hm with rfl | h
      · exact hu
      · exact hws m h
    · intro m hm
      rw [List.mem_singleton.1 hm]
      exact hw'
    · have := (residue hS).1
      simp only
      omega
  · have hS2 : 2 ≤ S := by
      by_contra hc
      have : S = 1 := by omega
      subst this
      omega
    have hn : S / 2 ≤ S := Nat.div_le_self ..
    have hfit : ∀ {n m : Nat}, n ≤ 2 ^ 63 → m < 2 ^ 64 → n * (m + 100) < 2 ^ 128 := fun {n m} h1 h2 => by
      have := Nat.mul_le_mul h1 (show m + 100 ≤ 2 ^ 64 + 99 by omega)
      omega
    obtain ⟨w, u, hq, hu, hw'⟩ := out_and_paid (n := S / 2) hw (by omega) hn (by omega) (hfit (by omega) hB) h12
    have g1 := redeemFor_le hS hn
    have g2 := redeem_backing hS hn
    have g3 := lt_redeemFor_succ_mul (S / 2) B S
    obtain ⟨w2, u2, hq2, hu2, hw2⟩ := out_and_paid (n := S - S / 2) hq (by omega) (le_refl _) (by omega)
      (hfit (by omega) (by omega)) h23
    refine ⟨u :: ws, [u2, w], [w2], _, hq2, ?_, ?_, ?_, Nat.sub_self _, fun _ => rfl, ?_⟩
    · intro m hm
      rcases List.mem_cons.1 hm with rfl | h
      · exact hu
      · exact hws m h
    · intro m hm
      simp only [List.mem_cons, List.not_mem_nil, or_false] at hm
      rcases hm with rfl | rfl
      · exact hu2
      · exact hw'
    · intro m hm
      rw [List.mem_singleton.1 hm]
      exact hw2
    · exact two_parts hS hn g3 g1 g2 (residue g2).1

/-- One more act of taking out is carried out from the present ledger. -/
theorem carry_one {h : List Entry} {act : Act} {t : Int64} (hw : World cr Z0 h L) (hh : Holds L V e l) (hp : Plan acts V e)
    (hq : Plan (act :: acts) V' e') (ht : act.takesOut = some t) :
    ∃ en : Entry, en.pre = L ∧ en.Real cr ∧ Does en act ∧ ∃ l', Holds en.post V' e' l' := by
  have hr : Reachable cr L := ⟨_, _, genesisZ, (world_path steadyZ hw).1⟩
  cases hq with
  | unstake q h1 h2 h3 h4 h5 h6 h7 =>
    obtain ⟨rfl, rfl⟩ := plan_unique hp q
    rw [← cr_eq] at h1
    obtain ⟨L', logs, hrun, hh'⟩ := hh.unstake hr h1 h2 h3 h4 h5 h6 h7
    exact ⟨⟨L, .call (ctx _) _ _ logs, L'⟩, rfl, .call rfl rent_ne (hh.sig (only_us' _)) hh.fit hrun, ⟨logs, rfl⟩, _, hh'⟩
  | withdraw q h1 hi h2 =>
    obtain ⟨rfl, rfl⟩ := plan_unique hp q
    subst hi
    obtain ⟨L', logs, hrun, hh'⟩ := hh.withdraw hr h1 h2
    exact ⟨⟨L, .call (ctx _) _ _ logs, L'⟩, rfl, .call rfl rent_ne (hh.sig (only_us_withdraw _)) hh.fit hrun, ⟨logs, rfl⟩, _,
      hh'⟩
  | stake => cases ht
  | setCoolDown => cases ht
  | setAuthority => cases ht
  | gift => cases ht
  | burn => cases ht

theorem plan_tail {act : Act} (h : Plan (act :: acts) V e) : ∃ V' e', Plan acts V' e' := by
  cases h <;> exact ⟨_, _, ‹_›⟩

/-- All of them are. -/
theorem carry_on {h : List Entry} {more : List Act} (hw : World cr Z0 h L) (hh : Holds L V e l) (hp : Plan acts V e)
    (hq : Plan (more ++ acts) V' e') (ht : ∀ m ∈ more, ∃ t, m.takesOut = some t) :
    ∃ h' L' l', World cr Z0 (h' ++ h) L' ∧ World cr L h' L' ∧ List.Forall₂ Does h' more ∧ Holds L' V' e' l' := by
  induction more generalizing V' e' with
  | nil =>
    obtain ⟨rfl, rfl⟩ := plan_unique hp hq
    exact ⟨[], L, l, hw, .nil, .nil, hh⟩
  | cons m more ih =>
    obtain ⟨V1, e1, hq1⟩ := plan_tail hq
    obtain ⟨h', L', l', w1, w2, hd, hh'⟩ := ih hq1 fun m hm => ht m (List.mem_cons_of_mem _ hm)
    obtain ⟨t, hm⟩ := ht m (List.mem_cons_self ..)
    obtain ⟨en, rfl, hen, hdo, l2, hh2⟩ := carry_one w1 hh' hq1 hq hm
    exact ⟨en :: h', en.post, l2, .step w1 hen, .step w2 hen, .cons hdo hd, hh2⟩

end Xorca.Demo
