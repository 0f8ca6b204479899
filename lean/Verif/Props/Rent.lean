import Verif.Lemmas.Rent
import Verif.Props.Histories
import Verif.Props.Invariants
import Verif.Lemmas.DemoCalls
/-
C87: the rent deposits of the program's accounts.
-/
namespace Xorca
open Spec

variable {cr : Crypto} {L L' : Ledger} {st k : Pubkey} {h : List Entry}

/-- An open record holds, in every history, at least the rent-exempt minimum for its size that was in force when it was
made; until it is paid nobody can take a lamport out of it. -/
theorem C87_record_stays_rent_exempt (hh : Hist cr h L) (hr : IsRecord L k) :
    ∃ h2 e h1 u st i now x accs ix logs, h = h2 ++ e :: h1 ∧ Creates e k u st i now ∧ e.label = .call x accs ix logs ∧
      (L k).data.length = 1024 ∧ (x.rentMin 1024).toNat ≤ (L k).lamports.toNat ∧
      (e.post k).lamports.toNat ≤ (L k).lamports.toNat := by
  obtain ⟨h2, e, h1, u, st, i, now, rfl, hc, hn, hd⟩ := hh.origin hr
  obtain ⟨hh1, ok, hp⟩ := hh.split
  obtain ⟨x, accs, ix, logs, hl, hm, hlen, -⟩ := hc.rent ok
  have cf := hc.facts ok hh1.inv
  have := hp.record_lamports (ok.inv hh1.inv).1 cf.record hn
  exact ⟨h2, e, h1, u, st, i, now, x, accs, ix, logs, rfl, hc, hl, by rw [hd, hlen], by omega, this⟩

/-- The same for the state: it keeps for ever what it had at any time. -/
theorem C87_state_stays_rent_exempt (hr : Reachable cr L) (hi : Initialised cr L st) (hp : Path cr L h L') :
    (L st).lamports.toNat ≤ (L' st).lamports.toNat ∧ (L' st).data.length = (L st).data.length := by
  obtain ⟨v, p⟩ := hr.inv.ofInitialised hi
  refine ⟨hp.state_lamports hr.inv p, ?_⟩
  rw [p.acc.len, ((hp.inv hr.inv).2 st v p).acc.len]

/-- And Initialize gives it at least the minimum. -/
theorem C87_state_created_rent_exempt {e : Entry} {x : Ctx} {accs : List Meta} {c : Int64} {logs : List Bytes}
    (ok : e.Ok cr) (hr : Reachable cr e.pre) (hl : e.label = .call x accs (.Initialize c) logs) :
    ∃ st v, accs[2]? = some st ∧ accs[3]? = some v ∧ (e.post st.key).data.length = 2048 ∧
      (x.rentMin 2048).toNat ≤ (e.post st.key).lamports.toNat ∧ (e.post v.key).data.length = 165 ∧
      (x.rentMin 165).toNat ≤ (e.post v.key).lamports.toNat := by
  cases ok with
  | env s => cases hl
  | @call x accs ix logs L L' hcr hrent hs hrun =>
    cases hl
    subst hcr
    obtain ⟨p, au, st, v, xm, om, sp, tp, ap, L1, b, vb, r, f, hbl, p', i', -⟩ :=
      hr.inv.initialize hrent hs hrun.dispatch
    obtain ⟨rest, ha⟩ := r.accs_eq
    obtain ⟨a0, a1, a2, a3⟩ := getElem?_of_cons9 ha
    obtain ⟨l1, g1, g2⟩ := f.st_new
    obtain ⟨l2, g3, g4⟩ := f.v_new
    refine ⟨st, v, a2, a3, p'.acc.len, ?_, ?_, ?_⟩
    · show _ ≤ (L' st.key).lamports.toNat
      rw [g1]; simp only; omega
    · exact p'.v_tok.len
    · show _ ≤ (L' v.key).lamports.toNat
      rw [g3]; simp only; omega

/-- What a user pays in rent for a record comes back in full.  Whatever happens between the Unstake and the Withdraw,
the Withdraw hands over all lamports of the record, at least the user's deposit and what lay there before. -/
theorem C87_deposit_comes_back {h3 h1 : List Entry} {e : Entry} {u oa : Pubkey} {i : UInt8} {now : Int}
    (hh : Hist cr (h3 ++ e :: h1) L) (hp : Pays e k u oa i now) :
    (e.post u).lamports = (e.pre u).lamports + (e.pre k).lamports ∧ (e.post k).lamports = 0 ∧
    ∃ h2 e0 h0 u0 st i0 now0, h1 = h2 ++ e0 :: h0 ∧ Creates e0 k u0 st i0 now0 ∧
      (e0.pre u0).lamports.toNat - (e0.post u0).lamports.toNat + (e0.pre k).lamports.toNat ≤ (e.pre k).lamports.toNat ∧
      ((u = u0 ∧ i = i0) ∨
        Clash cr (recordHashed u i (readU8 (e.pre k).data 6)) (recordHashed u0 i0 (readU8 (e.pre k).data 6))) := by
  obtain ⟨hh1, ok, -⟩ := hh.split
  have pf := hp.facts ok
  obtain ⟨r1, r2⟩ := hp.refund ok
  obtain ⟨⟨h2, e0, h0, u0, st, i0, now0, rfl, hc, hn, -, -, -, hu⟩, -⟩ := C20_only_unstaker_paid hh hp
  obtain ⟨hh0, ok0, hp0⟩ := hh1.split
  obtain ⟨x, accs, ix, logs, hl, hm, -, hpaid⟩ := hc.rent ok0
  have cf := hc.facts ok0 hh0.inv
  have := hp0.record_lamports (ok0.inv hh0.inv).1 cf.record hn
  exact ⟨r1, r2, h2, e0, h0, u0, st, i0, now0, rfl, hc, by omega, hu⟩

/-! ### Examples -/

example := C87_record_stays_rent_exempt Demo.hist9 (k := Demo.R0) ⟨by decide +kernel, by decide +kernel, by decide +kernel⟩
example := C87_state_stays_rent_exempt Demo.reach4 Demo.init4 Demo.path49
example := C87_deposit_comes_back (h3 := [Demo.e10]) (e := Demo.e9)
  (h1 := [Demo.e8, Demo.e7, Demo.e6, Demo.e5, Demo.e4, Demo.e3, Demo.e2, Demo.e1]) Demo.hist10 Demo.pays9
example : (Demo.L8 Demo.R255).lamports ≠ 0 ∧
    (Demo.L4 Demo.US).lamports = (Demo.L5 Demo.US).lamports + (Demo.L8 Demo.R255).lamports := by decide +kernel

/-- The demo's Initialize. -/
example {e : Entry} (he : e = Demo.e1) : ∃ st v, Demo.initAccs[2]? = some st ∧ Demo.initAccs[3]? = some v ∧
    (e.post st.key).data.length = 2048 ∧ ((Demo.ctx 1000).rentMin 2048).toNat ≤ (e.post st.key).lamports.toNat ∧
    (e.post v.key).data.length = 165 ∧ ((Demo.ctx 1000).rentMin 165).toNat ≤ (e.post v.key).lamports.toNat := by
  have ok : e.Ok Demo.cr := by rw [he]; exact Demo.ok_call Demo.signers1 Demo.run1
  have hr : Reachable Demo.cr e.pre := by
    have : e.pre = Demo.L0 := by rw [he]; unfold Demo.e1; dsimp only
    rw [this]; exact Demo.reach0
  exact C87_state_created_rent_exempt ok hr (by rw [he]; unfold Demo.e1; rfl)

end Xorca
