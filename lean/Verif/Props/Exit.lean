import Verif.Lemmas.ExitAux
import Verif.Props.Rent
import Verif.Props.Liveness
import Verif.Props.Effects
import Verif.Props.Accept
import Verif.Lemmas.Replay
/-
C88: what an Unstake promises is kept, whatever happens after it.
-/
namespace Xorca
open Spec

/-- Take any successful Unstake in a reachable state and anything that happens afterwards.  Either the record has been
paid, once matured, with exactly the amount due at the Unstake, to an ORCA account of the key that signed the Unstake
(or of one whose record address is a SHA-256 clash with it); or the record is still open, and from its maturity on that
key can withdraw exactly that amount to any usable ORCA account of theirs. -/
theorem C88_unstake_promise_kept {x0 : Ctx} {L0 L1 L : Ledger} {u st pw xa xm om v sp tp : Meta} {rest : List Meta}
    {a : UInt64} {i : UInt8} {logs0 : List Bytes} {h : List Entry} (hr : Reachable x0.cr L0)
    (hrent : ∀ n, x0.rentMin n ≠ 0)
    (hs : SignersOk x0.cr L0 (u :: st :: pw :: xa :: xm :: om :: v :: sp :: tp :: rest))
    (hrun : Runs x0 L0 (u :: st :: pw :: xa :: xm :: om :: v :: sp :: tp :: rest) (.Unstake a i) L1 logs0)
    (hp : Path x0.cr L1 h L) :
    let due := redeemFor a.toNat (backing L0 v.key st.key) (supply L0 XORCA_MINT_ID)
    let maturity := x0.now.toInt + coolDown L0 st.key
    (∃ h3 e h2 u' oa i' now, h = h3 ++ e :: h2 ∧ Pays e pw.key u' oa i' now ∧ maturity ≤ now ∧
      (e.pre oa).owner = SPL_TOKEN_PROGRAM_ID ∧ ownerOf e.pre oa = u' ∧ mintOf e.pre oa = ORCA_MINT_ID ∧
      balance e.post oa = balance e.pre oa + due ∧
      ((u' = u.key ∧ i' = i) ∨ ∃ b, Clash x0.cr (recordHashed u' i' b) (recordHashed u.key i b))) ∨
    (IsRecord L pw.key ∧ recOwner L pw.key = u.key ∧ recAmount L pw.key = due ∧ recTime L pw.key = maturity ∧
      ∀ (x : Ctx) (accs : List Meta) (u' st' pw' oa v' om' sp' tp' : Meta), x.cr = x0.cr → SignersOk x0.cr L accs →
        WithdrawCall accs u' st' pw' oa v' om' sp' tp' → u'.key = u.key → st'.key = st.key → pw'.key = pw.key →
        v'.key = v.key → maturity ≤ x.now.toInt → TokenOk L oa.key ORCA_MINT_ID u.key →
        balance L oa.key + due < 2 ^ 64 → readU8 (L v.key).data 108 = 1 →
        (L ORCA_MINT_ID).owner = SPL_TOKEN_PROGRAM_ID →
        ∃ L' logs, Runs x L accs (.Withdraw i) L' logs ∧ balance L' oa.key = balance L oa.key + due) := by
  intro due maturity
  obtain ⟨-, -, -, hamt, -⟩ := Props.C02_exact_redemption_amount hrun hs
  obtain ⟨-, -, -, -, -, -, -, -, hrec, -, hown, hidx, -, htime, -⟩ := Props.C15_unstake_effects hrun hs
  have hamt : recAmount L1 pw.key = due := hamt
  have ok : Entry.Ok x0.cr ⟨L0, .call x0 (u :: st :: pw :: xa :: xm :: om :: v :: sp :: tp :: rest) (.Unstake a i) logs0, L1⟩ :=
    .call rfl hrent hs hrun
  have hr1 : Reachable x0.cr L1 := hr.path (.step .nil ok)
  obtain ⟨_, _, _, _, _, _, r⟩ := hrun.unstake
  obtain ⟨v0, p⟩ := hr.inv.poolOf r.st_prog r.st_disc
  obtain hv0 := p.vault_eq r.v_addr
  have keep : ∀ {g : List Entry} {M : Ledger}, Path x0.cr L1 g M →
      (∀ e ∈ g, ∀ u oa i now, ¬ Pays e pw.key u oa i now) →
      IsRecord M pw.key ∧ recOwner M pw.key = u.key ∧ recAmount M pw.key = due ∧ recTime M pw.key = maturity ∧
        recIndex M pw.key = i := by
    intro g M q hno
    obtain ⟨k1, -, k2, k3, k4, k5⟩ := C18_records_immutable hr1 q hrec hno
    exact ⟨k1, by rw [k2, hown], by rw [k4, hamt], by rw [k5, htime], by rw [k3, hidx]⟩
  rcases first_payment pw.key hp with hno | ⟨h3, e, h2, u', oa, i', now, rfl, hpay, hno⟩
  · obtain ⟨k1, k2, k3, k4, k5⟩ := keep hp hno
    refine Or.inr ⟨k1, k2, k3, k4, ?_⟩
    intro x accs u' st' pw' oa v' om' sp' tp' hx hsig hc hu hst hpw hv' hmat hoa hfit hthaw hom
    have hrL : Reachable x0.cr L := hr1.path hp
    have pL := (hp.inv hr1.inv).2 _ _ ((ok.inv hr.inv).2 _ _ p)
    have hsucc := C21_matured_withdrawal_succeeds (vb := readU8 (L st.key).data 7) hrL hx hsig
      (by rw [hst]; exact ⟨⟨_, pL.acc.addr⟩, pL.prog, pL.acc.tag⟩) (by rw [hst, hv', hv0]; exact pL.v_addr) hc
      (by rw [hpw]; exact k1) (by rw [hpw, hu]; exact k2) (by rw [hpw, k4]; exact hmat) (by rw [hu]; exact hoa)
      (by rw [hpw, k3]; exact hfit) (by rw [hv']; exact hthaw) hom
    rw [hpw, k5] at hsucc
    obtain ⟨L', logs, hrun'⟩ := succeeds_iff.1 hsucc
    refine ⟨L', logs, hrun', ?_⟩
    obtain ⟨⟨rest', rfl⟩, -⟩ := hc
    have := (Props.C14_withdraw_effects hrun' (by rw [hx]; exact hsig)).2.2.2.2.2.1
    rw [this, hpw, k3]
  · obtain ⟨q, oke, -⟩ := hp.split
    obtain ⟨k1, k2, k3, k4, k5⟩ := keep q hno
    have pf := hpay.facts oke
    have ra := (hr1.path q).inv.isRec k1
    refine Or.inl ⟨h3, e, h2, u', oa, i', now, rfl, hpay, by rw [← k4]; exact pf.mature, pf.oa_prog, pf.oa_owner,
      pf.oa_mint, by rw [pf.credit, k3], ?_⟩
    have h1 := recordAddr_hash ra.addr
    have h2' : pw.key = x0.cr.sha256 (recordHashed u' i' (readU8 (e.pre pw.key).data 6)) := by
      rw [← derive_record]; exact pf.addr
    change pw.key = x0.cr.sha256 (recordHashed (recOwner e.pre pw.key) (recIndex e.pre pw.key) _) at h1
    rw [k2, k5] at h1
    rcases record_hash_inj (h2'.symm.trans h1) with ⟨a, c, _⟩ | hcol
    · exact Or.inl ⟨a, c⟩
    · exact Or.inr ⟨_, hcol⟩

/-- The demo's first Unstake, followed by another one and the two Sets (here the second case holds), and then by the
Withdraw as well (here the first). -/
example := C88_unstake_promise_kept (x0 := Demo.ctx 1003) Demo.reach4 Demo.rent_ne Demo.signers5 Demo.run5
  (Demo.path_call (Demo.path_call (Demo.path_call .nil Demo.signers6 Demo.run6) Demo.signers7 Demo.run7) Demo.signers8
    Demo.run8)
example := C88_unstake_promise_kept (x0 := Demo.ctx 1003) Demo.reach4 Demo.rent_ne Demo.signers5 Demo.run5
  (Demo.path_call (Demo.path_call (Demo.path_call (Demo.path_call .nil Demo.signers6 Demo.run6) Demo.signers7 Demo.run7)
    Demo.signers8 Demo.run8) Demo.signers9 Demo.run9)

end Xorca
