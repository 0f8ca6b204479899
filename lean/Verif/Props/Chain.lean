import Verif.Lemmas.Chain
import Verif.Props.Outside
/-
C91: the main results for a chain of transactions, each of which pays a fee and then happens completely or not at all.
-/
namespace Xorca
open Spec

variable {cr : Crypto} {L L' L0 : Ledger} {st v k : Pubkey} {b : UInt8} {ts : List Tx} {t : Tx}

/-- What a chain of transactions leaves behind is a history in the sense of all other properties, whatever the
transactions are made of and however many of them fail. -/
theorem C91_chain_is_history (hg : Genesis L0) (hs : Steady cr L0) (hc : Chain cr L0 ts L) :
    Hist cr (stepsOf ts) L ∧ Steady cr L ∧ ∀ e ∈ stepsOf ts, KeepsBooks e := by
  obtain ⟨h1, h2, h3⟩ := world_path hs hc.world
  exact ⟨⟨L0, hg, h1⟩, h2, h3⟩

/-- Taking no fee changes nothing. -/
theorem Demo.charged_zero {L : Ledger} {p : Pubkey} {h : List Entry} {c : Bool} : (Tx.mk L p 0 h c).charged = L := by
  funext k
  simp only [Tx.charged, Ledger.setLamports, Ledger.set, UInt64.sub_zero]
  split
  · next h => subst h; rfl
  · rfl

/-- Initialize and the first stake in one transaction. -/
def Demo.tx1 : Tx := ⟨Demo.L0, DEPLOYER_ADDRESS, 0, [Demo.e2, Demo.e1], true⟩
/-- A donation and a second stake in one transaction. -/
def Demo.tx2 : Tx := ⟨Demo.L2, Demo.US, 0, [Demo.e4, Demo.e3], true⟩
/-- A transaction that fails and costs its payer 5000 lamports. -/
def Demo.tx3 : Tx := ⟨Demo.L4, Demo.AU, 5000, [], false⟩

theorem Demo.runs1 : Demo.tx1.Runs Demo.cr Demo.L2 :=
  .commit rfl ⟨by decide +kernel, by decide +kernel⟩ (by rw [Demo.tx1, Demo.charged_zero]; exact Demo.world2)
theorem Demo.runs2 : Demo.tx2.Runs Demo.cr Demo.L4 :=
  .commit rfl ⟨by decide +kernel, by decide +kernel⟩ (by rw [Demo.tx2, Demo.charged_zero]; exact Demo.world24)
theorem Demo.runs3 : Demo.tx3.Runs Demo.cr Demo.tx3.charged :=
  .abort rfl ⟨by decide +kernel, by decide +kernel⟩ .nil

theorem Demo.chain1 : Chain Demo.cr Demo.L0 [Demo.tx1] Demo.L2 :=
  .step (by unfold Demo.tx1; exact .nil) Demo.runs1
theorem Demo.chain2 : Chain Demo.cr Demo.L0 [Demo.tx2, Demo.tx1] Demo.L4 :=
  .step (by rw [show Demo.tx2.pre = Demo.L2 by unfold Demo.tx2; with_reducible rfl]; exact Demo.chain1) Demo.runs2
theorem Demo.chain3 : Chain Demo.cr Demo.L0 [Demo.tx3, Demo.tx2, Demo.tx1] Demo.tx3.charged :=
  .step (by rw [show Demo.tx3.pre = Demo.L4 by unfold Demo.tx3; with_reducible rfl]; exact Demo.chain2) Demo.runs3

example := C91_chain_is_history Demo.genesis Demo.steady0 Demo.chain3
example : (Demo.tx3.charged Demo.AU).lamports + 5000 = (Demo.L4 Demo.AU).lamports := by decide +kernel

/-- A failed transaction changes nothing but the balance of its payer. -/
theorem C91_failed_tx_changes_nothing (hr : t.Runs cr L') (hf : t.committed = false) :
    (∀ k, (L' k).data = (t.pre k).data ∧ (L' k).owner = (t.pre k).owner) ∧
    (∀ k, k ≠ t.payer → L' k = t.pre k) ∧
    (L' t.payer).lamports.toNat + t.fee.toNat = (t.pre t.payer).lamports.toNat := by
  cases hr with
  | commit hc => rw [hf] at hc; cases hc
  | abort _ hp _ =>
    refine ⟨fun k => ⟨by simp [Tx.charged], by simp [Tx.charged]⟩, fun k hk => Ledger.setLamports_other _ _ hk, ?_⟩
    have := hp.2
    rw [Tx.charged, Ledger.setLamports_same]
    simp only
    rw [u64_sub_toNat this]
    omega

example : (Demo.tx3.charged Demo.ST).data = (Demo.tx3.pre Demo.ST).data :=
  ((C91_failed_tx_changes_nothing Demo.runs3 rfl).1 Demo.ST).1

/-- Every call of the program on the chain belongs to a transaction that succeeded as a whole. -/
theorem C91_calls_are_committed {e : Entry} (he : e ∈ stepsOf ts) (hl : e.label ≠ .env) :
    ∃ t ∈ ts, t.committed = true ∧ e ∈ t.steps := by
  induction ts with
  | nil => cases he
  | cons t ts ih =>
    rw [stepsOf, List.mem_append] at he
    rcases he with he | he
    · rw [Tx.entries, List.mem_append] at he
      rcases he with he | he
      · cases hc : t.committed with
        | true => rw [hc, if_pos rfl] at he; exact ⟨t, List.mem_cons_self, hc, he⟩
        | false => rw [hc] at he; cases he
      · rw [List.mem_singleton.1 he] at hl; exact absurd rfl hl
    · obtain ⟨t', h1, h2⟩ := ih he
      exact ⟨t', List.mem_cons_of_mem _ h1, h2⟩

example : ∃ t ∈ [Demo.tx3, Demo.tx2, Demo.tx1], t.committed = true ∧ Demo.e4 ∈ t.steps :=
  C91_calls_are_committed (e := Demo.e4) (List.mem_cons_of_mem _ List.mem_cons_self) (by rw [Demo.e4]; nofun)

/-- At every point of the chain, the vault covers what all holders of xORCA could redeem, all together, and all pending
withdrawals. -/
theorem C91_all_holders_covered (hg : Genesis L0) (hs : Steady cr L0) (ha : Accounted L0) (hc : Chain cr L0 ts L)
    (hi : Initialised cr L st) (hv : VaultAddr cr st v b)
    (S : Finset Pubkey) {rs : List Pubkey} (hn : rs.Nodup) (hrec : ∀ k ∈ rs, IsRecord L k) :
    ∑ k ∈ S, redeemFor (tokensOf L XORCA_MINT_ID k) (backing L v st) (supply L XORCA_MINT_ID) +
      (rs.map (recAmount L)).sum ≤ balance L v :=
  C78_all_holders_covered hg hs ha hc.world hi hv S hn hrec

example := C91_all_holders_covered Demo.genesis Demo.steady0 Demo.accounted0 Demo.chain2 Demo.init4 Demo.va_addr
  {Demo.UX} (rs := []) List.nodup_nil (by simp)

/-- Whatever one transaction is made of (stakes, unstakes, borrowed ORCA, gifts, in any order), those who act in it get
no more out than they put in and than their own xORCA was worth at the beginning. -/
theorem C91_no_profit_in_one_tx {y : Nat} (hg : Genesis L0) (hs : Steady cr L0) (hc : Chain cr L0 ts t.pre)
    (hi : Initialised cr t.pre st) (hv : VaultAddr cr st v b) (hr : t.Runs cr L')
    (hno : ∀ e ∈ t.entries, ¬ OrphanStake e st v)
    (hy : y ≤ supply t.pre XORCA_MINT_ID) (hy' : y ≤ supply L' XORCA_MINT_ID) :
    (redeemFor (supply L' XORCA_MINT_ID - y) (backing L' v st) (supply L' XORCA_MINT_ID) +
        (t.entries.map (setAside st v)).sum) * (supply t.pre XORCA_MINT_ID + 100) ≤
      ((t.entries.map staked).sum + (t.entries.map (donated st v)).sum) * (supply t.pre XORCA_MINT_ID + 100) +
        (supply t.pre XORCA_MINT_ID - y) * (backing t.pre v st + 100) := by
  obtain ⟨h1, h2, -⟩ := C91_chain_is_history hg hs hc
  exact C64_no_coalition_profits ⟨_, h1⟩ hi hv (world_path h2 hr.world).1 hno hy hy'

/-- The donation and the second stake, for everybody but the holders of 700000 xORCA. -/
example := C91_no_profit_in_one_tx (y := 700000) Demo.genesis Demo.steady0
  (by rw [show Demo.tx2.pre = Demo.L2 by unfold Demo.tx2; with_reducible rfl]; exact Demo.chain1)
  (by rw [show Demo.tx2.pre = Demo.L2 by unfold Demo.tx2; with_reducible rfl]; exact Demo.init2) Demo.va_addr Demo.runs2
  (by
    intro e he
    rw [Demo.tx2, Tx.entries, if_pos rfl, List.mem_append] at he
    rcases he with he | he
    · exact Demo.noOrphan24 e he
    · rw [List.mem_singleton.1 he]
      rintro ⟨⟨x, accs, n, logs, hl⟩, -⟩
      cases hl) (by decide +kernel) (by decide +kernel)

end Xorca
