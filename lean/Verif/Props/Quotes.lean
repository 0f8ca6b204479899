import Verif.Lemmas.QuotesAux
import Verif.Lemmas.DemoClient
import Verif.Lemmas.DemoCalls
import Verif.Lemmas.EnvOk
import Verif.Props.Liveness
import Verif.Props.Effects
import Verif.Props.Histories
import Verif.Props.Client
/-
C59, C61, C62: quotes computed by the clients, and what others can do to the clients' reads.
-/
namespace Xorca
open Spec

variable {cr : Crypto} {x : Ctx} {L L' : Ledger} {accs rest : List Meta} {logs : List Bytes}

/-! ### C59: quotes are exact, and later ones favour the holders -/

/-- The rate fetched before a successful Stake, put into the client's conversion, gives exactly the amount the
call mints. -/
theorem C59_stake_quote_exact {s v oa xa xm st om tp : Meta} {a : UInt64} (hr : Reachable x.cr L)
    (h : Runs x L (s :: v :: oa :: xa :: xm :: st :: om :: tp :: rest) (.Stake a) L' logs)
    (hs : SignersOk x.cr L (s :: v :: oa :: xa :: xm :: st :: om :: tp :: rest)) :
    (∀ n d, Client.fetchStakingExchangeRate x.cr L L L = some (n, d) →
      ∃ m, Client.convertOrcaToXorca a n d = .ok m ∧ balance L' xa.key = balance L xa.key + m.toNat ∧
        supply L' XORCA_MINT_ID = supply L XORCA_MINT_ID + m.toNat) ∧
    (∀ n d, Client.jsFetchStakingExchangeRate x.cr L L L = some (n, d) →
      ∃ m : Nat, Client.jsConvertOrcaToXorca a.toNat n d = some (m : Int) ∧ balance L' xa.key = balance L xa.key + m ∧
        supply L' XORCA_MINT_ID = supply L XORCA_MINT_ID + m) := by
  obtain ⟨h1, h2, h3, -⟩ := Props.C01_exact_mint_amount h hs
  obtain ⟨L1, m, r⟩ := h.stake
  obtain ⟨v', p⟩ := hr.inv.poolOf r.st_prog r.st_disc
  obtain rfl := p.vault_eq r.v_addr
  have hb := p.backed
  have hfull : balance L v.key + a.toNat < 2 ^ 64 := by
    obtain ⟨w2, -, b2⟩ := (r.eff hs).v_data
    have := w2.toNat_lt
    omega
  constructor
  · intro n d hq
    obtain ⟨st', b, v', b', e1, e2, -, e4, e5⟩ := rustRate hq
    obtain ⟨rfl, -⟩ := stateAddr_unique e1 p.acc.addr
    obtain ⟨rfl, -⟩ := vaultAddr_unique e2 p.v_addr
    obtain ⟨m', c1, c2⟩ := convertOrcaToXorca_of (a := a) (n := n) (s := d) fun _ _ =>
      mint_no_overflow (v := balance L v.key) (by omega) (by omega) hfull
    refine ⟨m', (client_orca_ok _ _ _ _).2 c1, ?_, ?_⟩
    · rw [h3, c2, e4, e5]
    · rw [h2, c2, e4, e5]
  · intro n d hq
    obtain ⟨st', b, v', b', e1, e2, e4, e5⟩ := jsRate hq
    obtain ⟨rfl, -⟩ := stateAddr_unique e1 p.acc.addr
    obtain ⟨rfl, -⟩ := vaultAddr_unique e2 p.v_addr
    have : n = ((balance L v.key - escrow L st.key : Nat) : Int) := by omega
    refine ⟨_, by rw [this, e5]; exact js_orca _ _ _, h3, h2⟩

/-- The same for Unstake: the quote is the amount written to the record. -/
theorem C59_unstake_quote_exact {u st pw xa xm om v sp tp : Meta} {a : UInt64} {i : UInt8} (hr : Reachable x.cr L)
    (h : Runs x L (u :: st :: pw :: xa :: xm :: om :: v :: sp :: tp :: rest) (.Unstake a i) L' logs)
    (hs : SignersOk x.cr L (u :: st :: pw :: xa :: xm :: om :: v :: sp :: tp :: rest)) :
    (∀ n d, Client.fetchStakingExchangeRate x.cr L L L = some (n, d) →
      ∃ m, Client.convertXorcaToOrca a n d = .ok m ∧ recAmount L' pw.key = m.toNat) ∧
    (∀ n d, Client.jsFetchStakingExchangeRate x.cr L L L = some (n, d) →
      Client.jsConvertXorcaToOrca a.toNat n d = some (recAmount L' pw.key : Int)) := by
  obtain ⟨h1, h2, h3, h4, -⟩ := Props.C02_exact_redemption_amount h hs
  obtain ⟨L1, L3, w, e', ts, b, r⟩ := h.unstake
  obtain ⟨v', p⟩ := hr.inv.poolOf r.st_prog r.st_disc
  obtain rfl := p.vault_eq r.v_addr
  have hb := p.backed
  constructor
  · intro n d hq
    obtain ⟨st', b, v', b', e1, e2, -, e4, e5⟩ := rustRate hq
    obtain ⟨rfl, -⟩ := stateAddr_unique e1 p.acc.addr
    obtain ⟨rfl, -⟩ := vaultAddr_unique e2 p.v_addr
    have hw : w.toNat = redeemFor a.toNat n.toNat d.toNat := by rw [r.amount, e4, e5]; rfl
    have hw' := w.toNat_lt
    obtain ⟨m', c1, c2⟩ := convertXorcaToOrca_of (a := a) (n := n) (s := d) (by omega) (by omega)
      (by rw [e4]; exact r.fits)
      (by rw [hw] at hw'; exact hw')
    exact ⟨m', (client_xorca_ok _ _ _ _).2 c1, by rw [h4, c2, e4, e5]; rfl⟩
  · intro n d hq
    obtain ⟨st', b, v', b', e1, e2, e4, e5⟩ := jsRate hq
    obtain ⟨rfl, -⟩ := stateAddr_unique e1 p.acc.addr
    obtain ⟨rfl, -⟩ := vaultAddr_unique e2 p.v_addr
    have : n = ((balance L v.key - escrow L st.key : Nat) : Int) := by omega
    rw [this, e5, js_xorca, if_neg (by omega), h4]
    rfl

/-- A quote may be old: as long as nobody staked into a pool with ORCA and no xORCA, a later redemption pays at
least the old quote, and a later stake mints at most the old quote (unless it is itself such a stake). -/
theorem C59_stale_quotes {st v : Pubkey} {b : UInt8} {h : List Entry} (hr : Reachable cr L)
    (hi : Initialised cr L st) (hv : VaultAddr cr st v b) (hp : Path cr L h L')
    (hno : ∀ e ∈ h, ¬ OrphanStake e st v) (a : Nat) :
    redeemFor a (backing L v st) (supply L XORCA_MINT_ID) ≤ redeemFor a (backing L' v st) (supply L' XORCA_MINT_ID) ∧
    ((supply L' XORCA_MINT_ID = 0 → backing L' v st = 0) →
      mintFor a (backing L' v st) (supply L' XORCA_MINT_ID) ≤ mintFor a (backing L v st) (supply L XORCA_MINT_ID)) := by
  obtain ⟨hprice, hred⟩ := C09_no_dilution hr hi hv hp hno
  have p := reachable_pool hr hi hv
  have hb := p.backed
  have hb' := ((hp.inv hr.inv).2 st v p).backed
  refine ⟨hred a, fun h0 => mintFor_anti ?_ ?_ hprice h0⟩
  · unfold backing; omega
  · unfold backing; omega

/-- The demo: the quotes before its second stake and its first unstake, and the same quotes two steps earlier. -/
example : Client.fetchStakingExchangeRate Demo.cr Demo.L3 Demo.L3 Demo.L3 = some (1500000, 1000000) ∧
    Client.convertOrcaToXorca 300000 1500000 1000000 = .ok 200006 ∧
    balance Demo.L4 Demo.UX = balance Demo.L3 Demo.UX + 200006 ∧
    Client.fetchStakingExchangeRate Demo.cr Demo.L4 Demo.L4 Demo.L4 = some (1800000, 1200006) ∧
    Client.convertXorcaToOrca 600000 1800000 1200006 = .ok 899970 ∧ recAmount Demo.L5 Demo.R255 = 899970 ∧
    Client.convertXorcaToOrca 600000 1000000 1000000 = .ok 600000 := by decide +kernel
example := C59_stake_quote_exact (x := Demo.ctx 1002) Demo.reach3 Demo.run4 Demo.signers4
example := C59_unstake_quote_exact (x := Demo.ctx 1003) Demo.reach4 Demo.run5 Demo.signers5
example : 600000 ≤ redeemFor 600000 (backing Demo.L4 Demo.VA Demo.ST) (supply Demo.L4 XORCA_MINT_ID) := by
  have h := (C59_stale_quotes (h := [Demo.e4, Demo.e3]) Demo.reach2 Demo.init2 Demo.va_addr
    Demo.path24 (by
      intro e he ho
      simp only [List.mem_cons, List.not_mem_nil, or_false] at he
      rcases he with rfl | rfl
      · have := ho.2.1; revert this; decide +kernel
      · obtain ⟨_, _, _, _, h⟩ := ho.1; cases h) 600000).1
  rwa [show redeemFor 600000 (backing Demo.L2 Demo.VA Demo.ST) (supply Demo.L2 XORCA_MINT_ID) = 600000 by
    decide +kernel] at h

/-! ### C61: the Rust listing can be made to fail by others -/

/-- The Rust client lists nothing at all as soon as one of the searched addresses holds lamports but no decodable
record. -/
theorem C61_rust_listing_fails_iff {u : Pubkey} {max : Option UInt8}
    (ha : ∀ i < (max.getD 15).toNat, ∃ k b, RecordAddr cr u (UInt8.ofNat i) k b) :
    Client.fetchPendingWithdraws cr L u max = none ↔
      ∃ i < (max.getD 15).toNat, ∃ k b, RecordAddr cr u (UInt8.ofNat i) k b ∧ (L k).lamports ≠ 0 ∧
        PendingWithdraw.deserialize (L k).data = none := by
  rw [← Option.not_isSome_iff_eq_none, Option.isSome_iff_exists, fetchPending_isSome]
  constructor
  · intro h
    by_contra hc
    refine h fun i hi => ?_
    obtain ⟨k, b, hk⟩ := ha i hi
    refine ⟨k, b, hk, ?_⟩
    by_contra hn
    rw [not_or] at hn
    refine hc ⟨i, hi, k, b, hk, hn.1, ?_⟩
    cases hd : PendingWithdraw.deserialize (L k).data with
    | none => rfl
    | some p => exact absurd ⟨p, hd⟩ hn.2
  · rintro ⟨i, hi, k, b, hk, h1, h2⟩ h
    obtain ⟨k', b', hk', h3⟩ := h i hi
    obtain ⟨rfl, -⟩ := recordAddr_unique hk hk'
    rcases h3 with h3 | ⟨p, h3⟩
    · exact h1 h3
    · rw [h2] at h3; cases h3

/-- Anyone can bring that about by sending lamports to an unused record address of the user.  The JS client still
gives the same list. -/
theorem C61_anyone_can_break_listing {u k f : Pubkey} {i b : UInt8} {n : UInt64} (hr : Reachable cr L)
    (hk : RecordAddr cr u i k b) (bk : Blank (L k)) (bf : Blank (L f)) (hne : f ≠ k) (hn : n ≠ 0)
    (hpay : n.toNat ≤ (L f).lamports.toNat) (hfit : (L k).lamports.toNat + n.toNat < 2 ^ 64) :
    ∃ L1, systemTransfer L f k n = .ok L1 ∧ EnvStep cr L L1 ∧ Reachable cr L1 ∧
      (∀ max : Option UInt8, i.toNat < (max.getD 15).toNat → Client.fetchPendingWithdraws cr L1 u max = none) ∧
      (∀ max, Client.jsFetchPendingWithdraws cr L1 u max = Client.jsFetchPendingWithdraws cr L u max) := by
  obtain ⟨L1, h1⟩ := systemTransfer_succeeds hne bf.2 bf.1 hpay hfit
  have he : EnvStep cr L L1 := envStep_lamports hne h1 hr.inv.shape
  have e := systemTransfer_eff hne h1
  have hnil : PendingWithdraw.deserialize [] = none := by decide +kernel
  have hkd : (L1 k).data = [] ∧ (L1 k).lamports ≠ 0 := by
    obtain ⟨w, hw, hw2⟩ := e.credit
    rw [hw]
    refine ⟨bk.2, ?_⟩
    rw [u64_ne_zero_iff] at hn ⊢
    change w.toNat ≠ 0
    omega
  refine ⟨L1, h1, he, ?_, fun max hi => ?_, fun max => ?_⟩
  · obtain ⟨h, L0, g, p⟩ := hr
    exact ⟨_, L0, g, p.step (.env he)⟩
  · rw [← Option.not_isSome_iff_eq_none, Option.isSome_iff_exists, fetchPending_isSome]
    intro h
    obtain ⟨k', b', hk', h3⟩ := h _ hi
    rw [UInt8.ofNat_toNat] at hk'
    obtain ⟨rfl, -⟩ := recordAddr_unique hk hk'
    rcases h3 with h3 | ⟨p, h3⟩
    · exact hkd.2 h3
    · rw [hkd.1, hnil] at h3; cases h3
  · refine jsFetch_congr fun k' => ?_
    by_cases h2 : k' = k
    · subst h2
      exact Or.inr ⟨Or.inr (by rw [hkd.1, hnil]), Or.inr (by rw [bk.2, hnil])⟩
    · by_cases h3 : k' = f
      · subst h3
        obtain ⟨w, hw, -⟩ := e.debit
        exact Or.inr ⟨Or.inr (by rw [hw]; change PendingWithdraw.deserialize (L k').data = none; rw [bf.2, hnil]),
          Or.inr (by rw [bf.2, hnil])⟩
      · rw [e.other k' h3 h2]
        by_cases h4 : (L k').lamports = 0
        · exact Or.inr ⟨Or.inl h4, Or.inl h4⟩
        · exact Or.inl ⟨h4, h4, rfl⟩

/-- On the demo chain: both clients list the user's record; after a transfer of 890880 lamports to the unused address
of index 1 the Rust client lists nothing, with the default bound too. -/
example : ∃ L1, Reachable Demo.cr L1 ∧
    (∃ l, Client.fetchPendingWithdraws Demo.cr Demo.L8 Demo.US none = some l ∧ l ≠ []) ∧
    Client.fetchPendingWithdraws Demo.cr L1 Demo.US none = none ∧
    (∃ l, Client.jsFetchPendingWithdraws Demo.cr L1 Demo.US none = some l ∧ l ≠ []) := by
  obtain ⟨k, b, hk, hu⟩ := Demo.addresses (i := 1) (by decide)
  have hu : k ∉ Demo.used := by
    rcases hu with ⟨h, -⟩ | h
    · cases h
    · exact h
  have h8 := Demo.unused8 hu
  have hlist := C41_listed_partial Demo.reach8 Demo.record0.1
  rw [Demo.record0.2.1, Demo.record0.2.2.1] at hlist
  obtain ⟨L1, -, -, h1, h2, h3⟩ := C61_anyone_can_break_listing (n := 890880) (f := Demo.US) Demo.reach8 hk
    (by rw [h8]; exact ⟨rfl, rfl⟩) (by decide +kernel) (by rintro rfl; exact hu (by decide +kernel)) (by decide)
    (by decide +kernel) (by rw [h8]; decide)
  refine ⟨L1, h1, ?_, h2 none (by decide), ?_⟩
  · obtain ⟨l, hl⟩ := Demo.rust_lists none
    obtain ⟨p, hp, -⟩ := hlist.1 none l hl (by decide)
    exact ⟨l, hl, List.ne_nil_of_mem hp⟩
  · rw [h3]
    obtain ⟨l, hl⟩ := Demo.js_lists (max := none) (by decide) (by decide)
    obtain ⟨p, hp, -⟩ := hlist.2 none l hl (by decide)
    exact ⟨l, hl, List.ne_nil_of_mem hp⟩

/-! ### C62: the three reads of the exchange rate -/

/-- State, vault and mint are read by three calls; the result mixes the ledgers they answered from. -/
theorem C62_three_reads {Ls Lv Lm : Ledger} :
    (∀ n d, Client.fetchStakingExchangeRate cr Ls Lv Lm = some (n, d) →
      ∃ st b v b', StateAddr cr st b ∧ VaultAddr cr st v b' ∧ n.toNat + escrow Ls st = balance Lv v ∧
        d.toNat = supply Lm XORCA_MINT_ID) ∧
    (∀ n d, Client.jsFetchStakingExchangeRate cr Ls Lv Lm = some (n, d) →
      ∃ st b v b', StateAddr cr st b ∧ VaultAddr cr st v b' ∧ n + escrow Ls st = balance Lv v ∧
        d = supply Lm XORCA_MINT_ID) := by
  constructor
  · intro n d h
    obtain ⟨st, b, v, b', e1, e2, e3, e4, e5⟩ := rustRate h
    exact ⟨st, b, v, b', e1, e2, by omega, e5⟩
  · intro n d h
    obtain ⟨st, b, v, b', e1, e2, e3, e4⟩ := jsRate h
    exact ⟨st, b, v, b', e1, e2, by omega, e4⟩

/-- So a single call of the program between the reads can give a price that never was, an error, or a negative
number.  On the demo chain: an Unstake between reading the vault and the mint doubles the price (the true prices
before and after agree up to rounding); a Withdraw between reading the state and the vault makes the Rust helper
fail and the JS helper return -1439. -/
theorem C62_mixed_reads_witness :
    (∃ L L' e, Reachable Real.crypto L ∧ Path Real.crypto L [e] L' ∧
      Client.fetchStakingExchangeRate Real.crypto L L L = some (1800000, 1200006) ∧
      Client.fetchStakingExchangeRate Real.crypto L' L' L' = some (900030, 600006) ∧
      Client.fetchStakingExchangeRate Real.crypto L L L' = some (1800000, 600006)) ∧
    (∃ L L' e, Reachable Real.crypto L ∧ Path Real.crypto L [e] L' ∧
      Client.fetchStakingExchangeRate Real.crypto L L L = some (898531, 599006) ∧
      Client.fetchStakingExchangeRate Real.crypto L' L' L' = some (898531, 599006) ∧
      Client.fetchStakingExchangeRate Real.crypto L L' L' = none ∧
      Client.jsFetchStakingExchangeRate Real.crypto L L' L' = some (-1439, 599006)) := by
  rw [← Demo.cr_eq]
  constructor
  · exact ⟨Demo.L4, Demo.L5, Demo.e5, Demo.reach4, Demo.path45,
      by decide +kernel, by decide +kernel, by decide +kernel⟩
  · exact ⟨Demo.L8, Demo.L9, Demo.e9, Demo.reach8, Demo.path89,
      by decide +kernel, by decide +kernel, by decide +kernel, by decide +kernel⟩

example := (C62_three_reads (cr := Demo.cr) (Ls := Demo.L4) (Lv := Demo.L4) (Lm := Demo.L5)).1 1800000 600006
  (by decide +kernel)

end Xorca
