import Verif.Lemmas.ListingAux
import Verif.Lemmas.Sealed
import Verif.Lemmas.DemoSealed
import Verif.Props.Client
import Verif.Props.Liveness
/-
C60: what is at a record address, and that the clients list nothing but records.
-/
namespace Xorca
open Spec

variable {cr : Crypto} {x : Ctx} {L L' : Ledger} {accs : List Meta} {logs : List Bytes} {h : List Entry}

/-! ### C60 -/

/-- The address of (user, index) is shared with another record, the state or the vault: SHA-256 maps two named,
different byte strings to the same value. -/
def AddressClash (cr : Crypto) (L : Ledger) (u k : Pubkey) (i b : UInt8) : Prop :=
  Clash cr (recordHashed u i b) (recordHashed (recOwner L k) (recIndex L k) (readU8 (L k).data 6)) ∨
  (∃ b', Clash cr (recordHashed u i b) (stateHashed b')) ∨
  (∃ st b' b'', StateAddr cr st b' ∧ Clash cr (recordHashed u i b) (vaultHashed st b''))

/-- If nobody else can create accounts at the program's addresses, the record address of a user and an index is
blank or holds the open record of that user with that index. -/
theorem C60_record_address_states (hh : SealedHist cr h L) {u k : Pubkey} {i b : UInt8} (hk : RecordAddr cr u i k b) :
    Blank (L k) ∨ (IsRecord L k ∧ recOwner L k = u ∧ recIndex L k = i) ∨ AddressClash cr L u k i b := by
  have inv := hh.hist.inv
  have hu := u.len
  have hpl := PROGRAM_ID.len
  have hkh := recordAddr_hash hk
  rcases hh.settled (Or.inr ⟨u, i, b, hk⟩) with h1 | ⟨h1, h2⟩ | ⟨st, b', b'', h1, h2⟩
  · exact Or.inl h1
  · rcases inv.owned k h1 with h3 | h3 | h3
    · exact absurd h3 h2
    · refine Or.inr (Or.inr (Or.inr (Or.inl ⟨_, fun he => ?_, hkh.symm.trans (stateAddr_hash h3.addr)⟩)))
      have := congrArg List.length he
      simp [recordHashed, stateHashed, hu, hpl] at this
      omega
    · have hrec : IsRecord L k := ⟨h1, by rw [h3.len], h3.tag⟩
      have ha := recordAddr_hash h3.addr
      rcases record_hash_inj (hkh.symm.trans ha) with ⟨e1, e2, -⟩ | hc
      · exact Or.inr (Or.inl ⟨hrec, e1.symm, e2.symm⟩)
      · exact Or.inr (Or.inr (Or.inl hc))
  · refine Or.inr (Or.inr (Or.inr (Or.inr ⟨st, b', b'', h1, fun he => ?_, hkh.symm.trans (vaultAddr_hash h2)⟩)))
    have := congrArg List.length he
    have h3 := st.len
    have h4 := SPL_TOKEN_PROGRAM_ID.len
    have h5 := ORCA_MINT_ID.len
    have h6 := ASSOCIATED_TOKEN_PROGRAM_ID.len
    simp [recordHashed, vaultHashed, hu, hpl, h3, h4, h5, h6] at this
    omega

/-- Everything either client lists for a user is the content of an open record of that user. -/
theorem C60_listed_records_genuine (hh : SealedHist cr h L) {u : Pubkey} {p : PendingWithdraw}
    (hp : (∃ max l, Client.fetchPendingWithdraws cr L u max = some l ∧ p ∈ l) ∨
      (∃ max l, Client.jsFetchPendingWithdraws cr L u max = some l ∧ p ∈ l)) :
    ∃ i k b, i < 255 ∧ RecordAddr cr u (UInt8.ofNat i) k b ∧
      ((IsRecord L k ∧ recOwner L k = u ∧ recIndex L k = UInt8.ofNat i ∧
        p.unstaker = u ∧ p.withdrawIndex = UInt8.ofNat i ∧ p.withdrawableOrcaAmount.toNat = recAmount L k ∧
        p.withdrawableTimestamp.toInt = recTime L k) ∨ AddressClash cr L u k (UInt8.ofNat i) b) := by
  have key : ∀ i k b, i < 255 → RecordAddr cr u (UInt8.ofNat i) k b →
      PendingWithdraw.deserialize (L k).data = some p → ∃ i k b, i < 255 ∧ RecordAddr cr u (UInt8.ofNat i) k b ∧
      ((IsRecord L k ∧ recOwner L k = u ∧ recIndex L k = UInt8.ofNat i ∧
        p.unstaker = u ∧ p.withdrawIndex = UInt8.ofNat i ∧ p.withdrawableOrcaAmount.toNat = recAmount L k ∧
        p.withdrawableTimestamp.toInt = recTime L k) ∨ AddressClash cr L u k (UInt8.ofNat i) b) := by
    intro i k b hi hk hd
    refine ⟨i, k, b, hi, hk, ?_⟩
    obtain ⟨-, f1, f2, f3, f4, -⟩ := deserialize_fields hd
    rcases C60_record_address_states hh hk with h1 | ⟨h1, h2, h3⟩ | h1
    · rw [h1.2, show PendingWithdraw.deserialize [] = none by decide +kernel] at hd
      cases hd
    · exact Or.inl ⟨h1, h2, h3, f2.trans h2, f1.trans h3, f3, f4⟩
    · exact Or.inr h1
  rcases hp with ⟨max, l, hl, hp⟩ | ⟨max, l, hl, hp⟩
  · obtain ⟨i, hi, k, b, ha, -, hd⟩ := (fetchPending_mem hl p).1 hp
    exact key i k b (by have := (max.getD 15).toNat_lt; omega) ha hd
  · obtain ⟨i, hi, k, b, ha, -, hd⟩ := (jsFetchPending_mem hl p).1 hp
    exact key i k b (by have := (jsFetchPending_isSome.1 ⟨l, hl⟩).2.1; omega) ha hd

/-- So any index without an open record of the user can be used: nobody can occupy it.  (Compare C48: that the
address is blank is no longer assumed.) -/
theorem C60_unused_index_usable {u st pw xa xm om v sp tp : Meta} {a : UInt64} {i b vb : UInt8}
    (hh : SealedHist cr h L) (hx : x.cr = cr) (hsig : SignersOk cr L accs)
    (hi : Initialised cr L st.key) (hv : VaultAddr cr st.key v.key vb)
    (hc : UnstakeCall accs u st pw xa xm om v sp tp) (hpw : RecordAddr cr u.key i pw.key b)
    (hfree : ∀ k, IsRecord L k → ¬ (recOwner L k = u.key ∧ recIndex L k = i))
    (hxa : TokenOk L xa.key XORCA_MINT_ID u.key) (hu : Blank (L u.key))
    (hrent : (x.rentMin 1024).toNat ≤ (L u.key).lamports.toNat + (L pw.key).lamports.toNat)
    (h0 : 0 < a.toNat) (ha : a.toNat ≤ balance L xa.key) (has : a.toNat ≤ supply L XORCA_MINT_ID)
    (hfit : a.toNat * (backing L v.key st.key + 100) < 2 ^ 128) (hclk : x.now.toInt + coolDown L st.key < 2 ^ 63)
    (hom : MintOk L ORCA_MINT_ID) :
    Succeeds x L accs (.Unstake a i) ∨ AddressClash cr L u.key pw.key i b := by
  rcases C60_record_address_states hh hpw with h1 | ⟨h1, h2, h3⟩ | h1
  · exact Or.inl (C48_unstake_succeeds ⟨h, hh.hist⟩ hx hsig hi hv hc hpw h1 hxa hu hrent h0 ha has hfit hclk hom)
  · exact absurd ⟨h2, h3⟩ (hfree _ h1)
  · exact Or.inr h1

/-- In the fourth ledger of the demo index 255 is unused. -/
example := C60_unused_index_usable (x := Demo.ctx 1003) (a := 600000) Demo.sealed4 rfl Demo.signers5 Demo.init4
  Demo.va_addr (Demo.unstakeCall Demo.R255) Demo.r255_addr
  (no_record_of Demo.reach4 Demo.r255_addr (by decide +kernel)) Demo.ux_ok4 Demo.us_blank4 (by decide +kernel)
  (by decide +kernel) (by decide +kernel) (by decide +kernel) (by decide +kernel) (by decide +kernel) Demo.orca_ok4

example := C60_record_address_states Demo.sealed8 Demo.r0_addr
example : Blank (Demo.L9 Demo.R255) ∧ IsRecord Demo.L9 Demo.R0 := ⟨by decide +kernel, by
  refine ⟨?_, ?_, ?_⟩ <;> decide +kernel⟩
/-- The list of the demo user is not empty. -/
example : ∃ l p, Client.fetchPendingWithdraws Demo.cr Demo.L8 Demo.US none = some l ∧ p ∈ l ∧
    (p.unstaker = Demo.US ∨ ∃ k i b, AddressClash Demo.cr Demo.L8 Demo.US k i b) := by
  obtain ⟨l, hl⟩ := Demo.rust_lists none
  have h := C41_listed_partial Demo.reach8 Demo.record0.1
  rw [Demo.record0.2.1, Demo.record0.2.2.1] at h
  obtain ⟨p, hp, -⟩ := h.1 none l hl (by decide)
  obtain ⟨i, k, b, -, -, h1⟩ := C60_listed_records_genuine Demo.sealed8 (Or.inl ⟨none, l, hl, hp⟩)
  refine ⟨l, p, hl, hp, ?_⟩
  rcases h1 with h1 | h1
  · exact Or.inl h1.2.2.2.1
  · exact Or.inr ⟨_, _, _, h1⟩

end Xorca
