import Verif.Lemmas.ReadmeAux
import Verif.Readme
import Verif.View
import Verif.Props.Accept
import Verif.Props.Effects
import Verif.Props.Init
import Verif.Lemmas.DemoCalls
/-
C86: how far the program's documentation (`solana-program/README.md`) agrees with the program.
-/
namespace Xorca
open Spec

variable {cr : Crypto} {x : Ctx} {L L' : Ledger} {rest : List Meta} {logs : List Bytes}

/-- Stake mints at least what the README says, and with a non-empty pool of `n` ORCA against `s` xORCA less than one
unit plus `a * 100 * (n - s) / (n * (n + 100))` more.  At par, and in an empty pool, it mints exactly that. -/
theorem C86_stake_vs_readme {s v oa xa xm st om tp : Meta} {a : UInt64} (hr : Reachable x.cr L)
    (h : Runs x L (s :: v :: oa :: xa :: xm :: st :: om :: tp :: rest) (.Stake a) L' logs)
    (hs : SignersOk x.cr L (s :: v :: oa :: xa :: xm :: st :: om :: tp :: rest)) :
    let n := backing L v.key st.key
    let s := supply L XORCA_MINT_ID
    let minted := balance L' xa.key - balance L xa.key
    readmeMint a.toNat n s ≤ minted ∧
    (s ≠ 0 → minted * (n * (n + 100)) < (readmeMint a.toNat n s + 1) * (n * (n + 100)) + a.toNat * 100 * (n - s)) ∧
    (s = 0 ∨ s = n → minted = readmeMint a.toNat n s) := by
  obtain ⟨h1, h2, h3, -⟩ := Props.C01_exact_mint_amount h hs
  obtain ⟨L1, m, r⟩ := h.stake
  obtain ⟨v', p⟩ := hr.inv.poolOf r.st_prog r.st_disc
  obtain rfl := p.vault_eq r.v_addr
  have hb : supply L XORCA_MINT_ID ≤ backing L v.key st.key := by
    have := p.backed
    simp only [backing]
    omega
  have hm : balance L' xa.key - balance L xa.key =
      mintFor a.toNat (backing L v.key st.key) (supply L XORCA_MINT_ID) := by
    rw [h3]; simp only [backing]; omega
  simp only [hm]
  refine ⟨readmeMint_le hb, fun hs => mintFor_lt_readme hb hs, ?_⟩
  rintro (h0 | h0)
  · simp [readmeMint, mintFor, h0]
  · by_cases hz : supply L XORCA_MINT_ID = 0
    · simp [readmeMint, mintFor, hz]
    · rw [← h0]
      unfold readmeMint mintFor
      rw [if_neg (by omega), if_pos ⟨hz, hz⟩, Nat.mul_div_cancel _ (by omega), Nat.mul_div_cancel _ (by omega)]

/-- Unstake sets aside at most what the README says, and less than one unit plus `x * 100 * (n - s) / (s * (s + 100))`
less; at par exactly that. -/
theorem C86_unstake_vs_readme {u st pw xa xm om v sp tp : Meta} {a : UInt64} {i : UInt8} (hr : Reachable x.cr L)
    (h : Runs x L (u :: st :: pw :: xa :: xm :: om :: v :: sp :: tp :: rest) (.Unstake a i) L' logs)
    (hs : SignersOk x.cr L (u :: st :: pw :: xa :: xm :: om :: v :: sp :: tp :: rest)) :
    let n := backing L v.key st.key
    let s := supply L XORCA_MINT_ID
    recAmount L' pw.key ≤ readmeRedeem a.toNat n s ∧
    readmeRedeem a.toNat n s * (s * (s + 100)) < (recAmount L' pw.key + 1) * (s * (s + 100)) + a.toNat * 100 * (n - s) ∧
    (s = n → recAmount L' pw.key = readmeRedeem a.toNat n s) := by
  obtain ⟨h1, h2, h3, h4, -⟩ := Props.C02_exact_redemption_amount h hs
  obtain ⟨L1, L3, w, e', ts, b, r⟩ := h.unstake
  obtain ⟨v', p⟩ := hr.inv.poolOf r.st_prog r.st_disc
  obtain rfl := p.vault_eq r.v_addr
  have hb : supply L XORCA_MINT_ID ≤ backing L v.key st.key := by
    have := p.backed
    simp only [backing]
    omega
  have hm : recAmount L' pw.key = redeemFor a.toNat (backing L v.key st.key) (supply L XORCA_MINT_ID) := h4
  simp only [hm]
  refine ⟨redeem_le_readme hb h2, readme_lt_redeem hb h2, ?_⟩
  intro h0
  rw [← h0]
  unfold readmeRedeem redeemFor
  rw [Nat.mul_div_cancel _ (by omega), Nat.mul_div_cancel _ (by omega)]

/-- The README's formulas are not what the program computes: in the demo, after a gift of 500000, the second Stake
mints 200006 instead of 200000, and the first Unstake sets aside 899970 instead of 899995. -/
theorem C86_readme_formulas_wrong :
    (∃ (x : Ctx) (L L' : Ledger) (accs : List Meta) (a : UInt64) (logs : List Bytes) (st v xa : Pubkey),
      Reachable x.cr L ∧ Runs x L accs (.Stake a) L' logs ∧ SignersOk x.cr L accs ∧
      Names accs 5 st ∧ Names accs 1 v ∧ Names accs 3 xa ∧
      balance L' xa = balance L xa + 200006 ∧ readmeMint a.toNat (backing L v st) (supply L XORCA_MINT_ID) = 200000) ∧
    (∃ (x : Ctx) (L L' : Ledger) (accs : List Meta) (a : UInt64) (i : UInt8) (logs : List Bytes) (st v pw : Pubkey),
      Reachable x.cr L ∧ Runs x L accs (.Unstake a i) L' logs ∧ SignersOk x.cr L accs ∧
      Names accs 1 st ∧ Names accs 6 v ∧ Names accs 2 pw ∧
      recAmount L' pw = 899970 ∧ readmeRedeem a.toNat (backing L v st) (supply L XORCA_MINT_ID) = 899995) := by
  constructor
  · exact ⟨Demo.ctx 1002, Demo.L3, Demo.L4, _, _, _, Demo.ST, Demo.VA, Demo.UX, Demo.reach3, Demo.run4, Demo.signers4,
      ⟨_, rfl, rfl⟩, ⟨_, rfl, rfl⟩, ⟨_, rfl, rfl⟩, by decide +kernel, by decide +kernel⟩
  · exact ⟨Demo.ctx 1003, Demo.L4, Demo.L5, _, _, _, _, Demo.ST, Demo.VA, Demo.R255, Demo.reach4, Demo.run5, Demo.signers5,
      ⟨_, rfl, rfl⟩, ⟨_, rfl, rfl⟩, ⟨_, rfl, rfl⟩, by decide +kernel, by decide +kernel⟩

example := C86_stake_vs_readme (x := Demo.ctx 1002) Demo.reach3 Demo.run4 Demo.signers4
example := C86_unstake_vs_readme (x := Demo.ctx 1003) Demo.reach4 Demo.run5 Demo.signers5

/-- Initialize accepts any authority that signs, not one built-in key as the README has it: if a call succeeds, so does
the call with any other signing and writable account in its place, and that account becomes the authority. -/
theorem C86_initialize_any_authority {p au au' st v xm om sp tp ap : Meta} {c : Int64} (hx : x.cr = cr)
    (hsig : SignersOk cr L (p :: au :: st :: v :: xm :: om :: sp :: tp :: ap :: rest))
    (hsig' : SignersOk cr L (p :: au' :: st :: v :: xm :: om :: sp :: tp :: ap :: rest))
    (hp : Blank (L p.key)) (hxm : MintOk L XORCA_MINT_ID) (hom : MintOk L ORCA_MINT_ID)
    (hf1 : readU32 (L ORCA_MINT_ID).data 0 = 0 ∨ readU32 (L ORCA_MINT_ID).data 0 = 1)
    (hf2 : readU32 (L ORCA_MINT_ID).data 46 = 0 ∨ readU32 (L ORCA_MINT_ID).data 46 = 1)
    (h1 : au'.isSigner = true) (h2 : au'.isWritable = true)
    (h : Succeeds x L (p :: au :: st :: v :: xm :: om :: sp :: tp :: ap :: rest) (.Initialize c)) :
    ∃ L' logs, Runs x L (p :: au' :: st :: v :: xm :: om :: sp :: tp :: ap :: rest) (.Initialize c) L' logs ∧
      authority L' st.key = au'.key := by
  obtain ⟨hc, hrest⟩ := (C58_initialize_accepted_iff hx hsig hp hxm hom hf1 hf2).1 h
  have hc' : InitCall (p :: au' :: st :: v :: xm :: om :: sp :: tp :: ap :: rest) p au' st v xm om sp tp ap := by
    obtain ⟨-, g1, g2, g3, g4, g5, g6, g7, g8, g9, g10, g11, g12⟩ := hc
    exact ⟨⟨rest, rfl⟩, g1, g2, h1, h2, g5, g6, g7, g8, g9, g10, g11, g12⟩
  obtain ⟨L', logs, hrun⟩ := succeeds_iff.1 ((C58_initialize_accepted_iff hx hsig' hp hxm hom hf1 hf2).2 ⟨hc', hrest⟩)
  refine ⟨L', logs, hrun, ?_⟩
  subst hx
  obtain ⟨L1, b, vb, r⟩ := hrun.init
  obtain ⟨l, g1, -⟩ := (r.eff hsig').st_new
  obtain ⟨-, -, -, -, -, c24⟩ := initialStateBytes_fields b vb c au'.key
  rw [authority, g1]; simp only; rw [c24]

/-- Unstake does not need the vault to be writable, as the README has it: the flag makes no difference. -/
theorem C86_unstake_vault_read_only {u st pw xa xm om v sp tp : Meta} {a : UInt64} {i : UInt8} {m1 o1 : Pubkey} (w : Bool)
    (hr : Reachable cr L) (hx : x.cr = cr)
    (hsig : SignersOk cr L (u :: st :: pw :: xa :: xm :: om :: v :: sp :: tp :: rest))
    (hxa : TokenOk L xa.key m1 o1) (hom : MintOk L ORCA_MINT_ID) (hu : Blank (L u.key)) :
    Succeeds x L (u :: st :: pw :: xa :: xm :: om :: v :: sp :: tp :: rest) (.Unstake a i) ↔
    Succeeds x L (u :: st :: pw :: xa :: xm :: om :: ⟨v.key, v.isSigner, w⟩ :: sp :: tp :: rest) (.Unstake a i) := by
  have hsig' : SignersOk cr L (u :: st :: pw :: xa :: xm :: om :: ⟨v.key, v.isSigner, w⟩ :: sp :: tp :: rest) := by
    intro m hm hs
    simp only [List.mem_cons] at hm
    rcases hm with rfl | rfl | rfl | rfl | rfl | rfl | rfl | rfl | rfl | hm
    · exact hsig _ (by simp) hs
    · exact hsig _ (by simp) hs
    · exact hsig _ (by simp) hs
    · exact hsig _ (by simp) hs
    · exact hsig _ (by simp) hs
    · exact hsig _ (by simp) hs
    · exact hsig v (by simp) hs
    · exact hsig _ (by simp) hs
    · exact hsig _ (by simp) hs
    · exact hsig _ (by simp [hm]) hs
  rw [C58_unstake_accepted_iff hr hx hsig hxa hom hu, C58_unstake_accepted_iff hr hx hsig' hxa hom hu]
  constructor
  · rintro ⟨⟨-, g1, g2, g3, g4, g5, g6, g7, g8, g9, g10⟩, k⟩
    exact ⟨⟨⟨rest, rfl⟩, g1, g2, g3, g4, g5, g6, g7, g8, g9, g10⟩, k⟩
  · rintro ⟨⟨-, g1, g2, g3, g4, g5, g6, g7, g8, g9, g10⟩, k⟩
    exact ⟨⟨⟨rest, rfl⟩, g1, g2, g3, g4, g5, g6, g7, g8, g9, g10⟩, k⟩

/-- The demo's Initialize names the user; it works as well with the deployer. -/
example : ∃ L' logs, Runs (Demo.ctx 1000) Demo.L0 [⟨DEPLOYER_ADDRESS, true, true⟩, ⟨DEPLOYER_ADDRESS, true, true⟩,
    ⟨Demo.ST, false, true⟩, ⟨Demo.VA, false, true⟩, ⟨XORCA_MINT_ID, false, false⟩, ⟨ORCA_MINT_ID, false, false⟩,
    ⟨SYSTEM_PROGRAM_ID, false, false⟩, ⟨SPL_TOKEN_PROGRAM_ID, false, false⟩,
    ⟨ASSOCIATED_TOKEN_PROGRAM_ID, false, false⟩] (.Initialize 100) L' logs ∧ authority L' Demo.ST = DEPLOYER_ADDRESS :=
  C86_initialize_any_authority (cr := Demo.cr) rfl Demo.signers1 (Demo.signersOk (by decide +kernel)) (by decide +kernel)
    (by decide +kernel) (by decide +kernel) (Or.inr (by decide +kernel)) (Or.inl (by decide +kernel)) rfl rfl
    (succeeds_iff.2 ⟨_, _, Demo.run1⟩)

/-- The demo's first Unstake with the vault passed read-only and writable. -/
example (w : Bool) := (C86_unstake_vault_read_only w Demo.reach4 rfl Demo.signers5 Demo.ux_ok4 Demo.orca_ok4
  Demo.us_blank4).1 (succeeds_iff.2 ⟨_, _, Demo.run5⟩)

end Xorca
