import Verif.Lemmas.EmptyPool
import Verif.Lemmas.DemoEmptyPool
import Verif.Lemmas.Live
import Verif.Props.Histories
import Verif.Props.Liveness
/-
C105: what stays in a pool when all xORCA is gone, and who gets it.
-/
namespace Xorca
open Spec

variable {cr : Crypto} {L L' L1 L2 : Ledger} {st v : Pubkey} {b : UInt8} {h : List Entry}

/-- When the last xORCA is unstaked, a part `100 / (supply + 100)` of what the pool earned stays in the vault, rounded
up. -/
theorem C105_what_stays {m : UInt64} {i : UInt8} (hr : Reachable cr L) (hi : Initialised cr L st)
    (hv : VaultAddr cr st v b) (h1 : Took cr L (.Unstake m i) L1) (hm : m.toNat = supply L XORCA_MINT_ID) :
    supply L1 XORCA_MINT_ID = 0 ∧
    100 * backing L v st ≤ 100 * supply L XORCA_MINT_ID + backing L1 v st * (supply L XORCA_MINT_ID + 100) ∧
    backing L1 v st * (supply L XORCA_MINT_ID + 100) + 100 * supply L XORCA_MINT_ID <
      100 * backing L v st + (supply L XORCA_MINT_ID + 100) := by
  obtain ⟨u1, u2, u3⟩ := h1.unstake hr (reachable_pool hr hi hv)
  rw [hm] at u2
  exact ⟨by omega, residue_bounds (by omega)⟩

/-- The victim leaves last: 4998039 units stay. -/
example := C105_what_stays Demo.reachP5 Demo.initP5 Demo.va_addr (Demo.took_run Demo.signersP6 Demo.runP6) (by decide +kernel)

/-- Who stakes into a pool without xORCA and unstakes at once gets the stake back together with a part
`stake / (stake + 100)` of what was in the pool; with a stake of a hundred times as much, all of it but one unit. -/
theorem C105_next_staker_takes_it {x m : UInt64} {i : UInt8} (hr : Reachable cr L) (hi : Initialised cr L st)
    (hv : VaultAddr cr st v b) (h0 : supply L XORCA_MINT_ID = 0) (h1 : Took cr L (.Stake x) L1)
    (h2 : Took cr L1 (.Unstake m i) L2) (hm : m.toNat = supply L1 XORCA_MINT_ID) :
    m.toNat = x.toNat ∧ escrow L2 st = escrow L st + x.toNat + x.toNat * backing L v st / (x.toNat + 100) ∧
    (100 * backing L v st ≤ x.toNat → backing L v st ≤ x.toNat * backing L v st / (x.toNat + 100) + 1) := by
  have p := reachable_pool hr hi hv
  have hr1 := h1.reach hr
  have p1 := h1.pool hr p
  obtain ⟨s1, s2, s3⟩ := h1.stake hr p
  obtain ⟨_, _, u3⟩ := h2.unstake hr1 p1
  have e1 : supply L1 XORCA_MINT_ID = x.toNat := by rw [s1, h0, mintFor, if_pos (Or.inl rfl)]; omega
  rw [s2, hm, e1, redeem_after_empty] at u3
  exact ⟨by omega, by omega, residue_taken⟩

/-- The attacker stakes 4.9 ORCA into the pool that both have left, and gets 4997937 units more. -/
example := C105_next_staker_takes_it Demo.reachP6 Demo.initP6 Demo.va_addr (by decide +kernel)
  (Demo.took_run Demo.signersP7 Demo.runP7) (Demo.took_run Demo.signersP8 Demo.runP8) (by decide +kernel)

/-- The donation attack pays if the victim leaves as well.  The attacker (`US`) and the victim (the deployer) start with
an empty pool; all calls are theirs, and the only other step is a transfer from the attacker to the vault.  In the end
nobody has xORCA, the attacker has 47917 units of ORCA more than before, and the victim has lost 48019 of 98000. -/
theorem C105_attack_after_all :
    Reachable Demo.cr Demo.M1 ∧ supply Demo.M1 XORCA_MINT_ID = 0 ∧ balance Demo.M1 Demo.VA = 0 ∧
    Path Demo.cr Demo.M1 Demo.attack Demo.P11 ∧
    (∀ e ∈ Demo.attack, (∃ x accs ix logs m, e.label = .call x accs ix logs ∧ accs[0]? = some m ∧ m.isSigner = true ∧
        (m.key = Demo.US ∨ m.key = DEPLOYER_ADDRESS)) ∨
      e = ⟨Demo.P2, .env, Demo.P3⟩) ∧
    splTransfer Demo.P2 Demo.UO Demo.VA Demo.US 5000000 = .ok Demo.P3 ∧
    ownerOf Demo.M1 Demo.UO = Demo.US ∧ ownerOf Demo.M1 Demo.DO = DEPLOYER_ADDRESS ∧
    balance Demo.P11 Demo.UO = balance Demo.M1 Demo.UO + 47917 ∧
    balance Demo.P11 Demo.DO + 48019 = balance Demo.M1 Demo.DO ∧ supply Demo.P11 XORCA_MINT_ID = 0 := by
  obtain ⟨f1, f2, f3, f4, f5, -, -, f6, f7⟩ := Demo.figuresP
  refine ⟨Demo.reachM1, f1, f2, Demo.path_attack, ?_, Demo.transferP3, by decide +kernel, by decide +kernel, by rw [f6, f3],
    by rw [f7, f4], f5⟩
  intro e he
  simp only [Demo.attack, List.mem_cons, List.not_mem_nil, or_false] at he
  rcases he with rfl | rfl | rfl | rfl | rfl | rfl | rfl | rfl | rfl | rfl
  · exact Or.inl ⟨_, _, _, _, _, rfl, rfl, rfl, Or.inl rfl⟩
  · exact Or.inl ⟨_, _, _, _, _, rfl, rfl, rfl, Or.inr rfl⟩
  · exact Or.inl ⟨_, _, _, _, _, rfl, rfl, rfl, Or.inl rfl⟩
  · exact Or.inl ⟨_, _, _, _, _, rfl, rfl, rfl, Or.inl rfl⟩
  · exact Or.inl ⟨_, _, _, _, _, rfl, rfl, rfl, Or.inl rfl⟩
  · exact Or.inl ⟨_, _, _, _, _, rfl, rfl, rfl, Or.inr rfl⟩
  · exact Or.inl ⟨_, _, _, _, _, rfl, rfl, rfl, Or.inl rfl⟩
  · exact Or.inl ⟨_, _, _, _, _, rfl, rfl, rfl, Or.inr rfl⟩
  · exact Or.inr rfl
  · exact Or.inl ⟨_, _, _, _, _, rfl, rfl, rfl, Or.inl rfl⟩

/-- Who keeps out stakes of `a` has put ORCA into the pool that stays there: as long as nobody stakes into a pool without
xORCA, whatever happens, more than `100 * (a - 1)` units remain. -/
theorem C105_keeping_stakers_out {x : Ctx} {s v oa xa xm st om tp : Meta} {rest : List Meta} {a : UInt64}
    (hr : Reachable cr L) (hi : Initialised cr L st.key) (hv : VaultAddr cr st.key v.key b)
    (hf : Fails x L (s :: v :: oa :: xa :: xm :: st :: om :: tp :: rest) (.Stake a) (.custom .InsufficientStakeAmount))
    (hp : Path cr L h L') (hno : ∀ e ∈ h, ¬ OrphanStake e st.key v.key) :
    a.toNat * (supply L' XORCA_MINT_ID + 100) < backing L' v.key st.key + 100 := by
  have h1 : mintFor a.toNat (backing L v.key st.key) (supply L XORCA_MINT_ID) = 0 := C28_stake_dust_only hf
  exact refused_later (mintFor_zero h1) (C09_no_dilution hr hi hv hp hno).1

/-- A stake of 49000 units is refused while the attacker's gift is in the pool; the attacker leaves. -/
example := C105_keeping_stakers_out Demo.reachP3 Demo.initP3 Demo.va_addr (v := ⟨Demo.VA, false, true⟩)
    (st := ⟨Demo.ST, false, false⟩) Demo.refused Demo.pathO4
    (by
      intro e he ho
      simp only [List.mem_singleton] at he
      subst he
      obtain ⟨_, _, _, _, h⟩ := ho.1
      cases h)

/-- The unit of xORCA sent to the incinerator does not keep the supply above zero: anybody can burn it, without any
signature. -/
theorem C105_incinerated_can_be_burned {t auth : Pubkey} {ms : List Pubkey} {n : UInt64} {rent : Nat → UInt64}
    (hr : Reachable cr L) (hi : Initialised cr L st) (hrent : ∀ n, rent n ≠ 0)
    (ht : TokenOk L t XORCA_MINT_ID INCINERATOR_ID) (hn : n.toNat ≤ balance L t) (hs : n.toNat ≤ supply L XORCA_MINT_ID) :
    ∃ L', tokenExec rent (fun _ => false) L (.burn t XORCA_MINT_ID auth ms n none) = .ok L' ∧ Outside cr L L' ∧
      supply L' XORCA_MINT_ID = supply L XORCA_MINT_ID - n.toNat ∧ balance L' t = balance L t - n.toNat ∧
      ∀ k, k ≠ t → k ≠ XORCA_MINT_ID → L' k = L k := by
  obtain ⟨v, p⟩ := hr.inv.ofInitialised hi
  obtain ⟨L', h1, h2, h3, h4⟩ := tokBurn_incinerated (sg := fun _ => false) (auth := auth) (ms := ms) ht
    ⟨p.mint.prog, p.mint.len, p.mint.init, Or.inr p.mint.flag, Or.inl p.mint.freeze⟩ hn hs
  exact ⟨L', h1, .token (ix := .burn t XORCA_MINT_ID auth ms n none) hrent (fun _ _ _ => rfl) h1, h2, h3, h4⟩

/-- The only unit of xORCA is in an account of the incinerator; any third party burns it. -/
example := C105_incinerated_can_be_burned (auth := Demo.AU) (ms := []) (n := 1) (rent := (Demo.ctx 1000).rentMin)
  Demo.reachQ3 Demo.initQ3 Demo.rent_ne Demo.incinerated (by decide +kernel) (by decide +kernel)

end Xorca
