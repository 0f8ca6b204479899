import Verif.Lemmas.System
import Verif.Lemmas.Exec
import Verif.Lemmas.Stake
import Verif.History
/-
The environment relation admits what other programs and users really do: token transfers, mints and burns,
lamport transfers and account creation, as long as the pool itself does not sign.
-/
namespace Xorca
open Spec

variable {cr : Crypto} {L L' : Ledger}

/-- Nothing happens. -/
theorem envStep_refl (h : MintShape (L XORCA_MINT_ID)) : EnvStep cr L L where
  owned _ h1 _ := ⟨h1, rfl, Nat.le_refl _⟩
  given _ h1 := Or.inr ⟨h1, rfl⟩
  token _ p := ⟨p.prog, p.len, fun _ _ _ _ => rfl, p.state, Nat.le_refl _⟩
  mint p := ⟨p.prog, ⟨rfl, fun _ _ => rfl⟩, Nat.le_refl _⟩
  shape := h

/-- A token instruction: only data of accounts of the token program changes. -/
theorem envStep_token {ks : List Pubkey} (hf : DataFrame L L' ks)
    (ho : ∀ k ∈ ks, (L k).owner = SPL_TOKEN_PROGRAM_ID)
    (ht : ∀ k ∈ ks, PoolToken cr (L k) → ∃ v, (L' k).data = writeAt (L k).data 64 (u64le v) ∧ balance L k ≤ v.toNat)
    (hm : XORCA_MINT_ID ∈ ks → PoolMint cr (L XORCA_MINT_ID) →
      ∃ v, (L' XORCA_MINT_ID).data = writeAt (L XORCA_MINT_ID).data 36 (u64le v) ∧ v.toNat ≤ supply L XORCA_MINT_ID)
    (hs : MintShape (L' XORCA_MINT_ID)) : EnvStep cr L L' where
  owned k h1 _ := by
    have hk : k ∉ ks := fun h => token_ne_program ((ho k h).symm.trans h1)
    rw [hf.other k hk]; exact ⟨h1, rfl, Nat.le_refl _⟩
  given k h1 := by
    rw [hf.owner] at h1
    have hk : k ∉ ks := fun h => token_ne_program ((ho k h).symm.trans h1)
    rw [hf.other k hk]; exact Or.inr ⟨h1, rfl⟩
  token k p := by
    by_cases hk : k ∈ ks
    · obtain ⟨v, h1, h2⟩ := ht k hk p
      have hl : 64 + (u64le v).length ≤ (L k).data.length := by rw [p.len]; simp
      refine ⟨(hf.owner k).trans p.prog, ?_, ?_, ?_, ?_⟩
      · rw [h1, writeAt_length hl, p.len]
      · intro j _ hj _
        rw [h1]
        exact (sameExcept_writeAt hl).2 j (by simp; omega)
      · rw [h1, readU8_writeAt_apart hl (by simp [Apart])]; exact p.state
      · unfold balance at h2 ⊢
        rw [h1, readU64_writeAt_same (by rw [p.len]; omega)]; exact h2
    · rw [hf.other k hk]
      exact ⟨p.prog, p.len, fun _ _ _ _ => rfl, p.state, by unfold balance; rw [hf.other k hk]⟩
  mint p := by
    by_cases hk : XORCA_MINT_ID ∈ ks
    · obtain ⟨v, h1, h2⟩ := hm hk p
      have hl : 36 + (u64le v).length ≤ (L XORCA_MINT_ID).data.length := by rw [p.len]; simp
      refine ⟨(hf.owner _).trans p.prog, ⟨?_, ?_⟩, ?_⟩
      · rw [h1, writeAt_length hl]
      · intro j hj
        rw [h1]
        exact (sameExcept_writeAt hl).2 j (by simp; omega)
      · unfold supply at h2 ⊢
        rw [h1, readU64_writeAt_same (by rw [p.len]; omega)]; exact h2
    · unfold supply
      rw [hf.other _ hk]
      exact ⟨p.prog, ⟨rfl, fun _ _ => rfl⟩, Nat.le_refl _⟩
  shape := hs

theorem mintShape_ne_token {k : Pubkey} (h : MintShape (L XORCA_MINT_ID)) (u : TokUsable (L k)) :
    k ≠ XORCA_MINT_ID := by
  rintro rfl
  rcases h u.owner with h | h
  · exact not_allZero (o := 108) (by rw [u.state]; decide) h
  · rw [u.len] at h; exact absurd h.1 (by decide)

theorem poolToken_auth {a : Account} {auth : Pubkey} (p : PoolToken cr a) (hd : DebitAuth a.data auth) :
    ∃ b, StateAddr cr auth b := by
  rcases hd with h | h
  · rw [← h]; exact p.owner
  · rw [p.delegate] at h; exact absurd h.1 (by decide)

/-- A transfer of tokens not signed by the pool. -/
theorem envStep_transfer {src dst auth : Pubkey} {amt : UInt64} (h : splTransfer L src dst auth amt = .ok L')
    (ha : ∀ b, ¬ StateAddr cr auth b) (hs : MintShape (L XORCA_MINT_ID)) : EnvStep cr L L' := by
  by_cases hne : src = dst
  · subst hne
    unfold splTransfer at h
    simp only [bind_eq_ok, exists_unit, ensure_eq_ok, if_true, Except.ok.injEq] at h
    obtain ⟨_, _, _, _, _, _, _, _, _, _, _, rfl⟩ := h
    exact envStep_refl hs
  · have e := splTransfer_eff hne h
    have n1 := mintShape_ne_token hs e.src_ok
    have n2 := mintShape_ne_token hs e.dst_ok
    refine envStep_token e.frame ?_ ?_ ?_ ?_
    · intro k hk
      simp only [List.mem_cons, List.not_mem_nil, or_false] at hk
      rcases hk with rfl | rfl
      · exact e.src_ok.owner
      · exact e.dst_ok.owner
    · intro k hk p
      simp only [List.mem_cons, List.not_mem_nil, or_false] at hk
      rcases hk with rfl | rfl
      · obtain ⟨b, hb⟩ := poolToken_auth p e.debitAuth
        exact absurd hb (ha b)
      · obtain ⟨v, h1, h2⟩ := e.credit
        exact ⟨v, h1, by unfold balance; omega⟩
    · intro hk
      simp only [List.mem_cons, List.not_mem_nil, or_false] at hk
      rcases hk with h | h
      · exact absurd h.symm n1
      · exact absurd h.symm n2
    · rw [e.frame.other _ (by simp [n1.symm, n2.symm])]; exact hs

/-- A burn of tokens not signed by the pool. -/
theorem envStep_burn {src mint auth : Pubkey} {amt : UInt64} (h : splBurn L src mint auth amt = .ok L')
    (ha : ∀ b, ¬ StateAddr cr auth b) (h1 : ∀ b, ¬ StateAddr cr SYSTEM_PROGRAM_ID b)
    (h2 : ∀ b, ¬ StateAddr cr INCINERATOR_ID b) (hs : MintShape (L XORCA_MINT_ID)) : EnvStep cr L L' := by
  have e := splBurn_eff h
  have n2 := mintShape_ne_token hs e.src_ok
  refine envStep_token e.frame ?_ ?_ ?_ ?_
  · intro k hk
    simp only [List.mem_cons, List.not_mem_nil, or_false] at hk
    rcases hk with rfl | rfl
    · exact e.src_ok.owner
    · exact e.mint_ok.owner
  · intro k hk p
    simp only [List.mem_cons, List.not_mem_nil, or_false] at hk
    rcases hk with rfl | rfl
    · rcases e.authKey with h | h | h
      · obtain ⟨b, hb⟩ := p.owner; rw [h] at hb; exact absurd hb (h1 b)
      · obtain ⟨b, hb⟩ := p.owner; rw [h] at hb; exact absurd hb (h2 b)
      · obtain ⟨b, hb⟩ := poolToken_auth p h; exact absurd hb (ha b)
    · have := p.len; rw [e.mint_ok.len] at this; omega
  · intro hk p
    simp only [List.mem_cons, List.not_mem_nil, or_false] at hk
    rcases hk with h | h
    · exact absurd h.symm n2
    · subst h
      obtain ⟨v, h3, h4⟩ := e.supply
      exact ⟨v, h3, by unfold supply; omega⟩
  · by_cases hk : XORCA_MINT_ID = mint
    · subst hk
      obtain ⟨v, h1, _⟩ := e.supply
      have hl : 36 + (u64le v).length ≤ (L XORCA_MINT_ID).data.length := by rw [e.mint_ok.len]; simp
      intro _
      right
      rw [h1, writeAt_length hl, readU8_writeAt_apart hl (by simp [Apart])]
      exact ⟨e.mint_ok.len, e.mint_ok.init⟩
    · rw [e.frame.other _ (by simp [hk, n2.symm])]; exact hs

/-- Lamports sent to any account. -/
theorem envStep_lamports {src dst : Pubkey} {n : UInt64} (hne : src ≠ dst) (h : systemTransfer L src dst n = .ok L')
    (hs : MintShape (L XORCA_MINT_ID)) : EnvStep cr L L' := by
  have e := systemTransfer_eff hne h
  have hd : ∀ k, (L' k).owner = (L k).owner ∧ (L' k).data = (L k).data := by
    intro k
    by_cases h1 : k = src
    · subst h1; obtain ⟨v, hv, _⟩ := e.debit; rw [hv]; exact ⟨rfl, rfl⟩
    · by_cases h2 : k = dst
      · subst h2; obtain ⟨v, hv, _⟩ := e.credit; rw [hv]; exact ⟨rfl, rfl⟩
      · rw [e.other k h1 h2]; exact ⟨rfl, rfl⟩
  refine ⟨?_, ?_, ?_, ?_, ?_⟩
  · intro k ho _
    refine ⟨(hd k).1.trans ho, (hd k).2, ?_⟩
    by_cases h1 : k = src
    · subst h1; rw [e.srcOwner] at ho; exact absurd ho.symm program_ne_system
    · by_cases h2 : k = dst
      · subst h2; obtain ⟨v, hv, hv'⟩ := e.credit; rw [hv]; change _ ≤ v.toNat; omega
      · rw [e.other k h1 h2]
  · intro k ho
    exact Or.inr ⟨(hd k).1.symm.trans ho, (hd k).2⟩
  · intro k p
    unfold balance
    rw [(hd k).1, (hd k).2]
    exact ⟨p.prog, p.len, fun _ _ _ _ => rfl, p.state, Nat.le_refl _⟩
  · intro p
    unfold supply SameExcept
    rw [(hd _).1, (hd _).2]
    exact ⟨p.prog, ⟨rfl, fun _ _ => rfl⟩, Nat.le_refl _⟩
  · unfold MintShape
    rw [(hd _).1, (hd _).2]; exact hs

/-- An account created by somebody else. -/
theorem envStep_create {f k o : Pubkey} {n : Nat} {d : Bytes} (hne : f ≠ k) (e : CreateEff L L' f k n o d)
    (ho : o ≠ PROGRAM_ID ∨ AllZero d) (hk : k ≠ XORCA_MINT_ID) (hs : MintShape (L XORCA_MINT_ID)) :
    EnvStep cr L L' := by
  have hd : ∀ k', k' ≠ k → (L' k').owner = (L k').owner ∧ (L' k').data = (L k').data := by
    intro k' h
    by_cases h1 : k' = f
    · subst h1; obtain ⟨v, hv, _⟩ := e.paid; rw [hv]; exact ⟨rfl, rfl⟩
    · rw [e.other k' h1 h]; exact ⟨rfl, rfl⟩
  have hnk : ∀ k', (L k').owner ≠ SYSTEM_PROGRAM_ID → k' ≠ k := by
    rintro k' h rfl; exact h e.system
  refine ⟨?_, ?_, ?_, ?_, ?_⟩
  · intro k' hp _
    have n1 := hnk k' (by rw [hp]; exact program_ne_system)
    refine ⟨(hd k' n1).1.trans hp, (hd k' n1).2, ?_⟩
    by_cases h1 : k' = f
    · subst h1
      obtain ⟨v, hv, hv2⟩ := e.paid
      rcases e.payer with h | h
      · rw [h] at hp; exact absurd hp.symm program_ne_system
      · rw [hv]; change _ ≤ v.toNat; omega
    · rw [e.other k' h1 n1]
  · intro k' hp
    by_cases h : k' = k
    · subst h
      obtain ⟨v, hv, _⟩ := e.created
      rw [hv] at hp ⊢
      rcases ho with h | h
      · exact absurd hp h
      · exact Or.inl h
    · exact Or.inr ⟨(hd k' h).1.symm.trans hp, (hd k' h).2⟩
  · intro k' p
    have h := hd k' (hnk k' (by rw [p.prog]; exact token_ne_system))
    unfold balance
    rw [h.1, h.2]
    exact ⟨p.prog, p.len, fun _ _ _ _ => rfl, p.state, Nat.le_refl _⟩
  · intro p
    have h := hd XORCA_MINT_ID hk.symm
    unfold supply SameExcept
    rw [h.1, h.2]
    exact ⟨p.prog, ⟨rfl, fun _ _ => rfl⟩, Nat.le_refl _⟩
  · have h := hd XORCA_MINT_ID hk.symm
    unfold MintShape
    rw [h.1, h.2]; exact hs

end Xorca
