import Verif.Lemmas.GivenUpAux
/-
C120: the settings without their authority.
-/
namespace Xorca
open Spec

variable {cr : Crypto} {L L' : Ledger} {st : Pubkey} {h : List Entry}

/-- As long as the authority signs no Set, cool-down and authority stay, whatever happens. -/
theorem C120_settings_need_the_key (hr : Reachable cr L) (hi : Initialised cr L st) (hp : Path cr L h L')
    (hk : ∀ e ∈ h, ∀ x accs u logs, e.label = .call x accs (.Set u) logs → ∀ m ∈ accs, m.isSigner = true →
      m.key ≠ authority L st) : coolDown L' st = coolDown L st ∧ authority L' st = authority L st := by
  obtain ⟨v, p⟩ := hr.inv.ofInitialised hi
  induction hp with
  | nil => exact ⟨rfl, rfl⟩
  | @step h e q ok ih =>
    obtain ⟨h1, h2⟩ := ih (fun e he => hk e (List.mem_cons_of_mem _ he))
    obtain ⟨i1, hpool⟩ := q.inv hr.inv
    rcases settings_step ok i1 (hpool st v p) with ⟨k1, k2⟩ | ⟨x, au, rest, u, logs, hl, hs, ha, -⟩
    · exact ⟨k1.trans h1, k2.trans h2⟩
    · exact absurd (ha.trans h2) (hk e (by simp) _ _ _ _ hl au (by simp) hs)

/-- An Unstake. -/
example := C120_settings_need_the_key Demo.reach4 Demo.init4 Demo.path45 (by
  intro e he
  simp only [List.mem_cons, List.not_mem_nil, or_false] at he
  rcases he with rfl
  intro x accs u logs hl
  cases hl)

/-- An authority that nobody can sign for, the state address or the vault: no Set ever succeeds again, and the settings
are fixed for good. -/
theorem C120_given_up {b : UInt8} (hr : Reachable cr L) (hi : Initialised cr L st) (hb : StateAddr cr st b)
    (ha : authority L st = st ∨ ∃ vb, VaultAddr cr st (authority L st) vb) (hp : Path cr L h L') :
    coolDown L' st = coolDown L st ∧ authority L' st = authority L st ∧
    ∀ x accs u L2 logs, x.cr = cr → SignersOk cr L' accs → ¬ Runs x L' accs (.Set u) L2 logs := by
  have hno : ∀ M accs, SignersOk cr M accs → ∀ m ∈ accs, m.isSigner = true → m.key ≠ authority L st := by
    intro M accs hs m hm hsig he
    obtain ⟨-, n1, n2, -⟩ := hs m hm hsig
    rcases ha with ha | ⟨vb, ha⟩
    · exact n1 b (by rw [he, ha]; exact hb)
    · exact n2 st b vb hb (by rw [he]; exact ha)
  have hset : ∀ h' M, Path cr L h' M → coolDown M st = coolDown L st ∧ authority M st = authority L st := by
    intro h' M hq
    obtain ⟨v, p⟩ := hr.inv.ofInitialised hi
    induction hq with
    | nil => exact ⟨rfl, rfl⟩
    | @step h' e q ok ih =>
      obtain ⟨i1, hpool⟩ := q.inv hr.inv
      rcases settings_step ok i1 (hpool st v p) with ⟨k1, k2⟩ | ⟨x, au, rest, u, logs, hl, hs, hau, hs'⟩
      · exact ⟨k1.trans ih.1, k2.trans ih.2⟩
      · exact absurd (hau.trans ih.2) (hno _ _ hs' au (by simp) hs)
  obtain ⟨f1, f2⟩ := hset h L' hp
  refine ⟨f1, f2, fun x accs u L2 logs hx hs hrun => ?_⟩
  obtain ⟨v, p⟩ := hr.inv.ofInitialised hi
  obtain ⟨i1, hpool⟩ := hp.inv hr.inv
  subst hx
  obtain ⟨a, st', v', r, q, -⟩ := i1.set hrun.dispatch
  obtain ⟨e1, -⟩ := (hpool st v p).unique q
  obtain ⟨rest, rfl⟩ := r.accs_eq
  exact hno _ _ hs a (by simp) r.signer (by rw [r.auth, e1, f2])

/-- The authority of the example hands over to the state address; after that there are no more Sets. -/
example : ∀ accs u L2 logs, SignersOk Demo.cr Demo.gone accs → ¬ Runs (Demo.ctx 1007) Demo.gone accs (.Set u) L2 logs :=
  have hr := Demo.tookGone.reach Demo.reach7
  fun accs u L2 logs hs => (C120_given_up hr ⟨⟨_, Demo.st_addr⟩, Demo.stepGone.2.2⟩ Demo.st_addr (.inl Demo.stepGone.2.1)
    .nil).2.2 _ accs u L2 logs rfl hs

end Xorca
