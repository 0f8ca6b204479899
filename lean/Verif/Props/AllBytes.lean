import Verif.Lemmas.BytesAux
/-
C119: every byte of every account of the program.
-/
namespace Xorca
open Spec

variable {cr : Crypto} {L M : Ledger} {st v k : Pubkey} {b vb : UInt8}

/-- The state account: tag, zeros, the two bumps, the three settings, zeros. -/
theorem C119_state (hr : Reachable cr L) (hi : Initialised cr L st) (hb : StateAddr cr st b) (hv : VaultAddr cr st v vb) :
    ∃ (e : UInt64) (c : Int64), e.toNat = escrow L st ∧ c.toInt = coolDown L st ∧ 0 ≤ c.toInt ∧
      (L st).data = [1] ++ List.replicate 5 0 ++ [b, vb] ++ u64le e ++ i64le c ++ (authority L st).bytes ++
        List.replicate 1992 0 := by
  have s := hr.inv.state hi.2.1 hi.2.2
  have hl := s.len
  have hu := unused hr st hi.2.1
  obtain ⟨v', hv'⟩ := s.vault
  have e6 : readU8 (L st).data 6 = b := (stateAddr_unique s.addr hb).2
  have e7 : readU8 (L st).data 7 = vb := (vaultAddr_unique hv' hv).2
  refine ⟨readU64 (L st).data 8, readI64 (L st).data 16, rfl, rfl, s.cool, ?_⟩
  have key := stateAt_serialize (d := (L st).data) (a := .State) (by omega) (by rw [hi.2.2]; rfl)
  rw [List.take_of_length_le (by omega)] at key
  conv_lhs => rw [← key]
  rw [← e6, ← e7]
  have p1 : (stateAt (L st).data .State).padding1 = List.replicate 5 0 := hu.slice (o := 1) (n := 5) (by omega) (by omega)
  have p2 : (stateAt (L st).data .State).padding2 = List.replicate 1992 0 := hu.slice (o := 56) (n := 1992) (by omega) (by omega)
  rw [State.serialize, p1, p2]
  simp only [List.append_assoc]
  rfl

/-- After two Unstakes, two Sets and a Withdraw. -/
example := C119_state Demo.reach9 Demo.init9 Demo.st_addr Demo.va_addr

/-- A request: tag, zeros, bump, index, owner, amount, time, zeros, at the address of owner and index. -/
theorem C119_request (hr : Reachable cr L) (h : IsRecord L k) :
    ∃ (b : UInt8) (w : UInt64) (t : Int64), RecordAddr cr (recOwner L k) (recIndex L k) k b ∧ w.toNat = recAmount L k ∧
      t.toInt = recTime L k ∧ 0 < w.toNat ∧
      (L k).data = [2] ++ List.replicate 5 0 ++ [b, recIndex L k] ++ (recOwner L k).bytes ++ u64le w ++ i64le t ++
        List.replicate 968 0 := by
  have s := hr.inv.isRec h
  have hl := s.len
  have hu := unused hr k h.1
  refine ⟨readU8 (L k).data 6, readU64 (L k).data 40, readI64 (L k).data 48, s.addr, rfl, rfl, s.pos, ?_⟩
  have key := pendingWithdrawAt_serialize (d := (L k).data) (a := .PendingWithdraw) (by omega) (by rw [s.tag]; rfl)
  rw [List.take_of_length_le (by omega)] at key
  conv_lhs => rw [← key]
  have p1 : (pendingWithdrawAt (L k).data .PendingWithdraw).padding1 = List.replicate 5 0 :=
    hu.slice (o := 1) (n := 5) (by omega) (by omega)
  have p2 : (pendingWithdrawAt (L k).data .PendingWithdraw).padding2 = List.replicate 968 0 :=
    hu.slice (o := 56) (n := 968) (by omega) (by omega)
  rw [PendingWithdraw.serialize, p1, p2]
  simp only [List.append_assoc]
  rfl

example := C119_request Demo.reach6 Demo.figuresKept.2.1

/-- There are no other accounts of the program but those without contents, which anybody can create. -/
theorem C119_nothing_else (hr : Reachable cr L) (h : (L k).owner = PROGRAM_ID) :
    AllZero (L k).data ∨ Initialised cr L k ∨ IsRecord L k := by
  rcases hr.inv.owned k h with h1 | h1 | h1
  · exact .inl h1
  · exact .inr (.inl ⟨⟨_, h1.addr⟩, h, h1.tag⟩)
  · exact .inr (.inr ⟨h, by rw [h1.len], h1.tag⟩)

example : AllZero (Demo.L9 Demo.ST).data ∨ Initialised Demo.cr Demo.L9 Demo.ST ∨ IsRecord Demo.L9 Demo.ST :=
  C119_nothing_else Demo.reach9 Demo.started9.1

/-- So the state is determined by its figures, in whatever way they have come about. -/
theorem C119_state_from_figures (hr : Reachable cr L) (hm : Reachable cr M) (hi : Initialised cr L st) (hj : Initialised cr M st)
    (he : escrow L st = escrow M st) (hc : coolDown L st = coolDown M st) (ha : authority L st = authority M st) :
    (L st).data = (M st).data := by
  obtain ⟨v, hv⟩ := (hr.inv.state hi.2.1 hi.2.2).vault
  obtain ⟨b, hb⟩ := hi.1
  obtain ⟨e, c, e1, e2, -, e3⟩ := C119_state hr hi hb hv
  obtain ⟨e', c', f1, f2, -, f3⟩ := C119_state hm hj hb hv
  have h1 : e = e' := UInt64.toNat_inj.1 (by rw [e1, f1, he])
  have h2 : c = c' := Int64.toInt_inj.1 (by rw [e2, f2, hc])
  rw [e3, f3, h1, h2, ha]

/-- So is a request. -/
theorem C119_request_from_figures (hr : Reachable cr L) (hm : Reachable cr M) (hi : IsRecord L k) (hj : IsRecord M k)
    (ho : recOwner L k = recOwner M k) (hx : recIndex L k = recIndex M k) (ha : recAmount L k = recAmount M k)
    (ht : recTime L k = recTime M k) : (L k).data = (M k).data := by
  obtain ⟨b, w, t, d1, e1, e2, -, e3⟩ := C119_request hr hi
  obtain ⟨b', w', t', d2, f1, f2, -, f3⟩ := C119_request hm hj
  rw [ho, hx] at d1
  have h0 : b = b' := by unfold RecordAddr at d1 d2; rw [d1] at d2; cases d2; rfl
  have h1 : w = w' := UInt64.toNat_inj.1 (by rw [e1, f1, ha])
  have h2 : t = t' := Int64.toInt_inj.1 (by rw [e2, f2, ht])
  rw [e3, f3, h0, h1, h2, ho, hx]

/-- Before and after a Stake the state is the same. -/
example := C119_state_from_figures Demo.reach3 Demo.reach4 Demo.init3 Demo.init4 Demo.figuresKept.1.1
  Demo.figuresKept.1.2.1 Demo.figuresKept.1.2.2
/-- A request before and after a Set. -/
example :=
  have ⟨_, h1, h2, h3, h4, h5, h6⟩ := Demo.figuresKept
  C119_request_from_figures Demo.reach6 Demo.reach7 h1 h2 h3 h4 h5 h6

end Xorca
