import Verif.History
/-
What of its surroundings a call looks at: hashes, the clock and the rent rate.
-/
namespace Xorca.Spec

/-- Two hash functions agree on the byte strings `S`, and two curve tests on the hashes of the strings `T`. -/
structure SameOn (cr cr' : Crypto) (S T : List Bytes) : Prop where
  hash : ∀ s ∈ S, cr'.sha256 s = cr.sha256 s
  curve : ∀ s ∈ T, cr'.onCurve (cr.sha256 s) = cr.onCurve (cr.sha256 s)

/-- The byte strings hashed by a search that stops at bump `b`: those for the bumps 255, 254, …, `b`. -/
def tried (f : UInt8 → Bytes) (b : UInt8) : List Bytes :=
  (List.range (256 - b.toNat)).map fun j => f (UInt8.ofNat (255 - j))

/-- The byte strings that Stake hashes. -/
def stakeHashes (L : Ledger) (st : Pubkey) : List Bytes :=
  [stateHashed (readU8 (L st).data 6), vaultHashed st (readU8 (L st).data 7)]
/-- Those of an Unstake whose record has bump `b`. -/
def unstakeHashes (L : Ledger) (st u : Pubkey) (i b : UInt8) : List Bytes :=
  tried (recordHashed u i) b ++ [stateHashed (readU8 (L st).data 6), vaultHashed st (readU8 (L st).data 7)]
/-- Those of a Withdraw. -/
def withdrawHashes (L : Ledger) (st u pw : Pubkey) (i : UInt8) : List Bytes :=
  [stateHashed (readU8 (L st).data 6), vaultHashed st (readU8 (L st).data 7), recordHashed u i (readU8 (L pw).data 6)]
/-- That of a Set. -/
def setHashes (L : Ledger) (st : Pubkey) : List Bytes := [stateHashed (readU8 (L st).data 6)]
/-- Those of an Initialize with state bump `b` and vault bump `vb`. -/
def initHashes (st : Pubkey) (b vb : UInt8) : List Bytes := tried stateHashed b ++ tried (vaultHashed st) vb

end Xorca.Spec
