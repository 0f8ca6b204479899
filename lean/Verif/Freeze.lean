import Verif.Outside
/-
Frozen token accounts and mints without a freeze authority, at the byte offsets of the SPL token program.
-/
namespace Xorca.Spec

/-- An initialised mint without a freeze authority. -/
structure Unfreezable (a : Account) : Prop where
  prog : a.owner = SPL_TOKEN_PROGRAM_ID
  len : a.data.length = 82
  init : readU8 a.data 45 = 1
  none : readU32 a.data 46 = 0
  alive : a.lamports ≠ 0

/-- A frozen token account of the mint `m`. -/
structure FrozenToken (m : Pubkey) (a : Account) : Prop where
  prog : a.owner = SPL_TOKEN_PROGRAM_ID
  len : a.data.length = 165
  mint : readKey a.data 0 = m
  state : readU8 a.data 108 = 2

end Xorca.Spec
