import Verif.Basic
/-
Base58 text of a public key, as in the source (`pubkey!("…")`, `declare_id!`, `address('…')`).
-/
namespace Xorca

/-- The Bitcoin base58 alphabet. -/
def base58Alphabet : List Char := "123456789ABCDEFGHJKLMNPQRSTUVWXYZabcdefghijkmnopqrstuvwxyz".toList

/-- Value of a base58 digit. -/
def base58Digit (c : Char) : Option Nat :=
  let i := base58Alphabet.idxOf c
  if i < base58Alphabet.length then some i else none

/-- Value of a base58 number, most significant digit first. -/
def base58Value : List Char → Nat → Option Nat
  | [], acc => some acc
  | c :: cs, acc => (base58Digit c).bind fun d => base58Value cs (58 * acc + d)

/-- The 32 bytes (big endian) written as base58, if they are 32 bytes: every leading `1` is a zero byte. -/
def base58Key (s : String) : Option Bytes := do
  let v ← base58Value s.toList 0
  let b := (leBytes 32 v).reverse
  if v < 256 ^ 32 ∧ (s.toList.takeWhile (· == '1')).length = (b.takeWhile (· == 0)).length
  then some b else none

/-- ASCII bytes of a text (`b"…"`, `TextEncoder.encode`). -/
def ascii (s : String) : Bytes := s.toList.map fun c => UInt8.ofNat c.toNat

end Xorca
