import Verif.Pda
/-
A concrete `Crypto`: SHA-256 (FIPS 180-4) and the ed25519 point test used by the Solana runtime.  Used only in
examples and witnesses, so that they speak about real addresses; no general theorem depends on it.
-/
namespace Xorca.Real

/-! ### SHA-256, on `Nat` words below 2^32 -/

def K : List Nat := [
    0x428a2f98, 0x71374491, 0xb5c0fbcf, 0xe9b5dba5, 0x3956c25b, 0x59f111f1, 0x923f82a4, 0xab1c5ed5,
    0xd807aa98, 0x12835b01, 0x243185be, 0x550c7dc3, 0x72be5d74, 0x80deb1fe, 0x9bdc06a7, 0xc19bf174,
    0xe49b69c1, 0xefbe4786, 0x0fc19dc6, 0x240ca1cc, 0x2de92c6f, 0x4a7484aa, 0x5cb0a9dc, 0x76f988da,
    0x983e5152, 0xa831c66d, 0xb00327c8, 0xbf597fc7, 0xc6e00bf3, 0xd5a79147, 0x06ca6351, 0x14292967,
    0x27b70a85, 0x2e1b2138, 0x4d2c6dfc, 0x53380d13, 0x650a7354, 0x766a0abb, 0x81c2c92e, 0x92722c85,
    0xa2bfe8a1, 0xa81a664b, 0xc24b8b70, 0xc76c51a3, 0xd192e819, 0xd6990624, 0xf40e3585, 0x106aa070,
    0x19a4c116, 0x1e376c08, 0x2748774c, 0x34b0bcb5, 0x391c0cb3, 0x4ed8aa4a, 0x5b9cca4f, 0x682e6ff3,
    0x748f82ee, 0x78a5636f, 0x84c87814, 0x8cc70208, 0x90befffa, 0xa4506ceb, 0xbef9a3f7, 0xc67178f2]

def H0 : List Nat := [
    0x6a09e667, 0xbb67ae85, 0x3c6ef372, 0xa54ff53a, 0x510e527f, 0x9b05688c, 0x1f83d9ab, 0x5be0cd19]

def rotr (x n : Nat) : Nat := Nat.lor (Nat.shiftRight x n) (Nat.mod (Nat.shiftLeft x (Nat.sub 32 n)) 4294967296)

def bsig0 (x : Nat) : Nat := Nat.xor (Nat.xor (rotr x 2) (rotr x 13)) (rotr x 22)
def bsig1 (x : Nat) : Nat := Nat.xor (Nat.xor (rotr x 6) (rotr x 11)) (rotr x 25)
def ssig0 (x : Nat) : Nat := Nat.xor (Nat.xor (rotr x 7) (rotr x 18)) (Nat.shiftRight x 3)
def ssig1 (x : Nat) : Nat := Nat.xor (Nat.xor (rotr x 17) (rotr x 19)) (Nat.shiftRight x 10)
def ch (x y z : Nat) : Nat := Nat.xor (Nat.land x y) (Nat.land (Nat.xor 4294967295 x) z)
def maj (x y z : Nat) : Nat := Nat.xor (Nat.xor (Nat.land x y) (Nat.land x z)) (Nat.land y z)
def add (x y : Nat) : Nat := Nat.mod (Nat.add x y) 4294967296

/-- Message schedule: the window of the last 16 words slides over the remaining rounds. -/
def schedule : Nat → List Nat → List Nat
  | n + 1, w0 :: w1 :: w2 :: w3 :: w4 :: w5 :: w6 :: w7 :: w8 :: w9 :: w10 :: w11 :: w12 :: w13 :: w14 :: w =>
    w0 :: schedule n (w1 :: w2 :: w3 :: w4 :: w5 :: w6 :: w7 :: w8 :: w9 :: w10 :: w11 :: w12 :: w13 :: w14 ::
      (w ++ [add (add (add (ssig1 w14) w9) (ssig0 w1)) w0]))
  | _, _ => []

/-- The rounds on the eight working variables. -/
def rounds : List Nat → List Nat → List Nat → List Nat
  | k :: ks, w :: ws, [a, b, c, d, e, f, g, h] =>
    let t1 := Nat.add (Nat.add (Nat.add h (bsig1 e)) (ch e f g)) (Nat.add k w)
    rounds ks ws [add t1 (Nat.add (bsig0 a) (maj a b c)), a, b, c, add d t1, e, f, g]
  | _, _, s => s

/-- Compression of one block of 16 words. -/
def compress (h block : List Nat) : List Nat :=
  List.zipWith add h (rounds K (schedule 64 block) h)

/-- Big-endian words of a byte list. -/
def words : Bytes → List Nat
  | a :: b :: c :: d :: r => (a.toNat * 16777216 + b.toNat * 65536 + c.toNat * 256 + d.toNat) :: words r
  | _ => []

/-- Padding to whole blocks. -/
def pad (m : Bytes) : Bytes :=
  let n := m.length
  let z := (119 - n % 64) % 64
  m ++ [128] ++ List.replicate z 0 ++ (leBytes 8 (8 * n)).reverse

def blocks : Nat → List Nat → List Nat → List Nat
  | 0, _, h => h
  | n + 1, ws, h => if ws = [] then h else blocks n (ws.drop 16) (compress h (ws.take 16))

/-- SHA-256. -/
def sha256 (m : Bytes) : Bytes :=
  let ws := words (pad m)
  (blocks ws.length ws H0).flatMap fun w => (leBytes 4 w).reverse

/-! ### The ed25519 point test -/

def p : Nat := 2 ^ 255 - 19

/-- `b ^ e mod p`, bit by bit. -/
def powMod : Nat → Nat → Nat → Nat
  | 0, _, _ => 1
  | f + 1, b, e => if e = 0 then 1
    else if e % 2 = 1 then b * powMod f (b * b % p) (e / 2) % p else powMod f (b * b % p) (e / 2)

/-- `d = -121665/121666 mod p`. -/
def dCoeff : Nat := 37095705934669439343138083508754565189542113879843219016388785533085940283555

/-- `CompressedEdwardsY::decompress(..).is_some()`: `(y² - 1) / (d y² + 1)` is a square. -/
def onCurve (k : Bytes) : Bool :=
  let y := leNat k % 2 ^ 255 % p
  let yy := y * y % p
  let u := (yy + p - 1) % p
  let v := (dCoeff * yy + 1) % p
  let l := powMod 256 (u * v % p) ((p - 1) / 2)
  l == 0 || l == 1

/-- The real primitives. -/
def crypto : Crypto where
  sha256 m := Pubkey.ofBytes (sha256 m)
  onCurve k := onCurve k.bytes

end Xorca.Real
