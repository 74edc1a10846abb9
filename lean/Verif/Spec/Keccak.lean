import Verif.Model.Wire

/-!
# SHA3-256 and HMAC as the standards define them

FIPS 202 defines SHA-3 on strings of bits and on a state of 5 × 5 × 64 bits; FIPS 198-1 defines HMAC on top of it. The definitions below follow the
text of the standards bit by bit and share nothing with `Verif.Model.Hmac`, which computes with whole lanes and tables of constants.
-/

namespace Letmein.Spec

/-- A string of bits. -/
abbrev Bits := List Bool

/-- The bits of a byte string, the least significant bit of each byte first. FIPS 202, section B.1. -/
def bitsOf (b : Bytes) : Bits := b.flatMap (fun x => (List.range 8).map (fun i => x.toNat.testBit i))

/-- Exclusive or of two strings of the same length. -/
def xorBits (a b : Bits) : Bits := List.zipWith (fun x y => x ^^ y) a b

/-- A state array `A[x, y, z]`; only `x, y < 5` and `z < 64` matter. FIPS 202, section 3.1. -/
abbrev StateArray := Nat → Nat → Nat → Bool

/-- FIPS 202, section 3.1.2: `A[x, y, z] = S[w (5 y + x) + z]`. -/
def toArray (s : Bits) : StateArray := fun x y z => s.getD (64 * (5 * y + x) + z) false

/-- FIPS 202, section 3.1.3: lanes from bits, planes from lanes, the string from planes. -/
def fromArray (a : StateArray) : Bits :=
  (List.range 5).flatMap (fun y => (List.range 5).flatMap (fun x => (List.range 64).map (fun z => a x y z)))

/-- FIPS 202, algorithm 1, step 1. -/
def columnParity (a : StateArray) (x z : Nat) : Bool := a x 0 z ^^ a x 1 z ^^ a x 2 z ^^ a x 3 z ^^ a x 4 z

/-- FIPS 202, algorithm 1. -/
def fipsTheta (a : StateArray) : StateArray := fun x y z =>
  a x y z ^^ (columnParity a ((x + 4) % 5) z ^^ columnParity a ((x + 1) % 5) ((z + 63) % 64))

/-- FIPS 202, algorithm 2, steps 2 and 3b: the lane treated in round `t`. -/
def rhoLane : Nat → Nat × Nat
  | 0 => (1, 0)
  | t + 1 => ((rhoLane t).2, (2 * (rhoLane t).1 + 3 * (rhoLane t).2) % 5)

/-- FIPS 202, algorithm 2. -/
def fipsRho (a : StateArray) : StateArray :=
  (List.range 24).foldl
    (fun a' t => fun x y z =>
      if (x, y) = rhoLane t then a x y (((z : Int) - ((t + 1) * (t + 2) / 2 : Nat)) % 64).toNat else a' x y z)
    (fun x y z => if x = 0 ∧ y = 0 then a 0 0 z else false)

/-- FIPS 202, algorithm 3. -/
def fipsPi (a : StateArray) : StateArray := fun x y z => a ((x + 3 * y) % 5) x z

/-- FIPS 202, algorithm 4. -/
def fipsChi (a : StateArray) : StateArray := fun x y z =>
  a x y z ^^ ((a ((x + 1) % 5) y z ^^ true) && a ((x + 2) % 5) y z)

/-- FIPS 202, algorithm 5, step 3: one turn of the shift register of eight bits. -/
def lfsrStep (r : Bits) : Bits :=
  let r := false :: r
  let b (i : Nat) : Bool := r.getD i false
  [b 0 ^^ b 8, b 1, b 2, b 3, b 4 ^^ b 8, b 5 ^^ b 8, b 6 ^^ b 8, b 7]

/-- FIPS 202, algorithm 5. -/
def fipsRc (t : Nat) : Bool :=
  if t % 255 = 0 then true
  else ((List.range (t % 255)).foldl (fun r _ => lfsrStep r) [true, false, false, false, false, false, false, false]).getD 0 false

/-- FIPS 202, algorithm 6, steps 2 and 3: the bits of the round constant. -/
def fipsRoundConstant (ir : Nat) : Nat → Bool :=
  (List.range 7).foldl (fun rc j => fun z => if z = 2 ^ j - 1 then fipsRc (j + 7 * ir) else rc z) (fun _ => false)

/-- FIPS 202, algorithm 6. -/
def fipsIota (a : StateArray) (ir : Nat) : StateArray := fun x y z =>
  if x = 0 ∧ y = 0 then a 0 0 z ^^ fipsRoundConstant ir z else a x y z

/-- FIPS 202, section 3.3. -/
def fipsRnd (a : StateArray) (ir : Nat) : StateArray := fipsIota (fipsChi (fipsPi (fipsRho (fipsTheta a)))) ir

/-- FIPS 202, algorithm 7, `KECCAK-p[1600, 24]`: rounds `12 + 2 l - 24 = 0` to `12 + 2 l - 1 = 23`. -/
def fipsKeccakP (s : Bits) : Bits := fromArray ((List.range 24).foldl fipsRnd (toArray s))

/-- FIPS 202, algorithm 9, `pad10*1(x, m)`. -/
def fipsPad (x m : Nat) : Bits := true :: (List.replicate ((-(m : Int) - 2) % x).toNat false ++ [true])

/-- FIPS 202, algorithm 8, step 6: the blocks of `r` bits go in one after another. -/
def spongeAbsorb (r : Nat) (s : Bits) (blocks : List Bits) : Bits :=
  blocks.foldl (fun s p => fipsKeccakP (xorBits s (p ++ List.replicate (1600 - r) false))) s

/-- The `n` blocks of `r` bits of a string of `n r` bits. -/
def blocksOf (r n : Nat) (p : Bits) : List Bits := (List.range n).map (fun i => (p.drop (r * i)).take r)

/-- FIPS 202, algorithm 8, for outputs of `d ≤ r` bits. -/
def fipsSponge (r : Nat) (n : Bits) (d : Nat) : Bits :=
  let p := n ++ fipsPad r n.length
  ((spongeAbsorb r (List.replicate 1600 false) (blocksOf r (p.length / r) p)).take r).take d

/-- FIPS 202, section 6.1: `SHA3-256(M) = KECCAK[512](M || 01, 256)`. -/
def fipsSha3_256 (m : Bits) : Bits := fipsSponge (1600 - 512) (m ++ [false, true]) 256

/-- FIPS 198-1, section 4, with SHA3-256, whose block has `B = 136` bytes; a string of bytes `text` under a key of any length. -/
def fipsHmac (key text : Bytes) : Bits :=
  let k0 : Bits :=
    if key.length = 136 then bitsOf key
    else if key.length > 136 then fipsSha3_256 (bitsOf key) ++ List.replicate (8 * 136 - 256) false
    else bitsOf key ++ List.replicate (8 * (136 - key.length)) false
  let ipad := bitsOf (List.replicate 136 0x36)
  let opad := bitsOf (List.replicate 136 0x5C)
  fipsSha3_256 (xorBits k0 opad ++ fipsSha3_256 (xorBits k0 ipad ++ bitsOf text))

end Letmein.Spec
