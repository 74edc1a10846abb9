import Verif.Model.Wire

/-!
# HMAC-SHA3-256

`/repo/letmein-proto/src/lib.rs:268-275` uses `Hmac<Sha3_256>` of the crates `hmac` and `sha3` (`/repo/Cargo.toml`). The crates are not part of
the repository; they are modelled after the standards they implement, FIPS 202 (SHA-3) and FIPS 198-1 (HMAC). The unit tests of
`/repo/letmein-proto/src/lib.rs:442-559` contain two tags; both are checked in `Props/Hmac`.
Other modules take the MAC as a parameter; what they prove holds of this function as well.
Left out: keys longer than a block (keys have 32 bytes).
-/

namespace Letmein

/-- A lane of the Keccak state: 64 bits, as a natural number below `2^64`. FIPS 202, section 3.1.2. -/
abbrev Lane := Nat

/-- Rotation of a lane to the left by `r < 64`. -/
def rotl (x : Lane) (r : Nat) : Lane := ((x <<< r) ||| (x >>> (64 - r))) % 2 ^ 64

/-- The state: 25 lanes, lane `(x, y)` at index `x + 5 y`. FIPS 202, section 3.1.2. -/
abbrev KState := List Lane

/-- Lane `(x, y)`. -/
def KState.at (a : KState) (x y : Nat) : Lane := a.getD (x % 5 + 5 * (y % 5)) 0

/-- A state from its lanes. -/
def KState.tab (f : Nat → Nat → Lane) : KState :=
  (List.range 25).map (fun i => f (i % 5) (i / 5))

/-- FIPS 202, section 3.2.1. -/
def theta (a : KState) : KState :=
  let c := (List.range 5).map (fun x => a.at x 0 ^^^ a.at x 1 ^^^ a.at x 2 ^^^ a.at x 3 ^^^ a.at x 4)
  let d := (List.range 5).map (fun x => c.getD ((x + 4) % 5) 0 ^^^ rotl (c.getD ((x + 1) % 5) 0) 1)
  KState.tab (fun x y => a.at x y ^^^ d.getD x 0)

/-- The rotation offsets of FIPS 202, table 2 (modulo 64), lane `(x, y)` at index `x + 5 y`. -/
def rhoOffsets : List Nat :=
  [0, 1, 62, 28, 27, 36, 44, 6, 55, 20, 3, 10, 43, 25, 39, 41, 45, 15, 21, 8, 18, 2, 61, 56, 14]

/-- FIPS 202, section 3.2.2. -/
def rho (a : KState) : KState := KState.tab (fun x y => rotl (a.at x y) (rhoOffsets.getD (x + 5 * y) 0))

/-- FIPS 202, section 3.2.3. -/
def piStep (a : KState) : KState := KState.tab (fun x y => a.at (x + 3 * y) x)

/-- FIPS 202, section 3.2.4. -/
def chi (a : KState) : KState :=
  KState.tab (fun x y => a.at x y ^^^ ((a.at (x + 1) y ^^^ (2 ^ 64 - 1)) &&& a.at (x + 2) y))

/-- The round constants of FIPS 202, section 3.2.5. -/
def roundConstants : List Nat :=
  [0x0000000000000001, 0x0000000000008082, 0x800000000000808A, 0x8000000080008000, 0x000000000000808B, 0x0000000080000001,
   0x8000000080008081, 0x8000000000008009, 0x000000000000008A, 0x0000000000000088, 0x0000000080008009, 0x000000008000000A,
   0x000000008000808B, 0x800000000000008B, 0x8000000000008089, 0x8000000000008003, 0x8000000000008002, 0x8000000000000080,
   0x000000000000800A, 0x800000008000000A, 0x8000000080008081, 0x8000000000008080, 0x0000000080000001, 0x8000000080008008]

/-- FIPS 202, section 3.2.5. -/
def iota (rc : Nat) (a : KState) : KState := KState.tab (fun x y => if x = 0 ∧ y = 0 then a.at 0 0 ^^^ rc else a.at x y)

/-- The permutation Keccak-f[1600]. FIPS 202, section 3.3. -/
def keccakF (a : KState) : KState := roundConstants.foldl (fun s rc => iota rc (chi (piStep (rho (theta s))))) a

/-- Eight bytes, least significant first, as a lane. -/
def laneOf (b : Bytes) : Nat := b.foldr (fun x n => x.toNat + 256 * n) 0

/-- The bytes of a lane, least significant first. -/
def laneBytes (x : Lane) : Bytes := (List.range 8).map (fun i => UInt8.ofNat (x >>> (8 * i)))

/-- The rate of SHA3-256 in bytes. FIPS 202, table 3. -/
abbrev RATE : Nat := 136

/-- One block is added to the state. -/
def absorbBlock (s : KState) (block : Bytes) : KState :=
  keccakF (KState.tab (fun x y => s.at x y ^^^ laneOf ((block.drop (8 * (x + 5 * y))).take 8)))

/-- The sponge takes in whole blocks; `fuel` bounds their number. FIPS 202, algorithm 8. -/
def absorb (s : KState) : Nat → Bytes → KState
  | 0, _ => s
  | fuel + 1, b => if b.isEmpty then s else absorb (absorbBlock s (b.take RATE)) fuel (b.drop RATE)

/-- Padding to whole blocks: the bits `01` that mark SHA-3, then `10*1`. FIPS 202, sections 5.1, 6.1 and B.2. -/
def pad (m : Bytes) : Bytes :=
  let q := RATE - m.length % RATE
  if q = 1 then m ++ [0x86] else m ++ [0x06] ++ List.replicate (q - 2) 0 ++ [0x80]

/-- SHA3-256. FIPS 202, section 6.1. -/
def sha3_256 (m : Bytes) : Auth :=
  ⟨(((List.range 4).flatMap (fun i => laneBytes ((absorb (List.replicate 25 0) ((pad m).length / RATE) (pad m)).getD i 0)))), by
    simp [laneBytes, List.length_flatMap]; rfl⟩

/-- The key as a block, every byte xored with `c`. FIPS 198-1, section 4. -/
def keyBlock (k : Key) (c : UInt8) : Bytes := (k.val ++ List.replicate (RATE - KEY_SIZE) 0).map (· ^^^ c)

/-- `/repo/letmein-proto/src/lib.rs:268-275` HMAC with SHA3-256. FIPS 198-1, section 4. -/
def hmacSha3 : MacFn := fun k text =>
  sha3_256 (keyBlock k 0x5C ++ (sha3_256 (keyBlock k 0x36 ++ text)).val)

end Letmein
