/-!
# Common vocabulary of the model

Rust notions used everywhere: results with an explicit panic outcome, fixed-size byte arrays,
slices, big-endian integers. Nothing here models a particular file of the repository; each
definition says which Rust construct it stands for.
-/

namespace Letmein

/-- Outcome of a Rust function returning `ah::Result<T>`.
`err` is `Err(_)` (error texts are not modelled), `panic` is a failed `assert!`, `unreachable!()`,
out-of-range slice or checked arithmetic overflow.
(`/repo/Cargo.toml:48-56`: `panic = "abort"`, `overflow-checks = true`.) -/
inductive R (α : Type u) where
  | ok (a : α)
  | err
  | panic
  deriving DecidableEq, Repr

namespace R

/-- Sequencing; `?` in Rust. -/
def bind {α : Type u} {β : Type v} (x : R α) (f : α → R β) : R β :=
  match x with
  | .ok a => f a
  | .err => .err
  | .panic => .panic

instance : Monad R where
  pure := R.ok
  bind := R.bind

@[simp] theorem bind_ok {α β : Type u} (a : α) (f : α → R β) : (R.ok a >>= f) = f a := rfl
@[simp] theorem bind_err {α β : Type u} (f : α → R β) : (R.err >>= f) = R.err := rfl
@[simp] theorem bind_panic {α β : Type u} (f : α → R β) : (R.panic >>= f) = R.panic := rfl
@[simp] theorem pure_eq {α : Type u} (a : α) : (pure a : R α) = R.ok a := rfl

end R

/-- Rust `assert!(b)`. -/
def rassert (b : Bool) : R Unit := if b then .ok () else .panic

/-- `return Err(..)` unless `b`. -/
def rensure (b : Bool) : R Unit := if b then .ok () else .err

/-- A byte string (`&[u8]`). -/
abbrev Bytes := List UInt8

/-- A fixed-size byte array (`[u8; n]`). -/
abbrev Arr (n : Nat) := { l : Bytes // l.length = n }

/-- `[b; n]`. -/
def Arr.replicate (n : Nat) (b : UInt8) : Arr n := ⟨List.replicate n b, by simp⟩

/-- Rust slice `&buf[a..b]`: panics when out of range. -/
def slice (buf : Bytes) (a b : Nat) : R Bytes :=
  if a ≤ b ∧ b ≤ buf.length then .ok ((buf.take b).drop a) else .panic

/-- Rust slice `&buf[a..]`: panics when out of range. -/
def sliceFrom (buf : Bytes) (a : Nat) : R Bytes :=
  if a ≤ buf.length then .ok (buf.drop a) else .panic

/-- Rust `buf[off..off + data.len()].copy_from_slice(data)`: panics when out of range. -/
def writeAt (buf : Bytes) (off : Nat) (data : Bytes) : R Bytes :=
  if off + data.length ≤ buf.length then
    .ok (buf.take off ++ data ++ buf.drop (off + data.length))
  else .panic

/-- Rust `<[u8; n]>::try_from(&[u8])`: an error when the length differs. -/
def toArr (n : Nat) (b : Bytes) : R (Arr n) :=
  if h : b.length = n then .ok ⟨b, h⟩ else .err

/-- Rust `u32::to_be_bytes`. -/
def be32 (x : UInt32) : Bytes :=
  [UInt8.ofNat (x.toNat / 16777216), UInt8.ofNat (x.toNat / 65536),
   UInt8.ofNat (x.toNat / 256), UInt8.ofNat x.toNat]

/-- Rust `u32::from_be_bytes`. -/
def ofBe32 (b : Arr 4) : UInt32 :=
  match b.val with
  | [b0, b1, b2, b3] =>
    UInt32.ofNat (b0.toNat * 16777216 + b1.toNat * 65536 + b2.toNat * 256 + b3.toNat)
  | _ => 0 -- cannot occur, the length is 4

/-- Rust `u16::to_be_bytes`. -/
def be16 (x : UInt16) : Bytes := [UInt8.ofNat (x.toNat / 256), UInt8.ofNat x.toNat]

/-- Rust `u16::from_be_bytes`. -/
def ofBe16 (b : Arr 2) : UInt16 :=
  match b.val with
  | [b0, b1] => UInt16.ofNat (b0.toNat * 256 + b1.toNat)
  | _ => 0 -- cannot occur, the length is 2

end Letmein
