/-!
# Base: outcomes, build configuration and the external `byte` crate

The crate under verification is written against the `byte` crate, version 0.2.7
(`/repo/Cargo.toml:25`), whose source is not in `/repo`.  The parts of it that the
code uses are modelled here from its documented behaviour; this file is part of the
trusted base (see DESIGN.md).
-/

namespace Verif

/-- Outcome of a Rust call of type `Result<α, ε>`.  A panic (failed `assert!`,
`unwrap` of `None`, `unimplemented!()`, out-of-range index, arithmetic overflow with
overflow checks on) is a third outcome. -/
inductive Out (ε α : Type) where
  | ok (a : α)
  | err (e : ε)
  | panic
deriving DecidableEq, Repr

namespace Out

/-- The `?` operator / sequencing of `Result`s; panics propagate. -/
@[inline] def bind {ε α β : Type} (x : Out ε α) (f : α → Out ε β) : Out ε β :=
  match x with
  | .ok a => f a
  | .err e => .err e
  | .panic => .panic

/-- Mapping the error with `From`, as `?` does. -/
@[inline] def mapErr {ε ε' α : Type} (f : ε → ε') (x : Out ε α) : Out ε' α :=
  match x with
  | .ok a => .ok a
  | .err e => .err (f e)
  | .panic => .panic

end Out

/-- `byte::Error` (byte 0.2.7): `Incomplete`, `BadOffset(usize)`, `BadInput { err }`. -/
inductive ByteErr where
  | incomplete
  | badOffset (n : Nat)
  | badInput (err : String)
deriving DecidableEq, Repr

/-- `byte::ctx::Endian`. -/
inductive Endian where
  | little
  | big
deriving DecidableEq, Repr

/-- Width of `usize` on the target (Rust supports 16, 32 and 64 bits). -/
inductive PtrWidth where
  | w16 | w32 | w64
deriving DecidableEq, Repr

/-- Number of bits of `usize`. -/
def PtrWidth.bits : PtrWidth → Nat
  | .w16 => 16
  | .w32 => 32
  | .w64 => 64

/-- Build and target configuration on which the behaviour of the code depends:
* `overflowChecks`: arithmetic overflow panics (Rust debug profile) instead of wrapping;
* `usize`: pointer width of the target;
* `native`: byte order of the target; it is the `Default` of `byte::ctx::Endian`, hence
  the order used by `bytes.read(offset)` / `bytes.write(offset, x)` for multi-octet integers. -/
structure Cfg where
  overflowChecks : Bool
  usize : PtrWidth
  native : Endian
deriving DecidableEq, Repr

/-- Rust `usize` subtraction `a - b`: exact if it does not underflow; otherwise a panic
with overflow checks and wrap-around without. -/
def usub (cfg : Cfg) {ε : Type} (a b : Nat) : Out ε Nat :=
  if b ≤ a then .ok (a - b)
  else if cfg.overflowChecks then .panic
  else .ok (2 ^ cfg.usize.bits + a - b)

/-! ## Integers and octets -/

/-- The `k` low-order octets of `n`, least significant first
(`u16::to_le_bytes` etc. for `k = 2, 4, 8`). -/
def natToLE : Nat → Nat → List UInt8
  | 0, _ => []
  | k + 1, n => UInt8.ofNat n :: natToLE k (n / 256)

/-- Value of an octet string, least significant first. -/
def leToNat : List UInt8 → Nat
  | [] => 0
  | b :: bs => b.toNat + 256 * leToNat bs

/-- `k` octets of `n` in the given byte order. -/
def natToBytes (e : Endian) (k n : Nat) : List UInt8 :=
  match e with
  | .little => natToLE k n
  | .big => (natToLE k n).reverse

/-- Value of an octet string in the given byte order. -/
def bytesToNat (e : Endian) (bs : List UInt8) : Nat :=
  match e with
  | .little => leToNat bs
  | .big => leToNat bs.reverse

/-! ## Reading (`byte::TryRead`, `BytesExt::read_with`) -/

/-- Type of `TryRead::try_read(bytes, ctx)` once `ctx` is fixed: value and octets consumed. -/
abbrev TryRead (α : Type) := List UInt8 → Out ByteErr (α × Nat)

/-- A block of code reading from a fixed slice `bytes` with a mutable `offset`. -/
@[reducible] def R (α : Type) := List UInt8 → Nat → Out ByteErr (α × Nat)

namespace R

@[inline] protected def pure {α : Type} (a : α) : R α := fun _ off => .ok (a, off)

@[inline] protected def bind {α β : Type} (x : R α) (f : α → R β) : R β := fun bytes off =>
  match x bytes off with
  | .ok (a, off') => f a bytes off'
  | .err e => .err e
  | .panic => .panic

instance : Monad R where
  pure := R.pure
  bind := R.bind

/-- `return Err(e)?` -/
def fail {α : Type} (e : ByteErr) : R α := fun _ _ => .err e

/-- a panic -/
def panic {α : Type} : R α := fun _ _ => .panic

/-- `bytes.read_with(offset, ctx)?` (byte 0.2.7, `BytesExt::read_with`): fails with
`BadOffset` past the end, otherwise calls `try_read` on the rest and advances. -/
def read {α : Type} (tr : TryRead α) : R α := fun bytes off =>
  if bytes.length < off then .err (.badOffset off)
  else match tr (bytes.drop off) with
    | .ok (a, n) => .ok (a, off + n)
    | .err e => .err e
    | .panic => .panic

/-- `byte::check_len(&bytes[from..], n)?` with `from = 0` or the current offset.
(The slice expression cannot panic at the places it is used: the offset was produced by
a successful read, hence is at most the length.) -/
def checkLen (from_ : Nat) (n : Nat) : R Unit := fun bytes off =>
  if (bytes.drop from_).length < n then .err .incomplete else .ok ((), off)

/-- the value of `*offset` -/
def offset : R Nat := fun _ off => .ok (off, off)

/-- the value of `bytes.len()` -/
def len : R Nat := fun bytes off => .ok (bytes.length, off)

/-- Lift a plain result (`?` on a value that reads nothing). -/
def lift {α : Type} (x : Out ByteErr α) : R α := fun _ off =>
  match x with
  | .ok a => .ok (a, off)
  | .err e => .err e
  | .panic => .panic

/-- `opt.ok_or(e)?` -/
def okOr {α : Type} (o : Option α) (e : ByteErr) : R α :=
  match o with
  | some a => pure a
  | none => fail e

/-- `opt.unwrap()` -/
def unwrap {α : Type} (o : Option α) : R α :=
  match o with
  | some a => pure a
  | none => panic

/-- `let offset = &mut 0; ...; Ok((value, *offset))` -/
def run {α : Type} (p : R α) : TryRead α := fun bytes => p bytes 0

end R

/-- `byte` numeric `TryRead<Endian>` for a `k`-octet integer: `check_len(bytes, k)?`, then the
value of the first `k` octets. -/
def tryReadNat (e : Endian) (k : Nat) : TryRead Nat := fun bytes =>
  if bytes.length < k then .err .incomplete else .ok (bytesToNat e (bytes.take k), k)

/-- `TryRead<Endian> for u8`. -/
def tryReadU8 : TryRead UInt8 := fun bytes =>
  (tryReadNat .little 1 bytes).bind fun (n, k) => .ok (UInt8.ofNat n, k)
/-- `TryRead<Endian> for u16`. -/
def tryReadU16 (e : Endian) : TryRead UInt16 := fun bytes =>
  (tryReadNat e 2 bytes).bind fun (n, k) => .ok (UInt16.ofNat n, k)
/-- `TryRead<Endian> for u32`. -/
def tryReadU32 (e : Endian) : TryRead UInt32 := fun bytes =>
  (tryReadNat e 4 bytes).bind fun (n, k) => .ok (UInt32.ofNat n, k)
/-- `TryRead<Endian> for u64`. -/
def tryReadU64 (e : Endian) : TryRead UInt64 := fun bytes =>
  (tryReadNat e 8 bytes).bind fun (n, k) => .ok (UInt64.ofNat n, k)

/-- `TryRead<Bytes> for &[u8]` with `Bytes::Len(n)`. -/
def tryReadBytes (n : Nat) : TryRead (List UInt8) := fun bytes =>
  if bytes.length < n then .err .incomplete else .ok (bytes.take n, n)

/-! ## Writing (`byte::TryWrite`, `BytesExt::write_with`) -/

/-- Type of `TryWrite::try_write(self, bytes, ctx)` once `self` and `ctx` are fixed: result
(octets written) together with the final content of the buffer, also on failure. -/
abbrev TryWrite := List UInt8 → Out ByteErr Nat × List UInt8

/-- A block of code writing into a buffer with a mutable `offset`; state survives errors. -/
@[reducible] def W (α : Type) := List UInt8 → Nat → Out ByteErr α × List UInt8 × Nat

namespace W

@[inline] protected def pure {α : Type} (a : α) : W α := fun buf off => (.ok a, buf, off)

@[inline] protected def bind {α β : Type} (x : W α) (f : α → W β) : W β := fun buf off =>
  match x buf off with
  | (.ok a, buf', off') => f a buf' off'
  | (.err e, buf', off') => (.err e, buf', off')
  | (.panic, buf', off') => (.panic, buf', off')

instance : Monad W where
  pure := W.pure
  bind := W.bind

/-- `return Err(e)?` -/
def fail {α : Type} (e : ByteErr) : W α := fun buf off => (.err e, buf, off)

/-- a panic -/
def panic {α : Type} : W α := fun buf off => (.panic, buf, off)

/-- `bytes.write_with(offset, value, ctx)?` (byte 0.2.7, `BytesExt::write_with`). -/
def write (tw : TryWrite) : W Unit := fun buf off =>
  if buf.length < off then (.err (.badOffset off), buf, off)
  else match tw (buf.drop off) with
    | (.ok n, sub) => (.ok (), buf.take off ++ sub, off + n)
    | (.err e, sub) => (.err e, buf.take off ++ sub, off)
    | (.panic, sub) => (.panic, buf.take off ++ sub, off)

/-- `let offset = &mut 0; ...; Ok(*offset)` -/
def run (p : W Unit) : TryWrite := fun buf =>
  match p buf 0 with
  | (.ok (), buf', off') => (.ok off', buf')
  | (.err e, buf', _) => (.err e, buf')
  | (.panic, buf', _) => (.panic, buf')

end W

/-- `TryWrite for &[u8]`: `check_len(bytes, self.len())?`, copy, `Ok(self.len())`. -/
def tryWriteBytes (src : List UInt8) : TryWrite := fun buf =>
  if buf.length < src.length then (.err .incomplete, buf)
  else (.ok src.length, src ++ buf.drop src.length)

/-- `TryWrite<Endian> for u8`. -/
def tryWriteU8 (x : UInt8) : TryWrite := tryWriteBytes [x]
/-- `TryWrite<Endian> for u16`. -/
def tryWriteU16 (e : Endian) (x : UInt16) : TryWrite := tryWriteBytes (natToBytes e 2 x.toNat)
/-- `TryWrite<Endian> for u32`. -/
def tryWriteU32 (e : Endian) (x : UInt32) : TryWrite := tryWriteBytes (natToBytes e 4 x.toNat)
/-- `TryWrite<Endian> for u64`. -/
def tryWriteU64 (e : Endian) (x : UInt64) : TryWrite := tryWriteBytes (natToBytes e 8 x.toNat)

end Verif
