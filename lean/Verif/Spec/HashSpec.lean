import Verif.Spec.FrameSpec
import Verif.Model.Hash

/-!
# Hashers

A hasher is any state that changes with each call; a hasher in the stricter sense of most implementations only sees the
octets, in the byte order and pointer width of the host.
-/

namespace Verif.Spec

/-- The octets a call stands for on a host (the default methods of `core::hash::Hasher`, which write `to_ne_bytes`). -/
def callOctets (cfg : Cfg) : HasherCall → List UInt8
  | .u8 v => [v]
  | .u16 v => natToBytes cfg.native 2 v.toNat
  | .u32 v => natToBytes cfg.native 4 v.toNat
  | .u64 v => natToBytes cfg.native 8 v.toNat
  | .usize n => natToBytes cfg.native (cfg.usize.bits / 8) n
  | .isize n => natToBytes cfg.native (cfg.usize.bits / 8) n
  | .write octets => octets

/-- All the octets a value feeds to a hasher. -/
def hashed {α : Type} [RustHash α] (cfg : Cfg) (a : α) : List UInt8 := (calls a).flatMap (callOctets cfg)

/-- What a hasher with states `σ` has become, from `s`, after hashing a value. -/
def afterHash {α σ : Type} [RustHash α] (step : σ → HasherCall → σ) (s : σ) (a : α) : σ := (calls a).foldl step s

/-- The octets fed tell the values apart, whatever is hashed after them. -/
def HashesApart (α : Type) [RustHash α] (cfg : Cfg) (Held : α → Prop) : Prop :=
  ∀ a b x y, Held a → Held b → (hashed cfg a ++ x = hashed cfg b ++ y ↔ a = b ∧ x = y)

/-- Equal values, and only those, are the same to every hasher. -/
def HashMeansEqual (α : Type) [RustHash α] (Held : α → Prop) : Prop :=
  ∀ a b, Held a → Held b → (a = b ↔ ∀ (σ : Type) (step : σ → HasherCall → σ) (s : σ), afterHash step s a = afterHash step s b)

/-- A frame that can be in memory: content out of the public API, payload no longer than a slice can be. -/
def FrameHeld (cfg : Cfg) (f : Frame) : Prop := ContentFromApi f.content ∧ SliceFits cfg f.payload

end Verif.Spec
