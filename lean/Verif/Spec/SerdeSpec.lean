import Verif.Model.Serde

/-!
# Formats that keep what they are given
-/

namespace Verif.Spec

/-- A format shows `o` for what was stored as `s`: integers with their value, newtype structures as such or as sequences
of one, variants by index or name and with their fields in order; in sequences more may follow. The names of the
structures need not be kept. -/
def Shows : Serialized → Offered → Prop
  | .u16 v, o => o = .int v.toNat
  | .u64 v, o => o = .int v.toNat
  | .newtypeStruct _ s, o => ∃ x, Shows s x ∧ (o = .newtype x ∨ ∃ more, o = .seq (x :: more))
  | .tupleVariant _ i name s t, o =>
      ∃ tag x y more, o = .enum tag (x :: y :: more) ∧ Shows s x ∧ Shows t y ∧
        (tag = .index i ∨ tag = .name name ∨ tag = .bytes name.toUTF8.toList)

/-- A format with stored form `δ` (octets, text, …): what it stores, and what it shows when reading back. -/
structure Format (δ : Type) where
  store : Serialized → δ
  load : δ → Offered

/-- It shows what it was given. -/
def Format.Keeps {δ : Type} (f : Format δ) : Prop := ∀ s, Shows s (f.load (f.store s))

/-- What was stored is what is asked for, down to the names of structures and variants and the widths of integers. -/
def Expected : Hint → Serialized → Prop
  | .u16, .u16 _ => True
  | .u64, .u64 _ => True
  | .newtypeStruct name h, .newtypeStruct name' s => name = name' ∧ Expected h s
  | .enum name variants, .tupleVariant name' i variant s t =>
      name = name' ∧ ∃ h k, variants[i]? = some (variant, h, k) ∧ Expected h s ∧ Expected k t
  | _, _ => False

/-- A format that is told what to expect when it reads back, and may refuse anything else. -/
structure StrictFormat (δ : Type) where
  store : Serialized → δ
  load : Hint → δ → Offered

/-- It shows what it was given if that is what it is asked for. -/
def StrictFormat.Keeps {δ : Type} (f : StrictFormat δ) : Prop := ∀ h s, Expected h s → Shows s (f.load h (f.store s))

end Verif.Spec
