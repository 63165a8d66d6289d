import Verif.Model.Address

/-!
# Derived `serde` implementations (feature `serde`)

`PanId`, `ShortAddress`, `ExtendedAddress` and `Address` derive `Serialize` and `Deserialize`. What the derive macro
generates is external and modelled here from its documentation; it is part of the trusted base.

* Serialising makes calls to the format: a newtype structure, an integer, a variant with its fields.
* Deserialising gives the format a visitor, and the format shows the visitor something. Only whether a value comes out
  is modelled, not the text of the error, and not what the format does afterwards with elements nobody asked for.
-/

namespace Verif

/-- What a value asks a `serde::Serializer` to store. -/
inductive Serialized where
  | u16 (v : UInt16)
  | u64 (v : UInt64)
  | newtypeStruct (name : String) (value : Serialized)
  | tupleVariant (enum : String) (index : Nat) (variant : String) (first second : Serialized)
deriving DecidableEq, Repr

/-- How a format names a variant to the generated identifier visitor: `visit_u64`, `visit_str`, `visit_bytes`, or
something this visitor does not take. -/
inductive VariantTag where
  | index (i : Nat)
  | name (s : String)
  | bytes (b : List UInt8)
  | other
deriving DecidableEq, Repr

/-- What a format shows to a visitor: an integer of at most 64 bits, a newtype structure, a sequence, a variant with its
fields in sequence, or anything else. -/
inductive Offered where
  | int (z : Int)
  | newtype (value : Offered)
  | seq (items : List Offered)
  | enum (tag : VariantTag) (fields : List Offered)
  | other

/-- header.rs:321, 323: derived `Serialize for PanId`. -/
def PanId.serialize (p : PanId) : Serialized := .newtypeStruct "PanId" (.u16 p)

/-- header.rs:361, 363: derived `Serialize for ShortAddress`. -/
def ShortAddress.serialize (a : ShortAddress) : Serialized := .newtypeStruct "ShortAddress" (.u16 a)

/-- header.rs:403, 405: derived `Serialize for ExtendedAddress`. -/
def ExtendedAddress.serialize (a : ExtendedAddress) : Serialized := .newtypeStruct "ExtendedAddress" (.u64 a)

/-- header.rs:435-441: derived `Serialize for Address`. -/
def Address.serialize : Address → Serialized
  | .short p a => .tupleVariant "Address" 0 "Short" (PanId.serialize p) (ShortAddress.serialize a)
  | .extended p a => .tupleVariant "Address" 1 "Extended" (PanId.serialize p) (ExtendedAddress.serialize a)

/-- `Deserialize for u16` in serde (used by header.rs:321, 361): any integer that fits. -/
def deserializeU16 : Offered → Option UInt16
  | .int z => if 0 ≤ z ∧ z < 65536 then some (UInt16.ofNat z.toNat) else none
  | _ => none

/-- `Deserialize for u64` in serde (used by header.rs:403). -/
def deserializeU64 : Offered → Option UInt64
  | .int z => if 0 ≤ z ∧ z < 18446744073709551616 then some (UInt64.ofNat z.toNat) else none
  | _ => none

/-- The visitor the derive generates for a newtype structure (header.rs:321, 361, 403): `visit_newtype_struct`, or
`visit_seq` with a first element. -/
def deserializeNewtype {α : Type} (field : Offered → Option α) : Offered → Option α
  | .newtype x => field x
  | .seq (x :: _) => field x
  | _ => none

/-- header.rs:321-323: derived `Deserialize for PanId`. -/
def PanId.deserialize (o : Offered) : Option PanId := deserializeNewtype deserializeU16 o

/-- header.rs:361-363: derived `Deserialize for ShortAddress`. -/
def ShortAddress.deserialize (o : Offered) : Option ShortAddress := deserializeNewtype deserializeU16 o

/-- header.rs:403-405: derived `Deserialize for ExtendedAddress`. -/
def ExtendedAddress.deserialize (o : Offered) : Option ExtendedAddress := deserializeNewtype deserializeU64 o

/-- The identifier visitor the derive generates for the variants of `Address` (header.rs:435-441): their index, their
name, or the octets of their name. -/
def Address.variant : VariantTag → Option Nat
  | .index i => if i = 0 then some 0 else if i = 1 then some 1 else none
  | .name s => if s = "Short" then some 0 else if s = "Extended" then some 1 else none
  | .bytes b =>
      if b = "Short".toUTF8.toList then some 0 else if b = "Extended".toUTF8.toList then some 1 else none
  | .other => none

/-- header.rs:435-441: derived `Deserialize for Address`: the variant, then its two fields in sequence. -/
def Address.deserialize : Offered → Option Address
  | .enum tag (x :: y :: _) =>
      match Address.variant tag with
      | some 0 => do
          let p ← PanId.deserialize x
          let a ← ShortAddress.deserialize y
          return .short p a
      | some _ => do
          let p ← PanId.deserialize x
          let a ← ExtendedAddress.deserialize y
          return .extended p a
      | none => none
  | _ => none

/-- What a type tells the format it expects when it is deserialised: the methods `deserialize_u16`, `deserialize_u64`,
`deserialize_newtype_struct(name, …)` and `deserialize_enum(name, variants, …)` followed by `tuple_variant`, and, inside, what
the fields' types tell it. -/
inductive Hint where
  | u16
  | u64
  | newtypeStruct (name : String) (field : Hint)
  | enum (name : String) (variants : List (String × Hint × Hint))

/-- header.rs:321, 323: derived `Deserialize for PanId`, what it tells the format. -/
def PanId.asks : Hint := .newtypeStruct "PanId" .u16

/-- header.rs:361, 363: derived `Deserialize for ShortAddress`, what it tells the format. -/
def ShortAddress.asks : Hint := .newtypeStruct "ShortAddress" .u16

/-- header.rs:403, 405: derived `Deserialize for ExtendedAddress`, what it tells the format. -/
def ExtendedAddress.asks : Hint := .newtypeStruct "ExtendedAddress" .u64

/-- header.rs:435-441: derived `Deserialize for Address`, what it tells the format. -/
def Address.asks : Hint := .enum "Address" [("Short", PanId.asks, ShortAddress.asks), ("Extended", PanId.asks, ExtendedAddress.asks)]

end Verif
