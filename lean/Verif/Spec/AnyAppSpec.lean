import Verif.Spec.TalkSpec

/-!
# Specification: applications with a memory of their own

A key lookup is called through a shared reference but may have interior mutability; a cipher may be a device; both
may answer the same question differently at different times.  What is left of a conversation with such an
application when it is over.
-/

namespace Verif.Spec

/-- What Rust's types make sure of: the cipher leaves as many octets as it was handed, and its tag has the size of
the level. -/
def TypedAnswer {κ : Type} : Exchange κ → Prop
  | .encrypt t _ _ _ text answer => answer.2.length = text.length ∧ ∀ tag, answer.1 = some tag → tag.length = t
  | .decrypt _ _ _ _ text _ answer => answer.2.length = text.length
  | _ => True

/-- The counter of the context after a conversation that began with `c`. -/
def counterAfter {κ : Type} (c : UInt32) : List (Exchange κ) → UInt32
  | [] => c
  | .counter c' :: es => counterAfter c' es
  | _ :: es => counterAfter c es

/-- The descriptor last stored through the reference the device lookup gave out, if any was. -/
def lastStored {κ : Type} : List (Exchange κ) → Option DeviceDescriptor
  | [] => none
  | .store d :: es => (lastStored es).orElse fun _ => some d
  | _ :: es => lastStored es

/-- The device lookup that always finds the same device, or none; its state is the descriptor last stored through the
reference it gave out. -/
def sameDevice (found : Option DeviceDescriptor) : DevLookup (Option DeviceDescriptor) :=
  fun s _ _ => (s, found.map fun d => (d, some))

end Verif.Spec
