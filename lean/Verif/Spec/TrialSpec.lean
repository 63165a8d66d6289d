import Verif.Spec.PlaySpec

/-!
# Specification: trials

An attacker in control of the network who wants to tell apart which of two payloads the devices are given.  He gets the
frames, and the receivers' answers but for the payloads revealed.
-/

namespace Verif.Spec

/-- A step: a device writes one of two frames, or a receiver gets a slice. -/
inductive Choice (κ σ : Type) where
  | write (device : Nat) (left right : WriteCall)
  | offer (a : Offer κ σ)

/-- A receiver's answer without the payload (but with its length) and without the buffer. -/
def visible {κ σ : Type} (x : Answer κ σ) : Out SecErr (Frame × Nat × Nat) × SerDesCtx κ × σ :=
  (match x.1 with
    | .ok (f, n) => .ok ({ f with payload := [] }, f.payload.length, n)
    | .err e => .err e
    | .panic => .panic, x.2.2.1, x.2.2.2)

/-- What the attacker gets of a step: what went over the air, or the answer as `visible`. -/
inductive Glimpse (κ σ : Type) where
  | sent (octets : Option (List UInt8))
  | answered (x : Out SecErr (Frame × Nat × Nat) × SerDesCtx κ × σ)

def glimpse {κ σ : Type} : Sight κ σ → Glimpse κ σ
  | .sent _ _ octets => .sent octets
  | .answered _ x => .answered (visible x)

/-- Chooses the next step, or stops. -/
abbrev Tester (κ σ : Type) := List (Glimpse κ σ) → Option (Choice κ σ)

/-- The play in which the devices get the left, or the right, frames of the tester's choices. -/
def plays {κ σ : Type} (right : Bool) (B : Tester κ σ) : Attacker κ σ := fun log =>
  match B (log.map glimpse) with
  | none => none
  | some (.write i l r) => some (.write i (if right then r else l))
  | some (.offer a) => some (.offer a)

/-- What the tester gets in the first `n` steps. -/
def glimpses {κ σ : Type} (cipher : BlockCipher κ) (start : List (Sender κ)) (right : Bool) (B : Tester κ σ) (n : Nat) :
    List (Glimpse κ σ) :=
  (play cipher start (plays right B) n).log.map glimpse

/-- A tester who has at most `q` frames written, of content out of the crate's readers or constructors, where the two
frames of a choice are alike: they differ at most in the payload, and there only if it is to be encrypted and both are
equally long; and who has at most `v` slices read, each of at most `limit` octets and, if secured, at a level with a tag
of at least `M` octets. -/
structure Fair {κ σ : Type} (B : Tester κ σ) (q v limit M : Nat) : Prop where
  writes : ∀ log i l r, B log = some (.write i l r) →
    (log.countP fun | .sent _ => true | .answered _ => false) < q ∧ ContentFromApi l.frame.content ∧ Alike l r
  offers : ∀ log a, B log = some (.offer a) →
    (log.countP fun | .sent _ => false | .answered _ => true) < v ∧ a.slice.length ≤ limit ∧ TagAtLeast M a

/-- The chances of the two properties differ by at most `num / den`. -/
def ApartAtMost {κ : Type} (P Q : BlockCipher κ → Prop) (num den : Nat) : Prop :=
  howMany P * den ≤ howMany Q * den + num * howManyCiphers κ ∧
  howMany Q * den ≤ howMany P * den + num * howManyCiphers κ

end Verif.Spec
