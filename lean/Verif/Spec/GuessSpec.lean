import Verif.Spec.PlaySpec

/-!
# Specification: guessing tags
-/

namespace Verif.Spec

/-- The property has a chance of exactly `num / den`. -/
def ChanceExactly {κ : Type} (P : BlockCipher κ → Prop) (num den : Nat) : Prop :=
  howMany P * den = num * howManyCiphers κ

/-- The property has a chance of at least `num / den`. -/
def ChanceAtLeast {κ : Type} (P : BlockCipher κ → Prop) (num den : Nat) : Prop :=
  num * howManyCiphers κ ≤ howMany P * den

/-- An attacker who has nothing written and makes no use of what he sees: he offers one receiver, which keeps its device
table from one offer to the next, the same octets with one tag after the other. -/
def guesser {κ σ : Type} (cfg : Cfg) (rc : SecCtx κ) (lookup : DevLookup σ) (dev : σ) (front : List UInt8)
    (tags : List (List UInt8)) : Attacker κ σ := fun log =>
  tags[answerCount log]?.map fun tag =>
    .offer ⟨cfg, ⟨.none, some rc⟩, lookup, lookupState (fun _ => true) dev log, front ++ tag⟩

/-- At some step the attacker offers a slice that is accepted as a secured frame with this payload, though no device
has, up to then, sent a frame with this key, level, nonce and payload. -/
def Plants {κ σ : Type} (cipher : BlockCipher κ) (start : List (Sender κ)) (A : Attacker κ σ) (payload : List UInt8) : Prop :=
  ∃ n a f k, A (play cipher start A n).log = some (.offer a) ∧ (answer cipher a).1 = .ok (f, k) ∧ f.payload = payload ∧
    Forged cipher (play cipher start A n).net 4 a

/-- Octets that are the head of a frame, and no more, which the receiver has a key and a device for, with a counter it
takes. -/
structure GoodHead {κ σ : Type} (cfg : Cfg) (rc : SecCtx κ) (lookup : DevLookup σ) (dev : σ) (head : List UInt8)
    (x : Incoming κ σ) : Prop where
  passes : PassesChecks cfg rc lookup dev head x
  whole : x.headLength = head.length
  noPanic : cfg.overflowChecks = true → x.aux.frameCounter ≠ maxCounter

end Verif.Spec
