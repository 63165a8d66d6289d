import Verif.Spec.QuizSpec

/-!
# Specification: networks in which some keys are lost

Names of keys are of two kinds: those of `L` are lost, those of `H` are held.  What the cipher does under a lost key is
known to the attacker (he may even have chosen it); under the held keys it is drawn.
-/

namespace Verif.Spec

/-- The cipher that does what is known under the lost keys. -/
def both {L H : Type} (known : BlockCipher L) (e : BlockCipher H) : BlockCipher (L ⊕ H)
  | .inl k => known k
  | .inr k => e k

/-- At some step the attacker offers a slice that is accepted as a secured frame under a held key, though no device has,
up to then, sent a frame with this key, level, nonce and payload. -/
def ForgesHeld {L H σ : Type} (cipher : BlockCipher (L ⊕ H)) (start : List (Sender (L ⊕ H))) (A : Attacker (L ⊕ H) σ) : Prop :=
  ∃ n a f k rc x key, A (play cipher start A n).log = some (.offer a) ∧
    (answer cipher a).1 = .ok (f, k) ∧ Secured f.header ∧ a.ctx.securityCtx = some rc ∧
    PassesChecks a.cfg rc a.lookup a.device a.slice x ∧ x.key = .inr key ∧
    ¬ Sent cipher (play cipher start A n).net x.key x.level x.nonce f.payload

/-- All keys a call of the reader has for device `i` are held ones. -/
def HeldFor {L H σ ι : Type} {lookup : DevLookup σ} (table : DeviceTable ι lookup) (i : ι) (ctx : SerDesCtx (L ⊕ H)) : Prop :=
  ∀ rc id src eui key, ctx.securityCtx = some rc → table.identify src = i →
    rc.keyProvider .src id (some src) = some (eui, key) → ∃ h, key = .inr h

/-- Whenever receiver `r` relies on device `d`: the offers to the receiver are made to it as it is, and its keys for the
entry of the device are given out with that device's address and are held ones. -/
def MadeToReliers {L H σ ι ρ : Type} (A : Attacker (L ⊕ H) σ) (start : List (Sender (L ⊕ H)))
    (stations : ρ → Station (L ⊕ H) σ ι) (relies : ρ → Nat → Prop) : Prop :=
  ∀ r d sender, relies r d → start[d]? = some sender →
    MadeTo A (stations r).mine (stations r).cfg (stations r).table ((stations r).entry d) (stations r).dev
      sender.context.euid ∧
    ∀ log a, A log = some (.offer a) → (stations r).mine a = true →
      HeldFor (stations r).table ((stations r).entry d) a.ctx

/-- After `n` steps, what each receiver has delivered as coming from each device it relies on is a part, in order and
without repetition, of what that device has sent up to then. -/
def ReliersRight {κ σ ι ρ : Type} [DecidableEq ι] (cipher : BlockCipher κ) (start : List (Sender κ)) (A : Attacker κ σ)
    (stations : ρ → Station κ σ ι) (relies : ρ → Nat → Prop) (n : Nat) : Prop :=
  ∀ r d s, relies r d → (play cipher start A n).net[d]? = some s →
    List.Sublist
      (deliveredIn (stations r).mine (stations r).table.identify ((stations r).entry d) (play cipher start A n).log)
      (sentBy s.cfg (Ccm.aead cipher) s.context s.calls)

/-- Something goes wrong with the held keys: a frame is forged under one, or what a receiver delivers as coming from a
device it relies on is not right. -/
def HeldTrouble {L H σ ι ρ : Type} [DecidableEq ι] (cipher : BlockCipher (L ⊕ H)) (start : List (Sender (L ⊕ H)))
    (A : Attacker (L ⊕ H) σ) (stations : ρ → Station (L ⊕ H) σ ι) (relies : ρ → Nat → Prop) : Prop :=
  ForgesHeld cipher start A ∨ ∃ n, ¬ ReliersRight cipher start A stations relies n

/-- Where the tester has a device write under a lost key, his two frames are the same. -/
def SameUnderLost {L H σ : Type} (start : List (Sender (L ⊕ H))) (B : Tester (L ⊕ H) σ) : Prop :=
  ∀ log i l r s aux eui key, B log = some (.write i l r) → start[i]? = some s → l.frame.header.auxSec = some aux →
    s.context.keyProvider .dst aux.keyIdentifier l.frame.header.destination = some (eui, .inl key) → l = r

end Verif.Spec
