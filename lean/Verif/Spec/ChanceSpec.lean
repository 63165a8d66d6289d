import Mathlib.Data.Set.Card
import Verif.Spec.SecrecySpec
import Verif.Spec.ChannelSpec

/-!
# Specification: chances over the block cipher

The cipher is drawn uniformly among all functions from keys and blocks to blocks, so chances are numbers of
ciphers.
-/

namespace Verif.Spec

/-- The number of ciphers with a property. -/
noncomputable def howMany {κ : Type} (P : BlockCipher κ → Prop) : Nat := {e | P e}.ncard

/-- The number of all ciphers. -/
noncomputable def howManyCiphers (κ : Type) : Nat := Nat.card (BlockCipher κ)

/-- The property has a chance of at most `num / den`. -/
def ChanceAtMost {κ : Type} (P : BlockCipher κ → Prop) (num den : Nat) : Prop :=
  howMany P * den ≤ num * howManyCiphers κ

/-- The number of frame writes of all devices. -/
def writes {κ : Type} (net : List (Sender κ)) : Nat := (net.map fun s => s.calls.length).sum

/-- A slice offered to a receiver in some state. -/
structure Offer (κ σ : Type) where
  cfg : Cfg
  ctx : SerDesCtx κ
  lookup : DevLookup σ
  device : σ
  slice : List UInt8

/-- All that comes out of a call of the reader: the result, the buffer, the context and the device lookup's state
afterwards. -/
abbrev Answer (κ σ : Type) : Type := Out SecErr (Frame × Nat) × List UInt8 × SerDesCtx κ × σ

/-- What the receiver makes of the slice. -/
def answer {κ σ : Type} (cipher : BlockCipher κ) (a : Offer κ σ) : Answer κ σ :=
  Frame.tryReadAndUnsecure a.cfg (Ccm.aead cipher) a.slice a.ctx a.lookup a.device

/-- The answers to the first offers of an attacker who makes up each in view of the answers so far. -/
def answers {κ σ : Type} (cipher : BlockCipher κ) (A : List (Answer κ σ) → Offer κ σ) : Nat → List (Answer κ σ)
  | 0 => []
  | n + 1 => answers cipher A n ++ [answer cipher (A (answers cipher A n))]

/-- The receiver accepts the slice as a secured frame with a tag of at least `M` octets, though no device has sent a
frame with this key, level, nonce (that is: address and counter) and payload. -/
def Forged {κ σ : Type} (cipher : BlockCipher κ) (net : List (Sender κ)) (M : Nat) (a : Offer κ σ) : Prop :=
  ∃ f n rc x, (answer cipher a).1 = .ok (f, n) ∧ Secured f.header ∧ a.ctx.securityCtx = some rc ∧
    PassesChecks a.cfg rc a.lookup a.device a.slice x ∧ M ≤ tagLength x.level ∧
    ¬ Sent cipher net x.key x.level x.nonce f.payload

/-- If the slice has an auxiliary security header, it is at a level with a tag of at least `M` octets (or without
a tag). -/
def TagAtLeast {κ σ : Type} (M : Nat) (a : Offer κ σ) : Prop :=
  ∀ h n aux, Header.tryRead a.cfg a.slice = .ok (h, n) → h.auxSec = some aux →
    Authenticating aux.control.securityLevel → M ≤ tagLength aux.control.securityLevel

/-- The answers of a receiver to calls made one after the other. -/
def answersTo {κ σ : Type} (cfg : Cfg) (aead : Aead κ) (lookup : DevLookup σ) (dev : σ) :
    List (ReadCall κ) → List (Answer κ σ)
  | [] => []
  | call :: calls =>
    Frame.tryReadAndUnsecure cfg aead call.buf call.ctx lookup dev ::
      answersTo cfg aead lookup (Frame.tryReadAndUnsecure cfg aead call.buf call.ctx lookup dev).2.2.2 calls

/-- The first calls made to a receiver when each is made up in view of the answers so far. -/
def handedOver {κ σ : Type} (cfg : Cfg) (aead : Aead κ) (lookup : DevLookup σ) (dev : σ)
    (D : List (Answer κ σ) → ReadCall κ) : Nat → List (ReadCall κ)
  | 0 => []
  | n + 1 => handedOver cfg aead lookup dev D n ++ [D (answersTo cfg aead lookup dev (handedOver cfg aead lookup dev D n))]

/-- The keys a call of the reader has for device `i` go with the address `eui`. -/
def NamesDevice {κ σ ι : Type} {lookup : DevLookup σ} (table : DeviceTable ι lookup) (i : ι) (eui : UInt64)
    (call : ReadCall κ) : Prop :=
  ∀ rc id src eui' key, call.ctx.securityCtx = some rc → table.identify src = i →
    rc.keyProvider .src id (some src) = some (eui', key) → eui' = eui

end Verif.Spec
