import Verif.Spec.WriterSpec
import Verif.Spec.FrameSpec

/-!
# Specification: frame security

The levels, what protecting and checking a payload means, and the laws of an AEAD (proved for CCM
over every block cipher in `Verif/Props/Ccm.lean`).
-/

namespace Verif.Spec

/-- Greatest value of a 32-bit counter. -/
abbrev maxCounter : UInt32 := 0xFFFFFFFF

/-- MIC levels: the payload stays in clear and is followed by a tag. -/
def MicOnly : SecurityLevel → Prop
  | .mic32 | .mic64 | .mic128 => True
  | _ => False

/-- ENC-MIC levels: the payload is encrypted and followed by a tag. -/
def EncMic : SecurityLevel → Prop
  | .encmic32 | .encmic64 | .encmic128 => True
  | _ => False

instance : DecidablePred MicOnly := fun l => by cases l <;> unfold MicOnly <;> infer_instance
instance : DecidablePred EncMic := fun l => by cases l <;> unfold EncMic <;> infer_instance

/-- The levels at which a frame carries a tag. -/
def Authenticating (l : SecurityLevel) : Prop := MicOnly l ∨ EncMic l

instance : DecidablePred Authenticating := fun _ => inferInstanceAs (Decidable (_ ∨ _))

/-- The octets replacing a payload on the air, and the tag behind them; `none` when the cipher
refuses.  MIC levels authenticate the payload as associated data, ENC-MIC levels encrypt it with
no associated data. -/
def protect {κ : Type} (aead : Aead κ) (level : SecurityLevel) (key : κ) (nonce payload : List UInt8) :
    Option (List UInt8 × List UInt8) :=
  if MicOnly level then
    (aead.encrypt (tagLength level) key nonce payload []).1.map fun tag => (payload, tag)
  else if EncMic level then
    match aead.encrypt (tagLength level) key nonce [] payload with
    | (some tag, body) => some (body, tag)
    | (none, _) => none
  else none

/-- The payload behind received octets `body` with trailing `tag`, if the tag verifies. -/
def unprotect {κ : Type} (aead : Aead κ) (level : SecurityLevel) (key : κ)
    (nonce body tag : List UInt8) : Option (List UInt8) :=
  if MicOnly level then
    if (aead.decrypt (tagLength level) key nonce body [] tag).1 then some body else none
  else if EncMic level then
    match aead.decrypt (tagLength level) key nonce [] body tag with
    | (true, payload) => some payload
    | (false, _) => none
  else none

/-- What an in-place AEAD promises, for the tag sizes in use. -/
structure AeadLaws {κ : Type} (aead : Aead κ) : Prop extends AeadTyped aead where
  /-- Data of at most 65535 octets is never refused. -/
  encrypts : ∀ t k n a b, t = 4 ∨ t = 8 ∨ t = 16 → b.length ≤ 65535 →
    ((aead.encrypt t k n a b).1).isSome = true
  /-- Decryption undoes encryption. -/
  decrypts : ∀ t k n a b tag c, t = 4 ∨ t = 8 ∨ t = 16 → aead.encrypt t k n a b = (some tag, c) →
    aead.decrypt t k n a c tag = (true, b)
  /-- Only what encryption produces decrypts. -/
  only : ∀ t k n a b tag c, t = 4 ∨ t = 8 ∨ t = 16 → tag.length = t →
    aead.decrypt t k n a c tag = (true, b) → aead.encrypt t k n a b = (some tag, c)
  /-- Given octets verify under at most one tag. -/
  tag_unique : ∀ t k n a c tag tag', (aead.decrypt t k n a c tag).1 = true →
    (aead.decrypt t k n a c tag').1 = true → tag = tag'

/-- A frame whose header carries an auxiliary security header. -/
def Secured (h : Header) : Prop := h.auxSec.isSome = true

/-- Header and content octets of a secured frame as the host `cfg` writes them with a context whose
counter is `counter`. -/
def securedHead (cfg : Cfg) (counter : UInt32) (f : Frame) : List UInt8 :=
  headerOctets f.header false false false (auxAsWritten cfg counter f.header.auxSec)
    ++ contentOctets f.content

/-- A frame the sender can be asked to secure: a data frame with auxiliary header `aux`, a header
that has an encoding, and content obtained from the API (for `FrameContent::Data` no condition). -/
structure SecuredData (f : Frame) (aux : AuxHeader) : Prop where
  encodable : Encodable f.header
  content : ContentFromApi f.content
  aux : f.header.auxSec = some aux
  data : f.header.frameType = .data

/-- The size the limit check adds up: payload, header uncompressed and without auxiliary header, auxiliary header,
tag. -/
abbrev securedSize (f : Frame) (aux : AuxHeader) : Nat :=
  f.payload.length + uncompressedLength f.header + auxLength aux.keyIdentifier
    + tagLength aux.control.securityLevel

/-- The context with its counter advanced by one. -/
def advance {κ : Type} (sc : SecCtx κ) : SecCtx κ := { sc with frameCounter := sc.frameCounter + 1 }

end Verif.Spec

namespace Verif

/-- The key lookup `kp` with every key replaced by `g` of it. -/
def KeyLookup.mapKeys {κ : Type} (kp : KeyLookup κ) (g : κ → κ) : KeyLookup κ :=
  fun m k a => (kp m k a).map fun r => (r.1, g r.2)

/-- The context `sc` with every key replaced by `g` of it. -/
def SecCtx.mapKeys {κ : Type} (sc : SecCtx κ) (g : κ → κ) : SecCtx κ :=
  { sc with keyProvider := sc.keyProvider.mapKeys g }

end Verif
