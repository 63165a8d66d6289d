import Verif.Spec.SecuritySpec

/-!
# Specification: receiving secured frames
-/

namespace Verif.Spec

/-- What a receiver has in hand when the checks before decryption have passed. -/
structure Incoming (κ σ : Type) where
  /-- header read, and its length -/
  header : Header
  headLength : Nat
  /-- its auxiliary security header -/
  aux : AuxHeader
  /-- EUI-64 and key found by the key lookup -/
  eui : UInt64
  key : κ
  /-- source address -/
  source : Address
  /-- state of the device lookup after looking up, the descriptor found, and how to store it back -/
  looked : σ
  device : DeviceDescriptor
  store : DeviceDescriptor → σ

/-- The security level of an incoming frame. -/
def Incoming.level {κ σ : Type} (x : Incoming κ σ) : SecurityLevel := x.aux.control.securityLevel

/-- The nonce a receiver computes. -/
def Incoming.nonce {κ σ : Type} (x : Incoming κ σ) : List UInt8 :=
  nonceOctets x.eui x.aux.frameCounter x.level

/-- The slice is a secured data frame of version 2006 or later at a level with a tag, key and
device are known, and the counter is not below the device's (nor the device's exhausted). -/
structure PassesChecks {κ σ : Type} (cfg : Cfg) (sc : SecCtx κ) (lookup : DevLookup σ) (dev : σ)
    (buf : List UInt8) (x : Incoming κ σ) : Prop where
  read : Header.tryRead cfg buf = .ok (x.header, x.headLength)
  data : x.header.frameType = .data
  version : x.header.version ≠ .ieee802154_2003
  aux : x.header.auxSec = some x.aux
  level : Authenticating x.level
  key : sc.keyProvider .src x.aux.keyIdentifier x.header.source = some (x.eui, x.key)
  source : x.header.source = some x.source
  device : lookup dev .src x.source = (x.looked, some (x.device, x.store))
  notExhausted : x.device.frameCounter ≠ maxCounter
  fresh : x.device.frameCounter ≤ x.aux.frameCounter

/-- Behind the header stand `body` and a tag that verifies, revealing `payload`. -/
structure Verifies {κ σ : Type} (aead : Aead κ) (buf : List UInt8) (x : Incoming κ σ)
    (body tag payload : List UInt8) : Prop where
  split : buf.drop x.headLength = body ++ tag
  tagLength : tag.length = tagLength x.level
  verifies : unprotect aead x.level x.key x.nonce body tag = some payload

/-- The device descriptor stored after accepting the frame. -/
def Incoming.advanced {κ σ : Type} (x : Incoming κ σ) : DeviceDescriptor :=
  { x.device with frameCounter := x.aux.frameCounter + 1 }

/-- A device table behind a lookup: `identify` names the device an address stands for, `get` gives a
device's descriptor if the device is known.  The lookup finds the descriptor of the device an
address names if it is known, may rearrange the table but changes no descriptor, and storing through
the reference it returned changes the descriptor of that device and no other. -/
structure DeviceTable {σ : Type} (ι : Type) (lookup : DevLookup σ) where
  identify : Address → ι
  get : σ → ι → Option DeviceDescriptor
  looking : ∀ s a i, get (lookup s .src a).1 i = get s i
  found : ∀ s a, ((lookup s .src a).2.map fun r => r.1) = get s (identify a)
  stored : ∀ s a d store, (lookup s .src a).2 = some (d, store) → ∀ d', get (store d') (identify a) = some d'
  others : ∀ s a d store, (lookup s .src a).2 = some (d, store) → ∀ d' i, i ≠ identify a →
    get (store d') i = get s i

end Verif.Spec
