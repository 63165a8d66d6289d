import Verif.Spec.StepSpec

/-!
# Specification: the conversation of a call with the application

What a call asks of the key lookup, the device lookup and the cipher the application supplies, with what
arguments, what they answer, and what it stores; in the order in which it happens.
-/

namespace Verif.Spec

/-- One exchange with the application: a question with its arguments and the answer, or a store. -/
inductive Exchange (κ : Type) where
  /-- the counter of the security context was stored -/
  | counter (c : UInt32)
  /-- the key lookup -/
  | key (mode : AddressingMode) (kid : Option KeyIdentifier) (addr : Option Address) (answer : Option (UInt64 × κ))
  /-- the cipher, to encrypt: tag size, key, nonce, associated data, text; the answer is the tag, if any, and what it
  left in place of the text -/
  | encrypt (tagLen : Nat) (key : κ) (nonce aad text : List UInt8) (answer : Option (List UInt8) × List UInt8)
  /-- the device lookup -/
  | device (mode : AddressingMode) (addr : Address) (answer : Option DeviceDescriptor)
  /-- the cipher, to decrypt: tag size, key, nonce, associated data, text, tag; the answer is whether the tag is right,
  and what it left in place of the text -/
  | decrypt (tagLen : Nat) (key : κ) (nonce aad text tag : List UInt8) (answer : Bool × List UInt8)
  /-- a device descriptor was stored through the reference the device lookup gave out -/
  | store (d : DeviceDescriptor)
deriving DecidableEq

/-- The conversation of a call up to some point.  The application may answer anything at all. -/
inductive Talk {κ α : Type} : Prog κ α → List (Exchange κ) → Prog κ α → Prop
  | nothing (p) : Talk p [] p
  | counter {w c next es q} : Talk next es q → Talk (.setCounter w c next) (.counter c :: es) q
  | key {w mode kid addr next es q} (answer) : Talk (next answer) es q →
      Talk (.askKey w mode kid addr next) (.key mode kid addr answer :: es) q
  | encrypt {w t key nonce aad text next es q} (answer) : Talk (next answer) es q →
      Talk (.encrypt w t key nonce aad text next) (.encrypt t key nonce aad text answer :: es) q
  | device {w mode addr next es q} (answer) : Talk (next answer) es q →
      Talk (.lookupDevice w mode addr next) (.device mode addr answer :: es) q
  | decrypt {w t key nonce aad text tag next es q} (answer) : Talk (next answer) es q →
      Talk (.decrypt w t key nonce aad text tag next) (.decrypt t key nonce aad text tag answer :: es) q
  | store {w d next es q} : Talk next es q → Talk (.storeDevice w d next) (.store d :: es) q

/-- The answers are the ones this cipher and these lookups give, with `m` in memory at the start. -/
def Truthful {κ σ : Type} (aead : Aead κ) (keys : KeyLookup κ) (lookup : DevLookup σ) :
    Memory σ → List (Exchange κ) → Prop
  | _, [] => True
  | m, .counter c :: es => Truthful aead keys lookup { m with counter := c } es
  | m, .key mode kid addr answer :: es => answer = keys mode kid addr ∧ Truthful aead keys lookup m es
  | m, .encrypt t key nonce aad text answer :: es =>
      answer = aead.encrypt t key nonce aad text ∧ Truthful aead keys lookup m es
  | m, .device mode addr answer :: es =>
      answer = (lookup m.dev mode addr).2.map (·.1) ∧ Truthful aead keys lookup
        { m with dev := (lookup m.dev mode addr).1, ref := (lookup m.dev mode addr).2.map (·.2) } es
  | m, .decrypt t key nonce aad text tag answer :: es =>
      answer = aead.decrypt t key nonce aad text tag ∧ Truthful aead keys lookup m es
  | m, .store d :: es => Truthful aead keys lookup { m with dev := m.store d } es

/-- `aad` and `text` are the two parts of `octets` the cipher is handed: at levels without encryption all of it is
only authenticated, at levels with encryption all of it is encrypted and nothing else is authenticated. -/
def Split (level : SecurityLevel) (octets aad text : List UInt8) : Prop :=
  MicOnly level ∧ aad = octets ∧ text = [] ∨ EncMic level ∧ aad = [] ∧ text = octets

/-- What a write with a context of address `euid` and counter `c` may say to the application, up to some point: it
stores the next counter; asks for the key for the destination of the frame; has the payload encrypted under that key. -/
inductive WriteTalk {κ : Type} (euid : UInt64) (c : UInt32) (f : Frame) (aux : AuxHeader) :
    List (Exchange κ) → Prop
  | counted : WriteTalk euid c f aux [.counter (c + 1)]
  | asked (answer) :
      WriteTalk euid c f aux [.counter (c + 1), .key .dst aux.keyIdentifier f.header.destination answer]
  | sealed (owner key aad text answer) (h : Split aux.control.securityLevel f.payload aad text) :
      WriteTalk euid c f aux [.counter (c + 1),
        .key .dst aux.keyIdentifier f.header.destination (some (owner, key)),
        .encrypt (tagLength aux.control.securityLevel) key (nonceOctets euid c aux.control.securityLevel) aad text answer]

/-- What a reception of a frame with this header and `body` behind it may say to the application, up to some point: it
asks for the key for the source of the frame; then for the device; then, if the counter is neither used up nor below
that of the device, has the body decrypted under that key; then, if the tag is right, stores the next counter. -/
inductive ReadTalk {κ : Type} (cfg : Cfg) (h : Header) (aux : AuxHeader) (body : List UInt8) :
    List (Exchange κ) → Prop
  | asked (answer) : ReadTalk cfg h aux body [.key .src aux.keyIdentifier h.source answer]
  | looked (owner key src answer) (hs : h.source = some src) :
      ReadTalk cfg h aux body [.key .src aux.keyIdentifier (some src) (some (owner, key)), .device .src src answer]
  | opened (owner key src d octets aad text tag answer) (hs : h.source = some src)
      (fresh : d.frameCounter ≤ aux.frameCounter) (left : d.frameCounter ≠ maxCounter)
      (hb : body = octets ++ tag) (ht : tag.length = tagLength aux.control.securityLevel)
      (hsplit : Split aux.control.securityLevel octets aad text) :
      ReadTalk cfg h aux body [.key .src aux.keyIdentifier (some src) (some (owner, key)), .device .src src (some d),
        .decrypt (tagLength aux.control.securityLevel) key
          (nonceOctets owner aux.frameCounter aux.control.securityLevel) aad text tag answer]
  | stored (owner key src d octets aad text tag out) (hs : h.source = some src)
      (fresh : d.frameCounter ≤ aux.frameCounter) (left : d.frameCounter ≠ maxCounter)
      (hb : body = octets ++ tag) (ht : tag.length = tagLength aux.control.securityLevel)
      (hsplit : Split aux.control.securityLevel octets aad text)
      (wrap : cfg.overflowChecks = true → aux.frameCounter ≠ maxCounter) :
      ReadTalk cfg h aux body [.key .src aux.keyIdentifier (some src) (some (owner, key)), .device .src src (some d),
        .decrypt (tagLength aux.control.securityLevel) key
          (nonceOctets owner aux.frameCounter aux.control.securityLevel) aad text tag (true, out),
        .store { d with frameCounter := aux.frameCounter + 1 }]

end Verif.Spec
