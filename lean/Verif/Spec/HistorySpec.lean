import Verif.Spec.ReceiveSpec

/-!
# Specification: histories of writes and of receptions
-/

namespace Verif.Spec

/-- One call of the frame writer: the frame, the footer mode and the buffer given. -/
structure WriteCall where
  frame : Frame
  mode : FooterMode
  buf : List UInt8

/-- The security context after one call with it, whatever the call returned. -/
def contextAfterCall {κ : Type} (cfg : Cfg) (aead : Aead κ) (sc : SecCtx κ) (call : WriteCall) : SecCtx κ :=
  match (call.frame.tryWrite cfg aead ⟨call.mode, some sc⟩ call.buf).2.2.securityCtx with
  | some sc' => sc'
  | none => sc

/-- The security context after a sequence of calls. -/
def contextAfter {κ : Type} (cfg : Cfg) (aead : Aead κ) (sc : SecCtx κ) (calls : List WriteCall) :
    SecCtx κ :=
  calls.foldl (contextAfterCall cfg aead) sc

/-- Two ciphers that encrypt alike except possibly under one nonce. -/
def SameExcept {κ : Type} (nonce : List UInt8) (a b : Aead κ) : Prop :=
  a.decrypt = b.decrypt ∧
  ∀ t k n aad buf, n ≠ nonce → a.encrypt t k n aad buf = b.encrypt t k n aad buf

/-- A call depends on what the cipher does under `nonce`: exchanging the cipher for one that
differs only there can change the outcome of the call. -/
def UsesNonce {κ : Type} (cfg : Cfg) (sc : SecCtx κ) (call : WriteCall) (nonce : List UInt8) : Prop :=
  ∃ a b : Aead κ, AeadTyped a ∧ AeadTyped b ∧ SameExcept nonce a b ∧
    call.frame.tryWrite cfg a ⟨call.mode, some sc⟩ call.buf ≠
      call.frame.tryWrite cfg b ⟨call.mode, some sc⟩ call.buf

/-- One call of the unsecuring reader: the slice received and the context given. -/
structure ReadCall (κ : Type) where
  buf : List UInt8
  ctx : SerDesCtx κ

/-- The state of the device lookup after a sequence of calls, whatever they returned. -/
def devicesAfter {κ σ : Type} (cfg : Cfg) (aead : Aead κ) (lookup : DevLookup σ) (dev : σ)
    (calls : List (ReadCall κ)) : σ :=
  calls.foldl (fun s call => (Frame.tryReadAndUnsecure cfg aead call.buf call.ctx lookup s).2.2.2) dev

/-- In device state `dev` the call returns `f`, and `f` is a secured frame. -/
def Accepts {κ σ : Type} (cfg : Cfg) (aead : Aead κ) (lookup : DevLookup σ) (dev : σ)
    (call : ReadCall κ) (f : Frame) : Prop :=
  Secured f.header ∧ ∃ k, (Frame.tryReadAndUnsecure cfg aead call.buf call.ctx lookup dev).1 = .ok (f, k)

/-- The frame names device `i` as its source and carries frame counter `c`. -/
def ComesFrom {σ ι : Type} {lookup : DevLookup σ} (table : DeviceTable ι lookup) (i : ι) (c : UInt32)
    (f : Frame) : Prop :=
  ∃ src aux, f.header.source = some src ∧ table.identify src = i ∧
    f.header.auxSec = some aux ∧ aux.frameCounter = c

/-- The octets call number `p` of a history of writes puts on the air, if that call succeeds. -/
def onAir {κ : Type} (cfg : Cfg) (aead : Aead κ) (sc : SecCtx κ) (calls : List WriteCall) (p : Nat) :
    Option (List UInt8) :=
  match calls[p]? with
  | none => none
  | some call =>
    match call.frame.tryWrite cfg aead ⟨call.mode, some (contextAfter cfg aead sc (calls.take p))⟩ call.buf with
    | (.ok n, buf', _) => some (buf'.take n)
    | _ => none

/-- A call that writes a secured data frame, of version 2006 or later and at a level with a tag, that
reaches the receiver as coming from device `i`, and for which the receiver (context `rc`) finds the
key the sender (context `sc`) used and the sender's EUI-64. -/
structure Receivable {κ σ ι : Type} {lookup : DevLookup σ} (table : DeviceTable ι lookup) (i : ι)
    (sc rc : SecCtx κ) (call : WriteCall) : Prop where
  mode : call.mode = .none
  content : call.frame.content = .data
  version : call.frame.header.version ≠ .ieee802154_2003
  frame : ∃ aux, SecuredData call.frame aux ∧ Authenticating aux.control.securityLevel ∧
    ∃ src, sourceAsRead call.frame.header = some src ∧ table.identify src = i ∧
    ∃ eui key, sc.keyProvider .dst aux.keyIdentifier call.frame.header.destination = some (eui, key) ∧
      rc.keyProvider .src aux.keyIdentifier (some src) = some (sc.euid, key)

/-- What a receiver is given: a packet the sender put on the air (its call number `p`; late, early,
or again), or anything else. -/
inductive Delivery (κ : Type) where
  | packet (p : Nat) (octets : List UInt8) (rc : SecCtx κ)
  | other (call : ReadCall κ)

/-- The call of the reader a delivery amounts to. -/
def Delivery.call {κ : Type} : Delivery κ → ReadCall κ
  | packet _ octets rc => ⟨octets, ⟨.none, some rc⟩⟩
  | other call => call

end Verif.Spec
