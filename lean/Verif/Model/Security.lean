import Verif.Model.Header
import Verif.Model.Beacon
import Verif.Model.Command

/-!
# Frames and frame security

Models `/repo/src/mac/frame/security/mod.rs:300-677` (`calculate_nonce`, `secure_frame`,
`unsecure_frame`) and the types of `/repo/src/mac/frame/mod.rs` they need.
-/

namespace Verif

/-- frame/mod.rs:383-388 `enum FooterMode`. -/
inductive FooterMode where
  | none | explicit
deriving DecidableEq, Repr

/-- frame/mod.rs:390-394 `Default for FooterMode`. -/
def FooterMode.default : FooterMode := .none

/-- frame/mod.rs:399-416 `enum FrameContent`. -/
inductive FrameContent where
  | beacon (b : Beacon)
  | data
  | acknowledgement
  | command (c : Command)
  | multipurpose
  | fragOrFragAck
  | extended
deriving DecidableEq, Repr

/-- frame/mod.rs:156-175 `struct Frame`; the borrowed payload slice becomes an octet list. -/
structure Frame where
  header : Header
  content : FrameContent
  payload : List UInt8
  footer : UInt8 × UInt8
deriving DecidableEq, Repr

/-- The AEAD built from the block cipher type parameter, i.e. `Ccm<AEADBLKCIPH, tag, U13>`
(external crate `ccm` 0.4, security/mod.rs:171-180, 417-418, 597-600), as a parameter.
* `encrypt tagLen key nonce aad buf` is `encrypt_in_place_detached`: the tag, or `none` for `Err`,
  together with the content of `buf` afterwards;
* `decrypt tagLen key nonce aad buf tag` is `decrypt_in_place_detached`: whether it returned `Ok`,
  together with the content of `buf` afterwards. -/
structure Aead (κ : Type) where
  encrypt : (tagLen : Nat) → κ → (nonce aad buf : List UInt8) → Option (List UInt8) × List UInt8
  decrypt : (tagLen : Nat) → κ → (nonce aad buf tag : List UInt8) → Bool × List UInt8

/-- security/mod.rs:235-242 trait `DeviceDescriptorLookup`, `lookup_device(&mut self, ..)`.
An implementation with state `σ` may change its state and may return a mutable reference to a
descriptor; the reference is modelled by its current value and the function giving the state
after storing another value through it. -/
abbrev DevLookup (σ : Type) :=
  σ → AddressingMode → Address → σ × Option (DeviceDescriptor × (DeviceDescriptor → σ))

/-- security/default.rs:55-63 `DeviceDescriptorLookup for Unimplemented`. -/
def unimplementedDevLookup {σ : Type} : DevLookup σ := fun s _ _ => (s, none)

/-- security/mod.rs:300-316 `calculate_nonce`. -/
def calculateNonce (sourceAddr : UInt64) (frameCounter : UInt32) (level : SecurityLevel) :
    List UInt8 :=
  (List.range 8).map (fun i => ((sourceAddr >>> (UInt64.ofNat (8 * i))) &&& 0xFF).toUInt8)
    ++ (List.range 4).map (fun i => ((frameCounter >>> (UInt32.ofNat (8 * i))) &&& 0xFF).toUInt8)
    ++ [level.toBits]

/-- security/mod.rs:415-453, macro `do_secure!` (footer mode is `None` at this point: line 339-348
panicked otherwise, so the `Explicit` arm on line 422 is unreachable and omitted).
`buffer[..offset]` is the payload written before. -/
def doSecure {κ : Type} (aead : Aead κ) (key : κ) (nonce : List UInt8) (secL : SecurityLevel)
    (tagSize : Nat) (mic encmic : SecurityLevel) (buffer : List UInt8) (offset : Nat) :
    Out SecErr Nat × List UInt8 :=
  let res : Out SecErr (Option (List UInt8)) × List UInt8 :=
    if secL = mic then
      let (tag, _) := aead.encrypt tagSize key nonce (buffer.take offset) []
      (.ok tag, buffer)
    else if secL = encmic then
      let (tag, part) := aead.encrypt tagSize key nonce [] (buffer.take offset)
      (.ok tag, part ++ buffer.drop offset)
    else (.panic, buffer)
  match res with
  | (.ok (some tag), buffer) =>
      match W.write (tryWriteBytes tag) buffer offset with
      | (.ok (), buffer, offset) => (.ok offset, buffer)
      | (.err e, buffer, _) => (.err (.writeError e), buffer)
      | (.panic, buffer, _) => (.panic, buffer)
  | (.ok none, buffer) => (.err .transformationError, buffer)
  | (.err e, buffer) => (.err e, buffer)
  | (.panic, buffer) => (.panic, buffer)

/-- security/mod.rs:329-495 `secure_frame`.  Returns the result, the context and the buffer
afterwards.  Simplification: the `usize` sum on lines 371-375 cannot overflow (a slice has at most
`isize::MAX` octets), so it is computed in `Nat`. -/
def secureFrame {κ : Type} (aead : Aead κ) (frame : Frame) (context : SecCtx κ)
    (footerMode : FooterMode) (buffer : List UInt8) :
    Out SecErr Nat × SecCtx κ × List UInt8 :=
  match footerMode with
  | .explicit => (.panic, context, buffer)
  | .none =>
    let header := frame.header
    if header.hasSecurity then
      let source := context.euid
      if header.frameType ≠ .data then (.err .notImplemented, context, buffer)
      else match header.auxSec with
        | none => (.err .auxSecHeaderAbsent, context, buffer)
        | some aux =>
          let authLen := aux.control.securityLevel.micOctetSize
          let auxLen := aux.octetSize
          if ¬ (frame.payload.length + frame.header.octetSize + auxLen + authLen + 2 ≤ 127) then
            (.err .frameTooLong, context, buffer)
          else match W.write (tryWriteBytes frame.payload) buffer 0 with
            | (.err e, buffer, _) => (.err (.writeError e), context, buffer)
            | (.panic, buffer, _) => (.panic, context, buffer)
            | (.ok (), buffer, offset) =>
              if aux.control.securityLevel = .none then (.ok offset, context, buffer)
              else if context.frameCounter = 0xFFFFFFFF then (.err .counterError, context, buffer)
              else
                let nonce := calculateNonce source context.frameCounter aux.control.securityLevel
                let context := { context with frameCounter := context.frameCounter + 1 }
                match context.keyProvider .dst aux.keyIdentifier header.destination with
                | none => (.err .unavailableKey, context, buffer)
                | some (_, key) =>
                  let secL := aux.control.securityLevel
                  match secL with
                  | .none => (.ok offset, context, buffer)
                  | .enc => (.err .notImplemented, context, buffer)
                  | .mic32 | .encmic32 =>
                      let (r, buffer) := doSecure aead key nonce secL 4 .mic32 .encmic32 buffer offset
                      (r, context, buffer)
                  | .mic64 | .encmic64 =>
                      let (r, buffer) := doSecure aead key nonce secL 8 .mic64 .encmic64 buffer offset
                      (r, context, buffer)
                  | .mic128 | .encmic128 =>
                      let (r, buffer) :=
                        doSecure aead key nonce secL 16 .mic128 .encmic128 buffer offset
                      (r, context, buffer)
    else (.err .securityNotEnabled, context, buffer)

/-- Rust `u32` addition `x + 1`: panics on overflow with overflow checks, wraps without
(security/mod.rs:630-631). -/
def u32Succ (cfg : Cfg) (x : UInt32) : Out SecErr UInt32 :=
  if x = 0xFFFFFFFF ∧ cfg.overflowChecks = true then .panic else .ok (x + 1)

/-- security/mod.rs:595-636, macro `do_unsecure!`, up to and including the computation of the new
counter.  Returns the tag length and new device counter, and the buffer afterwards.
`data_and_tag[buffer_len - taglen..buffer_len]` panics when the buffer is shorter than the tag:
by the underflow with overflow checks, by the slice bounds without. -/
def doUnsecure {κ : Type} (cfg : Cfg) (aead : Aead κ) (key : κ) (nonce : List UInt8)
    (fc : UInt32) (secL : SecurityLevel) (tagSize : Nat) (mic encmic : SecurityLevel)
    (buffer : List UInt8) : Out SecErr (Nat × UInt32) × List UInt8 :=
  let taglen := secL.micOctetSize
  let bufferLen := buffer.length
  match (usub cfg bufferLen taglen : Out SecErr Nat) with
  | .panic => (.panic, buffer)
  | .err e => (.err e, buffer)
  | .ok start =>
    if ¬ start ≤ bufferLen then (.panic, buffer)
    -- `GenericArray::from_slice` panics when the slice length differs from the tag size
    else if ¬ (buffer.drop start).length = tagSize then (.panic, buffer)
    else
      let tag := buffer.drop start
      let authEncPart := buffer.take start
      let res : Out SecErr Bool × List UInt8 :=
        if secL = mic then
          let (ok, _) := aead.decrypt tagSize key nonce authEncPart [] tag
          (.ok ok, buffer)
        else if secL = encmic then
          let (ok, part) := aead.decrypt tagSize key nonce [] authEncPart tag
          (.ok ok, part ++ tag)
        else (.panic, buffer)
      match res with
      | (.ok true, buffer) =>
          match u32Succ cfg fc with
          | .ok fc' => (.ok (taglen, fc'), buffer)
          | .err e => (.err e, buffer)
          | .panic => (.panic, buffer)
      | (.ok false, buffer) => (.err .transformationError, buffer)
      | (.err e, buffer) => (.err e, buffer)
      | (.panic, buffer) => (.panic, buffer)

/-- security/mod.rs:513-677 `unsecure_frame`.  Returns the result (tag length), the buffer, the
context and the device lookup's state afterwards. -/
def unsecureFrame {κ σ : Type} (cfg : Cfg) (aead : Aead κ) (header : Header) (buffer : List UInt8)
    (context : SecCtx κ) (footerMode : FooterMode) (lookup : DevLookup σ) (dev : σ) :
    Out SecErr Nat × List UInt8 × SecCtx κ × σ :=
  match footerMode with
  | .explicit => (.panic, buffer, context, dev)
  | .none =>
    if header.hasSecurity then
      if header.frameType ≠ .data then (.err .notImplemented, buffer, context, dev)
      else if header.version = .ieee802154_2003 then (.err .unsupportedLegacy, buffer, context, dev)
      else match header.auxSec with
        | none => (.err .auxSecHeaderAbsent, buffer, context, dev)
        | some aux =>
          if aux.control.securityLevel = .none then
            (.err .unsupportedSecurity, buffer, context, dev)
          else match context.keyProvider .src aux.keyIdentifier header.source with
            | none => (.err .unavailableKey, buffer, context, dev)
            | some (sourceU64, key) =>
              match header.source with
              | none => (.err .noSourceAddress, buffer, context, dev)
              | some sourceAddr =>
                match lookup dev .src sourceAddr with
                | (dev, none) => (.err .unavailableDevice, buffer, context, dev)
                | (dev, some (device, store)) =>
                  if device.frameCounter = 0xFFFFFFFF ∨ aux.frameCounter < device.frameCounter then
                    (.err .counterError, buffer, context, dev)
                  else
                    let nonce := calculateNonce sourceU64 aux.frameCounter aux.control.securityLevel
                    let secL := aux.control.securityLevel
                    let finish (r : Out SecErr (Nat × UInt32) × List UInt8) :
                        Out SecErr Nat × List UInt8 × SecCtx κ × σ :=
                      match r with
                      | (.ok (taglen, fc'), buffer) =>
                          (.ok taglen, buffer, context, store { device with frameCounter := fc' })
                      | (.err e, buffer) => (.err e, buffer, context, dev)
                      | (.panic, buffer) => (.panic, buffer, context, dev)
                    match secL with
                    | .none => (.ok 0, buffer, context, dev)
                    | .enc => (.err .notImplemented, buffer, context, dev)
                    | .mic32 | .encmic32 => finish
                        (doUnsecure cfg aead key nonce aux.frameCounter secL 4 .mic32 .encmic32 buffer)
                    | .mic64 | .encmic64 => finish
                        (doUnsecure cfg aead key nonce aux.frameCounter secL 8 .mic64 .encmic64 buffer)
                    | .mic128 | .encmic128 => finish
                        (doUnsecure cfg aead key nonce aux.frameCounter secL 16 .mic128 .encmic128
                          buffer)
    else (.err .securityNotEnabled, buffer, context, dev)

end Verif
