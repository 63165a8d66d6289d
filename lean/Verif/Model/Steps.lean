import Verif.Model.Frame

/-!
# The same calls, one effect at a time

`secure_frame`, `unsecure_frame`, `Frame::try_write` and `Frame::try_read_and_unsecure` again, this
time as programs whose every effect outside the buffer — a store to the context's counter or to a
device descriptor, a call of the key lookup, the device lookup or the cipher — is a step of its own,
in the order of the code.  Between any two steps the call can be cut short (a reset with the context and
the device table in retained memory; a panic in a lookup or cipher that is caught).  `Props/Steps.lean`
proves that run to the end they are the functions of `Model/Security.lean` and `Model/Frame.lean`.

Every step says what the caller's buffer holds right before it (`held`).  Simplification: stores to the
buffer are no steps of their own, so a call is not cut short in the middle of writing header or payload (`Model/Stores.lean`
has them as steps); and while the cipher works in place, what it holds is not given (only the part of it the cipher was handed).
-/

namespace Verif

/-- A call that still has steps to do. -/
inductive Prog (κ α : Type) where
  /-- the call returns (or panics) -/
  | done (a : α)
  /-- security/mod.rs:402 `*frame_counter += 1` with the value stored -/
  | setCounter (held : List UInt8) (c : UInt32) (next : Prog κ α)
  /-- security/mod.rs:405, 560 `lookup_key_descriptor` -/
  | askKey (held : List UInt8) (mode : AddressingMode) (kid : Option KeyIdentifier) (addr : Option Address)
      (next : Option (UInt64 × κ) → Prog κ α)
  /-- security/mod.rs:428, 433 `encrypt_in_place_detached` -/
  | encrypt (held : List UInt8) (tagLen : Nat) (key : κ) (nonce aad buf : List UInt8)
      (next : Option (List UInt8) × List UInt8 → Prog κ α)
  /-- security/mod.rs:572 `lookup_device` -/
  | lookupDevice (held : List UInt8) (mode : AddressingMode) (addr : Address)
      (next : Option DeviceDescriptor → Prog κ α)
  /-- security/mod.rs:613, 619 `decrypt_in_place_detached` -/
  | decrypt (held : List UInt8) (tagLen : Nat) (key : κ) (nonce aad buf tag : List UInt8)
      (next : Bool × List UInt8 → Prog κ α)
  /-- security/mod.rs:631 `*frame_counter = ..`, through the reference `lookup_device` returned -/
  | storeDevice (held : List UInt8) (d : DeviceDescriptor) (next : Prog κ α)

/-- What the caller's buffer holds right before the next step, or at the end. -/
def Prog.held {κ α : Type} : Prog κ (α × List UInt8) → List UInt8
  | .done a => a.2
  | .setCounter w _ _ => w
  | .askKey w _ _ _ _ => w
  | .encrypt w _ _ _ _ _ _ => w
  | .lookupDevice w _ _ _ => w
  | .decrypt w _ _ _ _ _ _ _ => w
  | .storeDevice w _ _ => w

/-- Sequencing, where the first program works on the part of the buffer behind `front`. -/
def Prog.bind {κ α β : Type} (front : List UInt8) (f : α → Prog κ β) : Prog κ α → Prog κ β
  | .done a => f a
  | .setCounter w c next => .setCounter (front ++ w) c (next.bind front f)
  | .askKey w m k a next => .askKey (front ++ w) m k a fun r => (next r).bind front f
  | .encrypt w t k n a b next => .encrypt (front ++ w) t k n a b fun r => (next r).bind front f
  | .lookupDevice w m a next => .lookupDevice (front ++ w) m a fun r => (next r).bind front f
  | .decrypt w t k n a b g next => .decrypt (front ++ w) t k n a b g fun r => (next r).bind front f
  | .storeDevice w d next => .storeDevice (front ++ w) d (next.bind front f)

/-- security/mod.rs:415-453, macro `do_secure!`. -/
def doSecureP {κ : Type} (key : κ) (nonce : List UInt8) (secL : SecurityLevel) (tagSize : Nat)
    (mic encmic : SecurityLevel) (buffer : List UInt8) (offset : Nat) : Prog κ (Out SecErr Nat × List UInt8) :=
  let finish (tag : Option (List UInt8)) (buffer : List UInt8) : Prog κ (Out SecErr Nat × List UInt8) :=
    match tag with
    | some tag =>
      match W.write (tryWriteBytes tag) buffer offset with
      | (.ok (), buffer, offset) => .done (.ok offset, buffer)
      | (.err e, buffer, _) => .done (.err (.writeError e), buffer)
      | (.panic, buffer, _) => .done (.panic, buffer)
    | none => .done (.err .transformationError, buffer)
  if secL = mic then
    .encrypt buffer tagSize key nonce (buffer.take offset) [] fun r => finish r.1 buffer
  else if secL = encmic then
    .encrypt buffer tagSize key nonce [] (buffer.take offset) fun r => finish r.1 (r.2 ++ buffer.drop offset)
  else .done (.panic, buffer)

/-- security/mod.rs:329-495 `secure_frame`; of the context its `euid` and its counter at the start. -/
def secureFrameP {κ : Type} (frame : Frame) (euid : UInt64) (counter : UInt32) (footerMode : FooterMode)
    (buffer : List UInt8) : Prog κ (Out SecErr Nat × List UInt8) :=
  match footerMode with
  | .explicit => .done (.panic, buffer)
  | .none =>
    let header := frame.header
    if header.hasSecurity then
      if header.frameType ≠ .data then .done (.err .notImplemented, buffer)
      else match header.auxSec with
        | none => .done (.err .auxSecHeaderAbsent, buffer)
        | some aux =>
          let authLen := aux.control.securityLevel.micOctetSize
          let auxLen := aux.octetSize
          if ¬ (frame.payload.length + frame.header.octetSize + auxLen + authLen + 2 ≤ 127) then
            .done (.err .frameTooLong, buffer)
          else match W.write (tryWriteBytes frame.payload) buffer 0 with
            | (.err e, buffer, _) => .done (.err (.writeError e), buffer)
            | (.panic, buffer, _) => .done (.panic, buffer)
            | (.ok (), buffer, offset) =>
              if aux.control.securityLevel = .none then .done (.ok offset, buffer)
              else if counter = 0xFFFFFFFF then .done (.err .counterError, buffer)
              else
                let nonce := calculateNonce euid counter aux.control.securityLevel
                .setCounter buffer (counter + 1) <|
                .askKey buffer .dst aux.keyIdentifier header.destination fun found =>
                  match found with
                  | none => .done (.err .unavailableKey, buffer)
                  | some (_, key) =>
                    let secL := aux.control.securityLevel
                    match secL with
                    | .none => .done (.ok offset, buffer)
                    | .enc => .done (.err .notImplemented, buffer)
                    | .mic32 | .encmic32 => doSecureP key nonce secL 4 .mic32 .encmic32 buffer offset
                    | .mic64 | .encmic64 => doSecureP key nonce secL 8 .mic64 .encmic64 buffer offset
                    | .mic128 | .encmic128 => doSecureP key nonce secL 16 .mic128 .encmic128 buffer offset
    else .done (.err .securityNotEnabled, buffer)

/-- frame/mod.rs:219-269 `Frame::try_write`. -/
def Frame.tryWriteP {κ : Type} (cfg : Cfg) (f : Frame) (ctx : SerDesCtx κ) (bytes : List UInt8) :
    Prog κ (Out ByteErr Nat × List UInt8) :=
  let finish (securityEnabled : Bool) (bytes : List UInt8) (offset : Nat) : Prog κ (Out ByteErr Nat × List UInt8) :=
    match f.writeTail ctx.footerMode securityEnabled bytes offset with
    | (.ok (), bytes, offset) => .done (.ok offset, bytes)
    | (.err e, bytes, _) => .done (.err e, bytes)
    | (.panic, bytes, _) => .done (.panic, bytes)
  match f.writeHead cfg ctx.securityCtx bytes 0 with
  | (.err e, bytes, _) => .done (.err e, bytes)
  | (.panic, bytes, _) => .done (.panic, bytes)
  | (.ok (), bytes, offset) =>
    match ctx.securityCtx with
    | none => finish false bytes offset
    | some sc =>
      (secureFrameP f sc.euid sc.frameCounter ctx.footerMode (bytes.drop offset)).bind (bytes.take offset) fun r =>
        match r with
        | (.ok len, sub) => finish true (bytes.take offset ++ sub) (offset + len)
        | (.err .securityNotEnabled, sub) => finish false (bytes.take offset ++ sub) offset
        | (.err e, sub) => .done (.err e.toByteErr, bytes.take offset ++ sub)
        | (.panic, sub) => .done (.panic, bytes.take offset ++ sub)

/-- security/mod.rs:595-636, macro `do_unsecure!`; `device` is the value behind the reference. -/
def doUnsecureP {κ : Type} (cfg : Cfg) (key : κ) (nonce : List UInt8) (fc : UInt32) (secL : SecurityLevel)
    (tagSize : Nat) (mic encmic : SecurityLevel) (device : DeviceDescriptor) (buffer : List UInt8) :
    Prog κ (Out SecErr Nat × List UInt8) :=
  let taglen := secL.micOctetSize
  let bufferLen := buffer.length
  match (usub cfg bufferLen taglen : Out SecErr Nat) with
  | .panic => .done (.panic, buffer)
  | .err e => .done (.err e, buffer)
  | .ok start =>
    if ¬ start ≤ bufferLen then .done (.panic, buffer)
    else if ¬ (buffer.drop start).length = tagSize then .done (.panic, buffer)
    else
      let tag := buffer.drop start
      let authEncPart := buffer.take start
      let finish (verified : Bool) (buffer : List UInt8) : Prog κ (Out SecErr Nat × List UInt8) :=
        if verified then
          match u32Succ cfg fc with
          | .ok fc' => .storeDevice buffer { device with frameCounter := fc' } (.done (.ok taglen, buffer))
          | .err e => .done (.err e, buffer)
          | .panic => .done (.panic, buffer)
        else .done (.err .transformationError, buffer)
      if secL = mic then .decrypt buffer tagSize key nonce authEncPart [] tag fun r => finish r.1 buffer
      else if secL = encmic then .decrypt buffer tagSize key nonce [] authEncPart tag fun r => finish r.1 (r.2 ++ tag)
      else .done (.panic, buffer)

/-- security/mod.rs:513-677 `unsecure_frame`. -/
def unsecureFrameP {κ : Type} (cfg : Cfg) (header : Header) (buffer : List UInt8) (footerMode : FooterMode) :
    Prog κ (Out SecErr Nat × List UInt8) :=
  match footerMode with
  | .explicit => .done (.panic, buffer)
  | .none =>
    if header.hasSecurity then
      if header.frameType ≠ .data then .done (.err .notImplemented, buffer)
      else if header.version = .ieee802154_2003 then .done (.err .unsupportedLegacy, buffer)
      else match header.auxSec with
        | none => .done (.err .auxSecHeaderAbsent, buffer)
        | some aux =>
          if aux.control.securityLevel = .none then .done (.err .unsupportedSecurity, buffer)
          else .askKey buffer .src aux.keyIdentifier header.source fun found =>
            match found with
            | none => .done (.err .unavailableKey, buffer)
            | some (sourceU64, key) =>
              match header.source with
              | none => .done (.err .noSourceAddress, buffer)
              | some sourceAddr => .lookupDevice buffer .src sourceAddr fun device =>
                match device with
                | none => .done (.err .unavailableDevice, buffer)
                | some device =>
                  if device.frameCounter = 0xFFFFFFFF ∨ aux.frameCounter < device.frameCounter then
                    .done (.err .counterError, buffer)
                  else
                    let nonce := calculateNonce sourceU64 aux.frameCounter aux.control.securityLevel
                    let secL := aux.control.securityLevel
                    match secL with
                    | .none => .done (.ok 0, buffer)
                    | .enc => .done (.err .notImplemented, buffer)
                    | .mic32 | .encmic32 =>
                        doUnsecureP cfg key nonce aux.frameCounter secL 4 .mic32 .encmic32 device buffer
                    | .mic64 | .encmic64 =>
                        doUnsecureP cfg key nonce aux.frameCounter secL 8 .mic64 .encmic64 device buffer
                    | .mic128 | .encmic128 =>
                        doUnsecureP cfg key nonce aux.frameCounter secL 16 .mic128 .encmic128 device buffer
    else .done (.err .securityNotEnabled, buffer)

/-- frame/mod.rs:280-327 `Frame::try_read_and_unsecure`; of the security context only whether there is one. -/
def Frame.tryReadAndUnsecureP {κ : Type} (cfg : Cfg) (buf : List UInt8) (footerMode : FooterMode)
    (hasContext : Bool) : Prog κ (Out SecErr (Frame × Nat) × List UInt8) :=
  match readHead cfg buf 0 with
  | .err e => .done (.err (SecErr.ofByteErr e), buf)
  | .panic => .done (.panic, buf)
  | .ok ((header, content), offset) =>
    let finish (tagSize : Nat) (buf : List UInt8) : Prog κ (Out SecErr (Frame × Nat) × List UInt8) :=
      .done ((readPayload cfg header content tagSize buf offset).mapErr SecErr.ofByteErr, buf)
    if header.hasSecurity then
      if hasContext then
        (unsecureFrameP cfg header (buf.drop offset) footerMode).bind (buf.take offset) fun r =>
          match r with
          | (.ok size, sub) => finish size (buf.take offset ++ sub)
          | (.err .securityNotEnabled, sub) => finish 0 (buf.take offset ++ sub)
          | (.err e, sub) => .done (.err e, buf.take offset ++ sub)
          | (.panic, sub) => .done (.panic, buf.take offset ++ sub)
      else .done (.err .invalidSecContext, buf)
    else finish 0 buf

end Verif
