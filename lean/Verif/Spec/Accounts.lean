import Verif.Spec.ReceiveSpec

/-!
# Specification: complete accounts of securing and unsecuring

Tables of everything a caller can observe (result, buffer, counter or device state), case by case,
in the order the cases are decided.
-/

namespace Verif.Spec

/-- The payload's place after the cipher was asked to protect it: at ENC-MIC levels whatever the
cipher left there, otherwise the payload. -/
def payloadPlace {κ : Type} (aead : Aead κ) (level : SecurityLevel) (key : κ)
    (nonce payload : List UInt8) : List UInt8 :=
  if EncMic level then (aead.encrypt (tagLength level) key nonce [] payload).2 else payload

/-- Writing a secured data frame without explicit footer into a buffer with room for header and
content: the result, the buffer afterwards, the context afterwards. -/
def sendingAccount {κ : Type} (cfg : Cfg) (aead : Aead κ) (f : Frame) (aux : AuxHeader) (sc : SecCtx κ)
    (buf : List UInt8) : Out ByteErr Nat × List UInt8 × SecCtx κ :=
  let head := securedHead cfg sc.frameCounter f
  let level := aux.control.securityLevel
  let clearEnd := head.length + f.payload.length
  let inClear := head ++ f.payload ++ buf.drop clearEnd
  if 125 < securedSize f aux then
    (.err (.badInput "FrameTooLong"), head ++ buf.drop head.length, sc)
  else if buf.length < clearEnd then (.err .incomplete, head ++ buf.drop head.length, sc)
  else if level = .none then (.ok clearEnd, inClear, sc)
  else if sc.frameCounter = maxCounter then (.err (.badInput "CounterError"), inClear, sc)
  else match sc.keyProvider .dst aux.keyIdentifier f.header.destination with
    | none => (.err (.badInput "UnavailableKey"), inClear, advance sc)
    | some (_, key) =>
      if level = .enc then (.err (.badInput "NotImplemented"), inClear, advance sc)
      else
        let nonce := nonceOctets sc.euid sc.frameCounter level
        match protect aead level key nonce f.payload with
        | none => (.err (.badInput "TransformationError"),
            head ++ payloadPlace aead level key nonce f.payload ++ buf.drop clearEnd, advance sc)
        | some (body, tag) =>
          if buf.length < clearEnd + tagLength level then
            (.err .incomplete, head ++ body ++ buf.drop clearEnd, advance sc)
          else (.ok (clearEnd + tagLength level),
            head ++ body ++ tag ++ buf.drop (clearEnd + tagLength level), advance sc)

/-- The protected part's place after checking it: at ENC-MIC levels whatever the cipher left there,
otherwise as received. -/
def bodyPlace {κ : Type} (aead : Aead κ) (level : SecurityLevel) (key : κ)
    (nonce body tag : List UInt8) : List UInt8 :=
  if EncMic level then (aead.decrypt (tagLength level) key nonce [] body tag).2 else body

/-- Receiving a frame with readable secured header `h` of `n` octets and content `c` of `m` octets,
without explicit footer: the result, the buffer afterwards, the device state afterwards. -/
def receivingAccount {κ σ : Type} (cfg : Cfg) (aead : Aead κ) (buf : List UInt8) (sc : SecCtx κ)
    (lookup : DevLookup σ) (dev : σ) (h : Header) (aux : AuxHeader) (c : FrameContent) (headLength : Nat) :
    Out SecErr (Frame × Nat) × List UInt8 × σ :=
  let level := aux.control.securityLevel
  if h.frameType ≠ .data then (.err .notImplemented, buf, dev)
  else if h.version = .ieee802154_2003 then (.err .unsupportedLegacy, buf, dev)
  else if level = .none then (.err .unsupportedSecurity, buf, dev)
  else match sc.keyProvider .src aux.keyIdentifier h.source with
    | none => (.err .unavailableKey, buf, dev)
    | some (eui, key) => match h.source with
      | none => (.err .noSourceAddress, buf, dev)
      | some source => match lookup dev .src source with
        | (looked, none) => (.err .unavailableDevice, buf, looked)
        | (looked, some (device, store)) =>
          if device.frameCounter = maxCounter ∨ aux.frameCounter < device.frameCounter then
            (.err .counterError, buf, looked)
          else if level = .enc then (.err .notImplemented, buf, looked)
          else if buf.length < headLength + tagLength level then (.panic, buf, looked)
          else
            let nonce := nonceOctets eui aux.frameCounter level
            let bodyLength := buf.length - headLength - tagLength level
            let head := buf.take headLength
            let body := (buf.drop headLength).take bodyLength
            let tag := buf.drop (headLength + bodyLength)
            let after := head ++ bodyPlace aead level key nonce body tag ++ tag
            match unprotect aead level key nonce body tag with
            | none => (.err .transformationError, after, looked)
            | some payload =>
              if aux.frameCounter = maxCounter ∧ cfg.overflowChecks = true then (.panic, after, looked)
              else (.ok (⟨h, c, payload, (0, 0)⟩, headLength + payload.length), after,
                store { device with frameCounter := aux.frameCounter + 1 })

end Verif.Spec
