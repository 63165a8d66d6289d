import Verif.Model.Security

/-!
# Frames — `/repo/src/mac/frame/mod.rs:177-448`
-/

namespace Verif

namespace FrameContent

/-- frame/mod.rs:418-428 `TryWrite for FrameContent`. -/
def tryWrite (c : FrameContent) : TryWrite := W.run <|
  match c with
  | .beacon b => W.write b.tryWrite
  | .command c => W.write c.tryWrite
  | _ => pure ()

/-- frame/mod.rs:430-448 `TryRead<&Header> for FrameContent`. -/
def tryRead (header : Header) : TryRead FrameContent := R.run <|
  match header.frameType with
  | .beacon => do
      let b ← R.read Beacon.tryRead
      pure (.beacon b)
  | .data => pure .data
  | .acknowledgement => pure .acknowledgement
  | .macCommand => do
      let c ← R.read Command.tryRead
      pure (.command c)
  | .multipurpose => pure .multipurpose
  | .fragOrFragAck => pure .fragOrFragAck
  | .extended => pure .extended

end FrameContent

/-- frame/mod.rs:179-188 `struct FrameSerDesContext` (the `&mut SecurityContext` becomes a value
that is returned updated). -/
structure SerDesCtx (κ : Type) where
  footerMode : FooterMode
  securityCtx : Option (SecCtx κ)

/-- frame/mod.rs:197-205 `FrameSerDesContext::new`. -/
def SerDesCtx.new {κ : Type} (mode : FooterMode) (sc : Option (SecCtx κ)) : SerDesCtx κ := ⟨mode, sc⟩

/-- frame/mod.rs:211-216 `FrameSerDesContext::no_security`. -/
def SerDesCtx.noSecurity {κ : Type} (mode : FooterMode) : SerDesCtx κ := ⟨mode, none⟩

namespace Frame

/-- frame/mod.rs:233-234: header and content. -/
def writeHead {κ : Type} (cfg : Cfg) (f : Frame) (sc : Option (SecCtx κ)) : W Unit := do
  W.write (f.header.tryWrite cfg sc)
  W.write f.content.tryWrite

/-- frame/mod.rs:257-267: payload (unless security wrote it) and footer. -/
def writeTail (f : Frame) (mode : FooterMode) (securityEnabled : Bool) : W Unit := do
  if ¬ securityEnabled then
    W.write (tryWriteBytes f.payload)
  match mode with
  | .none => pure ()
  | .explicit => W.write (tryWriteBytes [f.footer.1, f.footer.2])

/-- frame/mod.rs:219-269 `TryWrite<&mut FrameSerDesContext> for Frame`.  Returns the result, the
buffer and the context afterwards. -/
def tryWrite {κ : Type} (cfg : Cfg) (aead : Aead κ) (f : Frame) (ctx : SerDesCtx κ)
    (bytes : List UInt8) : Out ByteErr Nat × List UInt8 × SerDesCtx κ :=
  let finish (securityEnabled : Bool) (bytes : List UInt8) (offset : Nat) (ctx : SerDesCtx κ) :
      Out ByteErr Nat × List UInt8 × SerDesCtx κ :=
    match f.writeTail ctx.footerMode securityEnabled bytes offset with
    | (.ok (), bytes, offset) => (.ok offset, bytes, ctx)
    | (.err e, bytes, _) => (.err e, bytes, ctx)
    | (.panic, bytes, _) => (.panic, bytes, ctx)
  match f.writeHead cfg ctx.securityCtx bytes 0 with
  | (.err e, bytes, _) => (.err e, bytes, ctx)
  | (.panic, bytes, _) => (.panic, bytes, ctx)
  | (.ok (), bytes, offset) =>
    match ctx.securityCtx with
    | none => finish false bytes offset ctx
    | some sc =>
      match secureFrame aead f sc ctx.footerMode (bytes.drop offset) with
      | (.ok len, sc, sub) =>
          finish true (bytes.take offset ++ sub) (offset + len) { ctx with securityCtx := some sc }
      | (.err .securityNotEnabled, sc, sub) =>
          finish false (bytes.take offset ++ sub) offset { ctx with securityCtx := some sc }
      | (.err e, sc, sub) =>
          (.err e.toByteErr, bytes.take offset ++ sub, { ctx with securityCtx := some sc })
      | (.panic, sc, sub) =>
          (.panic, bytes.take offset ++ sub, { ctx with securityCtx := some sc })

/-- frame/mod.rs:292-293 and 342-343: header and content. -/
def readHead (cfg : Cfg) : R (Header × FrameContent) := do
  let header ← R.read (Header.tryRead cfg)
  let content ← R.read (FrameContent.tryRead header)
  pure (header, content)

/-- frame/mod.rs:364 `footer.to_le_bytes()`. -/
def footerBytes (x : UInt16) : UInt8 × UInt8 := (x.toUInt8, (x >>> 8).toUInt8)

/-- frame/mod.rs:330-368 `TryRead<FooterMode> for Frame`. -/
def tryRead (cfg : Cfg) (mode : FooterMode) : TryRead Frame := R.run do
  let (header, content) ← readHead cfg
  if header.hasSecurity then
    R.fail DecodeError.securityEnabled.toByteErr
  let (payload, footer) ← (match mode with
    | .none => do
        let len ← R.len
        let off ← R.offset
        let n ← R.lift (usub cfg len off)
        let payload ← R.read (tryReadBytes n)
        pure (payload, (0 : UInt16))
    | .explicit => do
        let len ← R.len
        let off ← R.offset
        let n ← R.lift (usub cfg len off)
        let n ← R.lift (usub cfg n 2)
        let payload ← R.read (tryReadBytes n)
        let footer ← R.read (tryReadU16 .little)
        pure (payload, footer) : R (List UInt8 × UInt16))
  pure { header, content, payload, footer := footerBytes footer }

/-- frame/mod.rs:316-326: the end of `try_read_and_unsecure`. -/
def readPayload (cfg : Cfg) (header : Header) (content : FrameContent) (tagSize : Nat) : R Frame := do
  let len ← R.len
  let off ← R.offset
  let n ← R.lift (usub cfg len off)
  let n ← R.lift (usub cfg n tagSize)
  let payload ← R.read (tryReadBytes n)
  pure { header, content, payload, footer := (0, 0) }

/-- frame/mod.rs:280-327 `Frame::try_read_and_unsecure`.  Returns the result, the buffer, the
context and the device lookup's state afterwards. -/
def tryReadAndUnsecure {κ σ : Type} (cfg : Cfg) (aead : Aead κ) (buf : List UInt8)
    (ctx : SerDesCtx κ) (lookup : DevLookup σ) (dev : σ) :
    Out SecErr (Frame × Nat) × List UInt8 × SerDesCtx κ × σ :=
  match readHead cfg buf 0 with
  | .err e => (.err (SecErr.ofByteErr e), buf, ctx, dev)
  | .panic => (.panic, buf, ctx, dev)
  | .ok ((header, content), offset) =>
    let finish (tagSize : Nat) (buf : List UInt8) (ctx : SerDesCtx κ) (dev : σ) :
        Out SecErr (Frame × Nat) × List UInt8 × SerDesCtx κ × σ :=
      ((readPayload cfg header content tagSize buf offset).mapErr SecErr.ofByteErr, buf, ctx, dev)
    if header.hasSecurity then
      match ctx.securityCtx with
      | none => (.err .invalidSecContext, buf, ctx, dev)
      | some sc =>
        match unsecureFrame cfg aead header (buf.drop offset) sc ctx.footerMode lookup dev with
        | (.ok size, sub, sc, dev) =>
            finish size (buf.take offset ++ sub) { ctx with securityCtx := some sc } dev
        | (.err .securityNotEnabled, sub, sc, dev) =>
            finish 0 (buf.take offset ++ sub) { ctx with securityCtx := some sc } dev
        | (.err e, sub, sc, dev) =>
            (.err e, buf.take offset ++ sub, { ctx with securityCtx := some sc }, dev)
        | (.panic, sub, sc, dev) =>
            (.panic, buf.take offset ++ sub, { ctx with securityCtx := some sc }, dev)
    else finish 0 buf ctx dev

end Frame

end Verif
