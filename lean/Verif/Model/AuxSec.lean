import Verif.Model.Address

/-!
# Security control field, auxiliary security header and security context

Models `/repo/src/mac/frame/security/security_control.rs`,
`/repo/src/mac/frame/security/auxiliary_security_header.rs` and the context types of
`/repo/src/mac/frame/security/mod.rs:192-298`.
-/

namespace Verif

/-- security_control.rs:11-19 `struct SecurityControl`. -/
structure SecurityControl where
  securityLevel : SecurityLevel
  keyIdMode : KeyIdMode
deriving DecidableEq, Repr

namespace SecurityControl

/-- security_control.rs:25-30 `SecurityControl::new`. -/
def new (level : SecurityLevel) : SecurityControl := ⟨level, .none⟩

/-- security_control.rs:163-172 `mod mask`. -/
def maskLevel : UInt8 := 0x07
/-- security_control.rs:163-172 `mod mask`. -/
def maskKeyIdMode : UInt8 := 0x18
/-- security_control.rs:174-183 `mod offset`. -/
def offsetLevel : UInt8 := 0
/-- security_control.rs:174-183 `mod offset`. -/
def offsetKeyIdMode : UInt8 := 3

/-- security_control.rs:33-55 `TryRead for SecurityControl`. -/
def tryRead : TryRead SecurityControl := R.run do
  let bits ← R.read tryReadU8
  let securityLevel := (bits &&& maskLevel) >>> offsetLevel
  let keyIdMode := (bits &&& maskKeyIdMode) >>> offsetKeyIdMode
  let securityLevel ← R.okOr (SecurityLevel.fromBits securityLevel)
    (DecodeError.invalidSecurityLevel securityLevel).toByteErr
  let keyIdMode ← R.okOr (KeyIdMode.fromBits keyIdMode)
    (DecodeError.invalidKeyIdentifierMode keyIdMode).toByteErr
  pure { securityLevel, keyIdMode }

/-- security_control.rs:57-65 `TryWrite for SecurityControl`. -/
def tryWrite (c : SecurityControl) : TryWrite := W.run do
  let bits := (c.securityLevel.toBits <<< offsetLevel) ||| (c.keyIdMode.toBits <<< offsetKeyIdMode)
  W.write (tryWriteU8 bits)

end SecurityControl

/-- auxiliary_security_header.rs:186-191 `enum KeySource`. -/
inductive KeySource where
  | short (v : UInt32)
  | long (v : UInt64)
deriving DecidableEq, Repr

/-- auxiliary_security_header.rs:159-164 `struct KeyIdentifier`. -/
structure KeyIdentifier where
  keySource : Option KeySource
  keyIndex : UInt8
deriving DecidableEq, Repr

/-- auxiliary_security_header.rs:166-181 `TryWrite for KeyIdentifier`.  `bytes.write(offset, src)`
uses the default, i.e. native, byte order. -/
def KeyIdentifier.tryWrite (cfg : Cfg) (k : KeyIdentifier) : TryWrite := W.run do
  match k.keySource with
  | some (.short src) => W.write (tryWriteU32 cfg.native src)
  | some (.long src) => W.write (tryWriteU64 cfg.native src)
  | none => pure ()
  W.write (tryWriteU8 k.keyIndex)

/-- security/mod.rs:193-198 `enum AddressingMode`. -/
inductive AddressingMode where
  | dst | src
deriving DecidableEq, Repr

/-- security/mod.rs:203-208 `struct DeviceDescriptor`. -/
structure DeviceDescriptor where
  frameCounter : UInt32
  exempt : Bool
deriving DecidableEq, Repr

/-- security/mod.rs:211-232 trait `KeyDescriptorLookup`, `lookup_key_descriptor(&self, ..)`.
Simplification: an implementation is a pure function of its arguments (`&self`, no interior
mutability; C100, C101 and C103 are about lookups with a memory, C103 about ones that change the device table).  `κ` is the type of keys (`GenericArray<u8, N>` in the code). -/
abbrev KeyLookup (κ : Type) :=
  AddressingMode → Option KeyIdentifier → Option Address → Option (UInt64 × κ)

/-- security/mod.rs:253-269 `struct SecurityContext` (the phantom data field is dropped; the
block cipher type parameter becomes the `Aead` argument of the functions that use it). -/
structure SecCtx (κ : Type) where
  euid : UInt64
  frameCounter : UInt32
  keyProvider : KeyLookup κ

/-- security/mod.rs:278-285 `SecurityContext::new`. -/
def SecCtx.new {κ : Type} (euid : UInt64) (frameCounter : UInt32) (kp : KeyLookup κ) : SecCtx κ :=
  ⟨euid, frameCounter, kp⟩

/-- security/default.rs:22-31 `KeyDescriptorLookup for Unimplemented`. -/
def unimplementedKeyLookup {κ : Type} : KeyLookup κ := fun _ _ _ => none

/-- security/mod.rs:290-297 `SecurityContext::no_security`. -/
def SecCtx.noSecurity {κ : Type} : SecCtx κ := ⟨0, 0, unimplementedKeyLookup⟩

/-- auxiliary_security_header.rs:14-22 `struct AuxiliarySecurityHeader`. -/
structure AuxHeader where
  control : SecurityControl
  frameCounter : UInt32
  keyIdentifier : Option KeyIdentifier
deriving DecidableEq, Repr

namespace AuxHeader

/-- auxiliary_security_header.rs:26-41 `get_octet_size`. -/
def octetSize (h : AuxHeader) : Nat :=
  1 + 4 +
    match h.keyIdentifier with
    | some k => match k.keySource with
      | some (.short _) => 5
      | some (.long _) => 9
      | none => 1
    | none => 0

/-- auxiliary_security_header.rs:44-53 `AuxiliarySecurityHeader::new`. -/
def new (control : SecurityControl) (k : Option KeyIdentifier) : AuxHeader := ⟨control, 0, k⟩

/-- auxiliary_security_header.rs:59-69 `AuxiliarySecurityHeader::new_unsafe`. -/
def newUnsafe (control : SecurityControl) (k : Option KeyIdentifier) (fc : UInt32) : AuxHeader :=
  ⟨control, fc, k⟩

/-- auxiliary_security_header.rs:74-76 `get_frame_counter`. -/
def getFrameCounter (h : AuxHeader) : UInt32 := h.frameCounter

/-- auxiliary_security_header.rs:79-116 `TryRead for AuxiliarySecurityHeader`.  The frame counter
is read little-endian, the key source in native order. -/
def tryRead (cfg : Cfg) : TryRead AuxHeader := R.run do
  let control ← R.read SecurityControl.tryRead
  let frameCounter ← R.read (tryReadU32 .little)
  if control.keyIdMode ≠ .none then
    let keySource ← (match control.keyIdMode with
      | .keySource4 => do
          let v ← R.read (tryReadU32 cfg.native)
          pure (some (KeySource.short v))
      | .keySource8 => do
          let v ← R.read (tryReadU64 cfg.native)
          pure (some (KeySource.long v))
      | _ => pure none : R (Option KeySource))
    let keyIndex ← R.read tryReadU8
    pure { control, frameCounter, keyIdentifier := some { keySource, keyIndex } }
  else
    pure { control, frameCounter, keyIdentifier := none }

/-- auxiliary_security_header.rs:133-142: the key-id mode set by the writer. -/
def modeOf (k : Option KeyIdentifier) : KeyIdMode :=
  match k with
  | some k => match k.keySource with
    | some (.short _) => .keySource4
    | some (.long _) => .keySource8
    | none => .keyIndex
  | none => .none

/-- auxiliary_security_header.rs:118-154 `TryWrite<&SecurityContext> for AuxiliarySecurityHeader`.
The counter written is the context's, in native byte order. -/
def tryWrite {κ : Type} (cfg : Cfg) (h : AuxHeader) (ctx : SecCtx κ) : TryWrite := W.run do
  let control : SecurityControl := { h.control with keyIdMode := modeOf h.keyIdentifier }
  W.write control.tryWrite
  W.write (tryWriteU32 cfg.native ctx.frameCounter)
  match h.keyIdentifier with
  | some k => W.write (k.tryWrite cfg)
  | none => pure ()

end AuxHeader

end Verif
