import Verif.Model.Frame

/-!
# The writers again, one store into the buffer at a time

All `TryWrite` implementations once more, as lists of stores into the slice they are given — a store is one
`copy_from_slice` of an integer's octets, of the payload, the footer or the tag — and `Frame::try_write` as a program
whose steps are these stores, the store to the context's counter, the call of the key lookup and the call of the
cipher.  What is stored and whether it is depends on the room in the buffer, never on what the buffer holds; so these
functions take the length of the slice only.  `Props/Stores.lean` proves that carried out to the end they are the
functions of the rest of the model.  What the stores do to the buffer, also when they are cut short, is said in
`Spec/StoreSpec.lean`.
-/

namespace Verif

/-- One `copy_from_slice` (byte 0.2.7, `TryWrite` of integers and `&[u8]`): where, and which octets. -/
structure Store where
  pos : Nat
  octets : List UInt8
deriving DecidableEq, Repr

/-- The same store seen from a slice that begins `n` octets earlier. -/
def Store.shift (n : Nat) (s : Store) : Store := ⟨n + s.pos, s.octets⟩

/-- `TryWrite::try_write` on a slice of a given length: the stores, and the result. -/
abbrev TryWriteS := Nat → List Store × Out ByteErr Nat

/-- A block of code writing into a slice of given length with a mutable `offset`. -/
@[reducible] def SW (α : Type) := Nat → Nat → List Store × Out ByteErr α × Nat

namespace SW

@[inline] protected def pure {α : Type} (a : α) : SW α := fun _ off => ([], .ok a, off)

@[inline] protected def bind {α β : Type} (x : SW α) (f : α → SW β) : SW β := fun len off =>
  match x len off with
  | (st, .ok a, off') => let (st', r, off'') := f a len off'; (st ++ st', r, off'')
  | (st, .err e, off') => (st, .err e, off')
  | (st, .panic, off') => (st, .panic, off')

instance : Monad SW where
  pure := SW.pure
  bind := SW.bind

/-- `return Err(e)?` -/
def fail {α : Type} (e : ByteErr) : SW α := fun _ off => ([], .err e, off)

/-- a panic -/
def panic {α : Type} : SW α := fun _ off => ([], .panic, off)

/-- `bytes.write_with(offset, value, ctx)?` (byte 0.2.7, `BytesExt::write_with`). -/
def write (tw : TryWriteS) : SW Unit := fun len off =>
  if len < off then ([], .err (.badOffset off), off)
  else match tw (len - off) with
    | (st, .ok n) => (st.map (Store.shift off), .ok (), off + n)
    | (st, .err e) => (st.map (Store.shift off), .err e, off)
    | (st, .panic) => (st.map (Store.shift off), .panic, off)

/-- `let offset = &mut 0; ...; Ok(*offset)` -/
def run (p : SW Unit) : TryWriteS := fun len =>
  match p len 0 with
  | (st, .ok (), off) => (st, .ok off)
  | (st, .err e, _) => (st, .err e)
  | (st, .panic, _) => (st, .panic)

/-- Indexing a 7-element array (as `W.index`; beacon.rs:276, 288, 429, 434). -/
def index {α : Type} (arr : Vector α 7) (n : Nat) : SW α :=
  match arr[n]? with
  | some a => pure a
  | none => panic

end SW

/-- `TryWrite for &[u8]`: `check_len(bytes, self.len())?`, copy, `Ok(self.len())`. -/
def storeBytes (src : List UInt8) : TryWriteS := fun len =>
  if len < src.length then ([], .err .incomplete) else ([⟨0, src⟩], .ok src.length)

/-- `TryWrite<Endian> for u8`. -/
def storeU8 (x : UInt8) : TryWriteS := storeBytes [x]
/-- `TryWrite<Endian> for u16`. -/
def storeU16 (e : Endian) (x : UInt16) : TryWriteS := storeBytes (natToBytes e 2 x.toNat)
/-- `TryWrite<Endian> for u32`. -/
def storeU32 (e : Endian) (x : UInt32) : TryWriteS := storeBytes (natToBytes e 4 x.toNat)
/-- `TryWrite<Endian> for u64`. -/
def storeU64 (e : Endian) (x : UInt64) : TryWriteS := storeBytes (natToBytes e 8 x.toNat)

/-- header.rs:332-338 `TryWrite for PanId`. -/
def PanId.stores (x : PanId) : TryWriteS := SW.run (SW.write (storeU16 .little x))
/-- header.rs:375-381 `TryWrite for ShortAddress`. -/
def ShortAddress.stores (x : ShortAddress) : TryWriteS := SW.run (SW.write (storeU16 .little x))
/-- header.rs:417-423 `TryWrite for ExtendedAddress`. -/
def ExtendedAddress.stores (x : ExtendedAddress) : TryWriteS := SW.run (SW.write (storeU64 .little x))

/-- header.rs:450-475 `TryWrite<AddressEncoding> for Address`. -/
def Address.stores (a : Address) (enc : AddressEncoding) : TryWriteS := SW.run <|
  match a, enc with
  | .short pan addr, .normal => do
      SW.write (PanId.stores pan)
      SW.write (ShortAddress.stores addr)
  | .short _ addr, .compressed => SW.write (ShortAddress.stores addr)
  | .extended pan addr, .normal => do
      SW.write (PanId.stores pan)
      SW.write (ExtendedAddress.stores addr)
  | .extended _ addr, .compressed => SW.write (ExtendedAddress.stores addr)

/-- security_control.rs:57-65 `TryWrite for SecurityControl`. -/
def SecurityControl.stores (c : SecurityControl) : TryWriteS := SW.run do
  let bits := (c.securityLevel.toBits <<< offsetLevel) ||| (c.keyIdMode.toBits <<< offsetKeyIdMode)
  SW.write (storeU8 bits)

/-- auxiliary_security_header.rs:166-181 `TryWrite for KeyIdentifier`. -/
def KeyIdentifier.stores (cfg : Cfg) (k : KeyIdentifier) : TryWriteS := SW.run do
  match k.keySource with
  | some (.short src) => SW.write (storeU32 cfg.native src)
  | some (.long src) => SW.write (storeU64 cfg.native src)
  | none => pure ()
  SW.write (storeU8 k.keyIndex)

/-- auxiliary_security_header.rs:118-154 `TryWrite<&SecurityContext> for AuxiliarySecurityHeader`; of the context the
counter only. -/
def AuxHeader.stores (cfg : Cfg) (h : AuxHeader) (counter : UInt32) : TryWriteS := SW.run do
  let control : SecurityControl := { h.control with keyIdMode := modeOf h.keyIdentifier }
  SW.write control.stores
  SW.write (storeU32 cfg.native counter)
  match h.keyIdentifier with
  | some k => SW.write (k.stores cfg)
  | none => pure ()

/-- header.rs:233-307 `TryWrite<&Option<&mut SecurityContext>> for Header`; of the context its counter. -/
def Header.stores (cfg : Cfg) (h : Header) (counter : Option UInt32) : TryWriteS := SW.run do
  let security := h.auxSec.isSome
  SW.write (storeU16 .little h.frameControlRaw)
  SW.write (storeU8 h.seq)
  if (h.destination.isNone || h.source.isNone) && h.panIdCompress then
    SW.fail EncodeError.disallowedPanIdCompress.toByteErr
  match h.destination with
  | some d => SW.write (d.stores .normal)
  | none => pure ()
  match h.source, h.panIdCompress with
  | some s, true => SW.write (s.stores .compressed)
  | some s, false => SW.write (s.stores .normal)
  | none, true => SW.panic
  | none, false => pure ()
  if security && counter.isNone then
    SW.fail EncodeError.missingSecurityCtx.toByteErr
  else if security then
    match h.auxSec with
    | some aux => match counter with
      | some c => SW.write (aux.stores cfg c)
      | none => SW.fail EncodeError.unknownError.toByteErr
    | none => SW.fail EncodeError.unknownError.toByteErr

/-- beacon.rs:130-154 `TryWrite for SuperframeSpecification`. -/
def SuperframeSpec.stores (s : SuperframeSpec) : TryWriteS := SW.run do
  SW.write (storeU8 s.byte0)
  SW.write (storeU8 s.byte1)

/-- beacon.rs:213-220 `TryWrite for GuaranteedTimeSlotDescriptor`. -/
def GtsDescriptor.stores (d : GtsDescriptor) : TryWriteS := SW.run do
  SW.write (ShortAddress.stores d.shortAddress)
  SW.write (storeU8 (d.startingSlot ||| (d.length <<< 4)))

/-- beacon.rs:272-283: the loop computing `direction_mask`; it stores nothing. -/
def GtsInfo.directionMaskS (g : GtsInfo) : SW UInt8 := do
  let (_, mask) ← (List.range g.slotCount).foldlM (m := SW) (fun (dir, mask) n => do
    let slot ← SW.index g.slots n
    let mask := if slot.directionTransmit then mask ||| dir else mask
    pure (dir <<< 1, mask)) ((0x01 : UInt8), (0 : UInt8))
  pure mask

/-- beacon.rs:262-293 `TryWrite for GuaranteedTimeSlotInformation`. -/
def GtsInfo.stores (g : GtsInfo) : TryWriteS := SW.run do
  if ¬ g.slotCount ≤ 7 then SW.panic
  SW.write (storeU8 g.headerByte)
  if g.slotCount > 0 then
    let mask ← g.directionMaskS
    SW.write (storeU8 mask)
    (List.range g.slotCount).forM (m := SW) fun n => do
      let slot ← SW.index g.slots n
      SW.write slot.stores

/-- beacon.rs:415-439 `TryWrite for PendingAddress`. -/
def PendingAddress.stores (p : PendingAddress) : TryWriteS := SW.run do
  if ¬ p.shortCount ≤ 7 then SW.panic
  if ¬ p.extendedCount ≤ 7 then SW.panic
  SW.write (storeU8 p.headerByte)
  (List.range p.shortCount).forM (m := SW) fun n => do
    let addr ← SW.index p.shorts n
    SW.write (ShortAddress.stores addr)
  (List.range p.extendedCount).forM (m := SW) fun n => do
    let addr ← SW.index p.extendeds n
    SW.write (ExtendedAddress.stores addr)

/-- beacon.rs:467-475 `TryWrite for Beacon`. -/
def Beacon.stores (b : Beacon) : TryWriteS := SW.run do
  SW.write b.superframeSpec.stores
  SW.write b.gtsInfo.stores
  SW.write b.pendingAddress.stores

/-- command.rs:143-155 `TryWrite for CoordinatorRealignmentData`. -/
def CoordinatorRealignmentData.stores (d : CoordinatorRealignmentData) : TryWriteS := SW.run do
  SW.write (PanId.stores d.panId)
  SW.write (ShortAddress.stores d.coordinatorAddress)
  SW.write (storeU8 d.channel)
  SW.write (ShortAddress.stores d.deviceAddress)
  match d.channelPage with
  | some p => SW.write (storeU8 p)
  | none => pure ()

/-- command.rs:249-302 `TryWrite for Command`. -/
def Command.stores (c : Command) : TryWriteS := SW.run <|
  match c with
  | .associationRequest capability => do
      SW.write (storeU8 CommandId.associationRequest.toU8)
      SW.write (storeU8 capability.toU8)
  | .associationResponse address status => do
      SW.write (storeU8 CommandId.associationResponse.toU8)
      SW.write (ShortAddress.stores address)
      SW.write (storeU8 status.toU8)
  | .disassociationNotification reason => do
      SW.write (storeU8 CommandId.disassociationNotification.toU8)
      SW.write (storeU8 reason.toU8)
  | .dataRequest => SW.write (storeU8 CommandId.dataRequest.toU8)
  | .panIdConflictNotification => SW.write (storeU8 CommandId.panIdConflictNotification.toU8)
  | .orphanNotification => SW.write (storeU8 CommandId.orphanNotification.toU8)
  | .beaconRequest => SW.write (storeU8 CommandId.beaconRequest.toU8)
  | .coordinatorRealignment data => do
      SW.write (storeU8 CommandId.coordinatorRealignment.toU8)
      SW.write data.stores
  | .guaranteedTimeSlotRequest characteristics => do
      SW.write (storeU8 CommandId.guaranteedTimeSlotRequest.toU8)
      SW.write (storeU8 characteristics.toU8)

/-- frame/mod.rs:418-428 `TryWrite for FrameContent`. -/
def FrameContent.stores (c : FrameContent) : TryWriteS := SW.run <|
  match c with
  | .beacon b => SW.write b.stores
  | .command c => SW.write c.stores
  | _ => pure ()

/-- frame/mod.rs:233-234: header and content. -/
def Frame.headStores (cfg : Cfg) (f : Frame) (counter : Option UInt32) : SW Unit := do
  SW.write (f.header.stores cfg counter)
  SW.write f.content.stores

/-- frame/mod.rs:257-267: payload (unless security wrote it) and footer. -/
def Frame.tailStores (f : Frame) (mode : FooterMode) (securityEnabled : Bool) : SW Unit := do
  if ¬ securityEnabled then
    SW.write (storeBytes f.payload)
  match mode with
  | .none => pure ()
  | .explicit => SW.write (storeBytes [f.footer.1, f.footer.2])

/-- A write that still has steps to do.  Places in the buffer are counted from the buffer's beginning. -/
inductive Writing (κ : Type) where
  /-- the call returns or panics -/
  | done (r : Out ByteErr Nat)
  /-- octets are copied into the buffer -/
  | store (s : Store) (next : Writing κ)
  /-- security/mod.rs:402 `*frame_counter += 1` with the value stored -/
  | setCounter (c : UInt32) (next : Writing κ)
  /-- security/mod.rs:405 `lookup_key_descriptor` -/
  | askKey (mode : AddressingMode) (kid : Option KeyIdentifier) (addr : Option Address)
      (next : Option (UInt64 × κ) → Writing κ)
  /-- security/mod.rs:428 `encrypt_in_place_detached` with the written part as associated data: the cipher is shown `len`
  octets of the buffer from `pos` on -/
  | authenticate (tagLen : Nat) (key : κ) (nonce : List UInt8) (pos len : Nat)
      (next : Option (List UInt8) → Writing κ)
  /-- security/mod.rs:433 `encrypt_in_place_detached` with the written part as text: the cipher works on `len`
  octets of the buffer from `pos` on -/
  | encrypt (tagLen : Nat) (key : κ) (nonce : List UInt8) (pos len : Nat)
      (next : Option (List UInt8) → Writing κ)

/-- Some stores, and then the rest. -/
def Writing.stores {κ : Type} (st : List Store) (next : Writing κ) : Writing κ := st.foldr .store next

/-- security/mod.rs:415-453, macro `do_secure!`, on the slice of length `room` that begins at `base`; `offset` octets
of it are written.  Simplification: as in `doSecure`, the `Explicit` arm on line 422 is unreachable and omitted. -/
def doSecureS {κ : Type} (key : κ) (nonce : List UInt8) (secL : SecurityLevel) (tagSize : Nat)
    (mic encmic : SecurityLevel) (base room offset : Nat) (finish : Out SecErr Nat → Writing κ) : Writing κ :=
  let rest (tag : Option (List UInt8)) : Writing κ :=
    match tag with
    | some tag =>
      match SW.write (storeBytes tag) room offset with
      | (st, .ok (), offset) => .stores (st.map (Store.shift base)) (finish (.ok offset))
      | (st, .err e, _) => .stores (st.map (Store.shift base)) (finish (.err (.writeError e)))
      | (st, .panic, _) => .stores (st.map (Store.shift base)) (finish .panic)
    | none => finish (.err .transformationError)
  if secL = mic then .authenticate tagSize key nonce base offset rest
  else if secL = encmic then .encrypt tagSize key nonce base offset rest
  else finish .panic

/-- security/mod.rs:329-495 `secure_frame`, on the slice of length `room` that begins at `base`; of the context its
`euid` and its counter at the start.  `finish` is what the caller does with the result. -/
def secureFrameS {κ : Type} (frame : Frame) (euid : UInt64) (counter : UInt32) (footerMode : FooterMode)
    (base room : Nat) (finish : Out SecErr Nat → Writing κ) : Writing κ :=
  match footerMode with
  | .explicit => finish .panic
  | .none =>
    let header := frame.header
    if header.hasSecurity then
      if header.frameType ≠ .data then finish (.err .notImplemented)
      else match header.auxSec with
        | none => finish (.err .auxSecHeaderAbsent)
        | some aux =>
          let authLen := aux.control.securityLevel.micOctetSize
          let auxLen := aux.octetSize
          if ¬ (frame.payload.length + frame.header.octetSize + auxLen + authLen + 2 ≤ 127) then
            finish (.err .frameTooLong)
          else match SW.write (storeBytes frame.payload) room 0 with
            | (st, .err e, _) => .stores (st.map (Store.shift base)) (finish (.err (.writeError e)))
            | (st, .panic, _) => .stores (st.map (Store.shift base)) (finish .panic)
            | (st, .ok (), offset) => .stores (st.map (Store.shift base)) <|
              if aux.control.securityLevel = .none then finish (.ok offset)
              else if counter = 0xFFFFFFFF then finish (.err .counterError)
              else
                let nonce := calculateNonce euid counter aux.control.securityLevel
                .setCounter (counter + 1) <|
                .askKey .dst aux.keyIdentifier header.destination fun found =>
                  match found with
                  | none => finish (.err .unavailableKey)
                  | some (_, key) =>
                    let secL := aux.control.securityLevel
                    match secL with
                    | .none => finish (.ok offset)
                    | .enc => finish (.err .notImplemented)
                    | .mic32 | .encmic32 => doSecureS key nonce secL 4 .mic32 .encmic32 base room offset finish
                    | .mic64 | .encmic64 => doSecureS key nonce secL 8 .mic64 .encmic64 base room offset finish
                    | .mic128 | .encmic128 => doSecureS key nonce secL 16 .mic128 .encmic128 base room offset finish
    else finish (.err .securityNotEnabled)

/-- frame/mod.rs:219-269 `Frame::try_write` into a buffer of length `len`; of the security context, if there is one, its
`euid` and its counter. -/
def Frame.writing {κ : Type} (cfg : Cfg) (f : Frame) (mode : FooterMode) (ctx : Option (UInt64 × UInt32)) (len : Nat) :
    Writing κ :=
  let finish (securityEnabled : Bool) (offset : Nat) : Writing κ :=
    match f.tailStores mode securityEnabled len offset with
    | (st, .ok (), offset) => .stores st (.done (.ok offset))
    | (st, .err e, _) => .stores st (.done (.err e))
    | (st, .panic, _) => .stores st (.done .panic)
  match f.headStores cfg (ctx.map (·.2)) len 0 with
  | (st, .err e, _) => .stores st (.done (.err e))
  | (st, .panic, _) => .stores st (.done .panic)
  | (st, .ok (), offset) => .stores st <|
    match ctx with
    | none => finish false offset
    | some (euid, counter) =>
      secureFrameS f euid counter mode offset (len - offset) fun r =>
        match r with
        | .ok n => finish true (offset + n)
        | .err .securityNotEnabled => finish false offset
        | .err e => .done (.err e.toByteErr)
        | .panic => .done .panic

end Verif
