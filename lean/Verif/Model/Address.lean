import Verif.Model.Enums

/-!
# Addresses — `/repo/src/mac/frame/header.rs:309-500`, `/repo/src/mac/frame/frame_control.rs:120-137`

`PanId(u16)`, `ShortAddress(u16)` and `ExtendedAddress(u64)` are one-field wrappers; they are
modelled by their field type.
-/

namespace Verif

/-- header.rs:323 `struct PanId(pub u16)`. -/
abbrev PanId := UInt16
/-- header.rs:363 `struct ShortAddress(pub u16)`. -/
abbrev ShortAddress := UInt16
/-- header.rs:405 `struct ExtendedAddress(pub u64)`. -/
abbrev ExtendedAddress := UInt64

/-- header.rs:327-329 `PanId::broadcast`. -/
def PanId.broadcast : PanId := 0xffff
/-- header.rs:367-372 `ShortAddress::BROADCAST`, `ShortAddress::broadcast`. -/
def ShortAddress.broadcast : ShortAddress := 0xffff
/-- header.rs:409-414 `ExtendedAddress::BROADCAST`, `ExtendedAddress::broadcast`. -/
def ExtendedAddress.broadcast : ExtendedAddress := 0xffffffffffffffff

/-- header.rs:332-338 `TryWrite for PanId` (`write_with(offset, self.0, LE)`). -/
def PanId.tryWrite (x : PanId) : TryWrite := W.run (W.write (tryWriteU16 .little x))
/-- header.rs:340-345 `TryRead for PanId`. -/
def PanId.tryRead : TryRead PanId := R.run (R.read (tryReadU16 .little))
/-- header.rs:375-381 `TryWrite for ShortAddress`. -/
def ShortAddress.tryWrite (x : ShortAddress) : TryWrite := W.run (W.write (tryWriteU16 .little x))
/-- header.rs:383-388 `TryRead for ShortAddress`. -/
def ShortAddress.tryRead : TryRead ShortAddress := R.run (R.read (tryReadU16 .little))
/-- header.rs:417-423 `TryWrite for ExtendedAddress`. -/
def ExtendedAddress.tryWrite (x : ExtendedAddress) : TryWrite :=
  W.run (W.write (tryWriteU64 .little x))
/-- header.rs:425-430 `TryRead for ExtendedAddress`. -/
def ExtendedAddress.tryRead : TryRead ExtendedAddress := R.run (R.read (tryReadU64 .little))

/-- header.rs:436-441 `enum Address`. -/
inductive Address where
  | short (pan : PanId) (addr : ShortAddress)
  | extended (pan : PanId) (addr : ExtendedAddress)
deriving DecidableEq, Repr

/-- header.rs:445-448 `enum AddressEncoding`. -/
inductive AddressEncoding where
  | normal | compressed
deriving DecidableEq, Repr

namespace Address

/-- header.rs:450-475 `TryWrite<AddressEncoding> for Address`. -/
def tryWrite (a : Address) (enc : AddressEncoding) : TryWrite := W.run <|
  match a, enc with
  | .short pan addr, .normal => do
      W.write pan.tryWrite
      W.write (ShortAddress.tryWrite addr)
  | .short _ addr, .compressed => W.write (ShortAddress.tryWrite addr)
  | .extended pan addr, .normal => do
      W.write pan.tryWrite
      W.write (ExtendedAddress.tryWrite addr)
  | .extended _ addr, .compressed => W.write (ExtendedAddress.tryWrite addr)

/-- header.rs:479-491 `Address::broadcast`. -/
def broadcast : AddressMode → Option Address
  | .none => none
  | .short => some (.short PanId.broadcast ShortAddress.broadcast)
  | .extended => some (.extended PanId.broadcast ExtendedAddress.broadcast)

/-- header.rs:494-499 `Address::pan_id`. -/
def panId : Address → PanId
  | .short pan _ => pan
  | .extended pan _ => pan

end Address

/-- frame_control.rs:120-128 `From<Option<Address>> for AddressMode`. -/
def AddressMode.ofOption : Option Address → AddressMode
  | some (.short ..) => .short
  | some (.extended ..) => .extended
  | Option.none => .none

/-- frame_control.rs:130-137 `From<Address> for AddressMode`. -/
def AddressMode.ofAddress : Address → AddressMode
  | .short .. => .short
  | .extended .. => .extended

end Verif
