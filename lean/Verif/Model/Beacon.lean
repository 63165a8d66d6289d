import Verif.Model.Address

/-!
# Beacon — `/repo/src/mac/beacon.rs:1-475`
-/

namespace Verif

/-- beacon.rs:14-21 `enum BeaconOrder`. -/
inductive BeaconOrder where
  | beaconOrder (v : UInt8)
  | onDemand
deriving DecidableEq, Repr

/-- beacon.rs:23-31 `From<u8> for BeaconOrder`. -/
def BeaconOrder.ofU8 (v : UInt8) : BeaconOrder := if v ≤ 14 then .beaconOrder v else .onDemand

/-- beacon.rs:33-41 `From<BeaconOrder> for u8`. -/
def BeaconOrder.toU8 : BeaconOrder → UInt8
  | .beaconOrder v => v
  | .onDemand => 15

/-- beacon.rs:46-53 `enum SuperframeOrder`. -/
inductive SuperframeOrder where
  | superframeOrder (v : UInt8)
  | inactive
deriving DecidableEq, Repr

/-- beacon.rs:55-63 `From<u8> for SuperframeOrder`. -/
def SuperframeOrder.ofU8 (v : UInt8) : SuperframeOrder :=
  if v ≤ 14 then .superframeOrder v else .inactive

/-- beacon.rs:65-73 `From<SuperframeOrder> for u8`. -/
def SuperframeOrder.toU8 : SuperframeOrder → UInt8
  | .superframeOrder v => v
  | .inactive => 15

/-- beacon.rs:81-96 `struct SuperframeSpecification`. -/
structure SuperframeSpec where
  beaconOrder : BeaconOrder
  superframeOrder : SuperframeOrder
  finalCapSlot : UInt8
  batteryLifeExtension : Bool
  panCoordinator : Bool
  associationPermit : Bool
deriving DecidableEq, Repr

/-- beacon.rs:98 -/
def BATTERY_LIFE_EXTENSION : UInt8 := 0b00010000
/-- beacon.rs:99 -/
def PAN_COORDINATOR : UInt8 := 0b01000000
/-- beacon.rs:100 -/
def ASSOCIATION_PERMIT : UInt8 := 0b10000000

namespace SuperframeSpec

/-- beacon.rs:102-128 `TryRead for SuperframeSpecification`. -/
def tryRead : TryRead SuperframeSpec := R.run do
  R.checkLen 0 2
  let byte ← R.read tryReadU8
  let beaconOrder := BeaconOrder.ofU8 (byte &&& 0x0f)
  let superframeOrder := SuperframeOrder.ofU8 ((byte >>> 4) &&& 0x0f)
  let byte ← R.read tryReadU8
  let finalCapSlot := byte &&& 0x0f
  let batteryLifeExtension := (byte &&& BATTERY_LIFE_EXTENSION) == BATTERY_LIFE_EXTENSION
  let panCoordinator := (byte &&& PAN_COORDINATOR) == PAN_COORDINATOR
  let associationPermit := (byte &&& ASSOCIATION_PERMIT) == ASSOCIATION_PERMIT
  pure { beaconOrder, superframeOrder, finalCapSlot, batteryLifeExtension, panCoordinator,
         associationPermit }

/-- beacon.rs:133-135: the first octet. -/
def byte0 (s : SuperframeSpec) : UInt8 :=
  (s.beaconOrder.toU8 &&& (0x0f : UInt8)) ||| (s.superframeOrder.toU8 <<< (4 : UInt8))

/-- beacon.rs:136-151: the second octet. -/
def byte1 (s : SuperframeSpec) : UInt8 :=
  let ble := if s.batteryLifeExtension then BATTERY_LIFE_EXTENSION else 0
  let pc := if s.panCoordinator then PAN_COORDINATOR else 0
  let ap := if s.associationPermit then ASSOCIATION_PERMIT else 0
  (s.finalCapSlot &&& 0x0f) ||| ble ||| pc ||| ap

/-- beacon.rs:130-154 `TryWrite for SuperframeSpecification`. -/
def tryWrite (s : SuperframeSpec) : TryWrite := W.run do
  W.write (tryWriteU8 s.byte0)
  W.write (tryWriteU8 s.byte1)

end SuperframeSpec

/-- beacon.rs:159-164 `enum Direction`. -/
inductive Direction where
  | receive | transmit
deriving DecidableEq, Repr

/-- beacon.rs:169-178 `struct GuaranteedTimeSlotDescriptor` (all fields private). -/
structure GtsDescriptor where
  shortAddress : ShortAddress
  startingSlot : UInt8
  length : UInt8
  direction : Direction
deriving DecidableEq, Repr

namespace GtsDescriptor

/-- beacon.rs:182-189 `GuaranteedTimeSlotDescriptor::new`. -/
def new : GtsDescriptor := ⟨ShortAddress.broadcast, 0, 0, .receive⟩

/-- beacon.rs:192-211 `TryRead for GuaranteedTimeSlotDescriptor`. -/
def tryRead : TryRead GtsDescriptor := R.run do
  R.checkLen 0 3
  let shortAddress ← R.read ShortAddress.tryRead
  let byte ← R.read tryReadU8
  let startingSlot := byte &&& 0x0f
  let length := byte >>> 4
  pure { shortAddress, startingSlot, length, direction := .receive }

/-- beacon.rs:213-220 `TryWrite for GuaranteedTimeSlotDescriptor`. -/
def tryWrite (d : GtsDescriptor) : TryWrite := W.run do
  W.write (ShortAddress.tryWrite d.shortAddress)
  W.write (tryWriteU8 (d.startingSlot ||| (d.length <<< 4)))

/-- beacon.rs:224-226 `set_direction`. -/
def setDirection (d : GtsDescriptor) (dir : Direction) : GtsDescriptor := { d with direction := dir }

/-- beacon.rs:228-230 `direction_transmit`. -/
def directionTransmit (d : GtsDescriptor) : Bool := d.direction == .transmit

end GtsDescriptor

/-- beacon.rs:233 -/
def COUNT_MASK : UInt8 := 0b00000111
/-- beacon.rs:234 -/
def PERMIT : UInt8 := 0b10000000

/-- beacon.rs:239-244 `struct GuaranteedTimeSlotInformation` (`permit` public, rest private). -/
structure GtsInfo where
  permit : Bool
  slotCount : Nat
  slots : Vector GtsDescriptor 7
deriving DecidableEq, Repr

/-- Indexing a 7-element array while writing: `arr[n]` panics when out of range
(beacon.rs:276, 288, 429, 434). -/
def W.index {α : Type} (arr : Vector α 7) (n : Nat) : W α :=
  match arr[n]? with
  | some a => pure a
  | none => W.panic

/-- Assignment `arr[n] = x` while reading; panics when out of range (beacon.rs:320, 397, 401). -/
def R.setIndex {α : Type} (arr : Vector α 7) (n : Nat) (x : α) : R (Vector α 7) :=
  if h : n < 7 then pure (arr.set n x h) else R.panic

/-- `&arr[..n]` as a list; panics when `n` exceeds 7 (beacon.rs:258, 378, 382). -/
def sliceTo {α : Type} (arr : Vector α 7) (n : Nat) : Out Empty (List α) :=
  if n ≤ 7 then .ok (arr.toList.take n) else .panic

namespace GtsInfo

/-- beacon.rs:248-254 `GuaranteedTimeSlotInformation::new`. -/
def new : GtsInfo := ⟨false, 0, Vector.replicate 7 GtsDescriptor.new⟩

/-- beacon.rs:257-259 `GuaranteedTimeSlotInformation::slots`. -/
def slotsSlice (g : GtsInfo) : Out Empty (List GtsDescriptor) := sliceTo g.slots g.slotCount

/-- beacon.rs:272-283: the loop computing `direction_mask` (indexing panics out of range). -/
def directionMask (g : GtsInfo) : W UInt8 := do
  let (_, mask) ← (List.range g.slotCount).foldlM (m := W) (fun (dir, mask) n => do
    let slot ← W.index g.slots n
    let mask := if slot.directionTransmit then mask ||| dir else mask
    pure (dir <<< 1, mask)) ((0x01 : UInt8), (0 : UInt8))
  pure mask

/-- beacon.rs:266-268: the count octet. -/
def headerByte (g : GtsInfo) : UInt8 :=
  let permit := if g.permit then PERMIT else 0
  ((UInt8.ofNat g.slotCount) &&& COUNT_MASK) ||| permit

/-- beacon.rs:262-293 `TryWrite for GuaranteedTimeSlotInformation`. -/
def tryWrite (g : GtsInfo) : TryWrite := W.run do
  if ¬ g.slotCount ≤ 7 then W.panic
  W.write (tryWriteU8 g.headerByte)
  if g.slotCount > 0 then
    let mask ← g.directionMask
    W.write (tryWriteU8 mask)
    (List.range g.slotCount).forM (m := W) fun n => do
      let slot ← W.index g.slots n
      W.write slot.tryWrite

/-- beacon.rs:310-321: the loop reading the slots. -/
def readSlots (count : Nat) (mask : UInt8) (slots : Vector GtsDescriptor 7) :
    R (Vector GtsDescriptor 7) := do
  let (_, slots) ← (List.range count).foldlM (m := R) (fun (mask, slots) n => do
    let slot ← R.read GtsDescriptor.tryRead
    let direction := if mask &&& 0b1 == 0b1 then Direction.transmit else Direction.receive
    let slot := slot.setDirection direction
    let slots ← R.setIndex slots n slot
    pure (mask >>> 1, slots)) (mask, slots)
  pure slots

/-- beacon.rs:295-332 `TryRead for GuaranteedTimeSlotInformation`.  Note the length check
`2 + 3 * slot_count` on line 308. -/
def tryRead : TryRead GtsInfo := R.run do
  let byte ← R.read tryReadU8
  let slotCount := (byte &&& COUNT_MASK).toNat
  let permit := (byte &&& PERMIT) == PERMIT
  let slots := Vector.replicate 7 GtsDescriptor.new
  if slotCount > 0 then
    let off ← R.offset
    R.checkLen off (2 + (3 * slotCount))
    let mask ← R.read tryReadU8
    let slots ← readSlots slotCount mask slots
    pure { permit, slotCount, slots }
  else
    pure { permit, slotCount, slots }

end GtsInfo

/-- beacon.rs:334 -/
def SHORT_MASK : UInt8 := 0b00000111
/-- beacon.rs:335 -/
def EXTENDED_MASK : UInt8 := 0b01110000

/-- beacon.rs:358-363 `struct PendingAddress` (all fields private). -/
structure PendingAddress where
  shortCount : Nat
  shorts : Vector ShortAddress 7
  extendedCount : Nat
  extendeds : Vector ExtendedAddress 7
deriving DecidableEq, Repr

namespace PendingAddress

/-- beacon.rs:367-374 `PendingAddress::new`. -/
def new : PendingAddress :=
  ⟨0, Vector.replicate 7 ShortAddress.broadcast, 0, Vector.replicate 7 ExtendedAddress.broadcast⟩

/-- beacon.rs:377-379 `PendingAddress::short_addresses`. -/
def shortAddresses (p : PendingAddress) : Out Empty (List ShortAddress) :=
  sliceTo p.shorts p.shortCount
/-- beacon.rs:381-383 `PendingAddress::extended_addresses`. -/
def extendedAddresses (p : PendingAddress) : Out Empty (List ExtendedAddress) :=
  sliceTo p.extendeds p.extendedCount

/-- beacon.rs:396-398 and 400-402: `for n in 0..count { arr[n] = bytes.read(offset)?; }` -/
def readLoop {α : Type} (tr : TryRead α) (count : Nat) (arr : Vector α 7) : R (Vector α 7) :=
  (List.range count).foldlM (m := R) (fun arr n => do
    let a ← R.read tr
    R.setIndex arr n a) arr

/-- beacon.rs:386-413 `TryRead for PendingAddress` (`mem::size_of` of the one-field wrappers
over `u16` and `u64` is 2 and 8). -/
def tryRead : TryRead PendingAddress := R.run do
  let ss := 2
  let es := 8
  let byte ← R.read tryReadU8
  let sl := (byte &&& SHORT_MASK).toNat
  let el := ((byte &&& EXTENDED_MASK) >>> 4).toNat
  let off ← R.offset
  R.checkLen off ((sl * ss) + (el * es))
  let shorts ← readLoop ShortAddress.tryRead sl (Vector.replicate 7 ShortAddress.broadcast)
  let extendeds ← readLoop ExtendedAddress.tryRead el
    (Vector.replicate 7 ExtendedAddress.broadcast)
  pure { shortCount := sl, shorts, extendedCount := el, extendeds }

/-- beacon.rs:421-425: the count octet (`it_s_magic`). -/
def headerByte (p : PendingAddress) : UInt8 :=
  ((UInt8.ofNat p.extendedCount <<< 4) &&& EXTENDED_MASK)
    ||| (UInt8.ofNat p.shortCount &&& SHORT_MASK)

/-- beacon.rs:415-439 `TryWrite for PendingAddress`. -/
def tryWrite (p : PendingAddress) : TryWrite := W.run do
  if ¬ p.shortCount ≤ 7 then W.panic
  if ¬ p.extendedCount ≤ 7 then W.panic
  W.write (tryWriteU8 p.headerByte)
  (List.range p.shortCount).forM (m := W) fun n => do
    let addr ← W.index p.shorts n
    W.write (ShortAddress.tryWrite addr)
  (List.range p.extendedCount).forM (m := W) fun n => do
    let addr ← W.index p.extendeds n
    W.write (ExtendedAddress.tryWrite addr)

end PendingAddress

/-- beacon.rs:444-451 `struct Beacon`. -/
structure Beacon where
  superframeSpec : SuperframeSpec
  gtsInfo : GtsInfo
  pendingAddress : PendingAddress
deriving DecidableEq, Repr

namespace Beacon

/-- beacon.rs:453-465 `TryRead for Beacon`. -/
def tryRead : TryRead Beacon := R.run do
  let superframeSpec ← R.read SuperframeSpec.tryRead
  let gtsInfo ← R.read GtsInfo.tryRead
  let pendingAddress ← R.read PendingAddress.tryRead
  pure { superframeSpec, gtsInfo, pendingAddress }

/-- beacon.rs:467-475 `TryWrite for Beacon`. -/
def tryWrite (b : Beacon) : TryWrite := W.run do
  W.write b.superframeSpec.tryWrite
  W.write b.gtsInfo.tryWrite
  W.write b.pendingAddress.tryWrite

end Beacon

end Verif
