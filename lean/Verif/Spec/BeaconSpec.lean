import Verif.Spec.Layout

/-! # Specification: beacon values -/

namespace Verif.Spec

/-- Starting slot and length fit their four bits. -/
def SlotInRange (d : GtsDescriptor) : Prop := d.startingSlot.toNat < 16 ∧ d.length.toNat < 16

/-- Values of GTS information that can be obtained through the public API: the empty one, those
read from octets, and changes of the public `permit` field. -/
inductive GtsFromApi : GtsInfo → Prop
  | new : GtsFromApi GtsInfo.new
  | read (bytes : List UInt8) (g : GtsInfo) (n : Nat) :
      GtsInfo.tryRead bytes = .ok (g, n) → GtsFromApi g
  | setPermit (g : GtsInfo) (b : Bool) : GtsFromApi g → GtsFromApi { g with permit := b }

/-- Values of pending-address lists that can be obtained through the public API (all fields are
private). -/
inductive PendingFromApi : PendingAddress → Prop
  | new : PendingFromApi PendingAddress.new
  | read (bytes : List UInt8) (p : PendingAddress) (n : Nat) :
      PendingAddress.tryRead bytes = .ok (p, n) → PendingFromApi p

/-- Beacons that can be obtained through the public API: any superframe specification (public
fields) with such GTS information and pending addresses, or read from octets. -/
inductive BeaconFromApi : Beacon → Prop
  | mk (s : SuperframeSpec) (g : GtsInfo) (p : PendingAddress) :
      GtsFromApi g → PendingFromApi p → BeaconFromApi ⟨s, g, p⟩
  | read (bytes : List UInt8) (b : Beacon) (n : Nat) :
      Beacon.tryRead bytes = .ok (b, n) → BeaconFromApi b

/-- Octets occupied by GTS information, announced by its first octet. -/
def gtsLength : List UInt8 → Nat
  | [] => 1
  | b :: _ => if b.toNat % 8 = 0 then 1 else 2 + 3 * (b.toNat % 8)

/-- Octets that must be present for GTS information to be read: one more than it occupies when
there are slots. -/
def gtsRequired : List UInt8 → Nat
  | [] => 1
  | b :: _ => if b.toNat % 8 = 0 then 1 else 3 + 3 * (b.toNat % 8)

/-- Octets occupied by a pending-address list, announced by its first octet. -/
def pendingLength : List UInt8 → Nat
  | [] => 1
  | b :: _ => 1 + 2 * (b.toNat % 8) + 8 * (b.toNat / 16 % 8)

/-- Octets occupied by a beacon. -/
def beaconLength (l : List UInt8) : Nat :=
  2 + gtsLength (l.drop 2) + pendingLength (l.drop (2 + gtsLength (l.drop 2)))

end Verif.Spec

namespace Verif.Spec

/-- A beacon order reduced to its four bits. -/
def beaconOrderTruncated (b : BeaconOrder) : BeaconOrder :=
  if beaconOrderCode b % 16 = 15 then .onDemand
  else .beaconOrder (UInt8.ofNat (beaconOrderCode b % 16))

/-- A superframe order reduced to its four bits. -/
def superframeOrderTruncated (b : SuperframeOrder) : SuperframeOrder :=
  if superframeOrderCode b % 16 = 15 then .inactive
  else .superframeOrder (UInt8.ofNat (superframeOrderCode b % 16))

/-- A superframe specification reduced to what fits on the air. -/
def superframeTruncated (s : SuperframeSpec) : SuperframeSpec :=
  { s with
    beaconOrder := beaconOrderTruncated s.beaconOrder
    superframeOrder := superframeOrderTruncated s.superframeOrder
    finalCapSlot := UInt8.ofNat (s.finalCapSlot.toNat % 16) }

end Verif.Spec
