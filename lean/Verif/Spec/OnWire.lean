import Verif.Spec.BeaconSpec
import Verif.Spec.HeaderSpec
import Verif.Spec.FrameSpec

/-!
# Specification: values and the octets they are read from

Relations "the octets `l` are a received `x`", with every reserved bit left free, in terms of the
layouts of `Spec.Layout` only.
-/

namespace Verif.Spec

/-- The reader succeeds exactly on the slices that start with octets related to the value
returned (`E value octets rest`), and consumes exactly those. -/
def ReadsExactly {α : Type} (r : TryRead α) (E : α → List UInt8 → List UInt8 → Prop) : Prop :=
  ∀ bytes a n, r bytes = .ok (a, n) ↔ ∃ l rest, bytes = l ++ rest ∧ E a l rest ∧ n = l.length

/-- A received superframe specification: bit 13 free. -/
def SuperframeOnWire (s : SuperframeSpec) (l : List UInt8) : Prop :=
  SuperframeInRange s ∧ ∃ b13, l = superframeOctets s b13

/-- A received GTS descriptor on its own: no direction on the wire, `Receive` by default. -/
def SlotOnWire (d : GtsDescriptor) (l : List UInt8) : Prop :=
  SlotInRange d ∧ d.direction = .receive ∧ l = slotOctets d

/-- Received GTS information: at most seven slots with fields in range, the unused entries of the
array empty, bits 3-6 of the first octet and the directions of absent slots free; something must
follow when there are slots. -/
def GtsOnWire (g : GtsInfo) (l rest : List UInt8) : Prop :=
  g.slotCount ≤ 7 ∧ (∀ d ∈ activeSlots g, SlotInRange d) ∧
  (∀ d ∈ g.slots.toList.drop g.slotCount, d = ⟨0xffff, 0, 0, .receive⟩) ∧
  (g.slotCount > 0 → rest ≠ []) ∧
  ∃ r < 16, ∃ q < 2 ^ (8 - g.slotCount), l = gtsOctets g r q

/-- Received pending addresses: at most seven of each kind, the unused entries of the arrays
broadcast addresses, bits 3 and 7 free. -/
def PendingOnWire (p : PendingAddress) (l : List UInt8) : Prop :=
  p.shortCount ≤ 7 ∧ p.extendedCount ≤ 7 ∧
  (∀ a ∈ p.shorts.toList.drop p.shortCount, a = 0xffff) ∧
  (∀ a ∈ p.extendeds.toList.drop p.extendedCount, a = 0xffffffffffffffff) ∧
  ∃ r3 r7, l = pendingOctets p r3 r7

/-- A received beacon: the three fields one after the other. -/
def BeaconOnWire (b : Beacon) (l : List UInt8) : Prop :=
  ∃ l₁ l₂ l₃, l = l₁ ++ l₂ ++ l₃ ∧ SuperframeOnWire b.superframeSpec l₁ ∧
    GtsOnWire b.gtsInfo l₂ l₃ ∧ PendingOnWire b.pendingAddress l₃

/-- A received command, with `rest` behind it: capability bits 0, 4, 5 and bits 6, 7 of the GTS
characteristics free, the GTS length at most 15; a realignment command without channel page ends
the slice; every other octet as laid out. -/
def CommandOnWire (c : Command) (l rest : List UInt8) : Prop :=
  match c with
  | .associationRequest a => ∃ b0 b4 b5,
      l = [1, UInt8.ofNat (capabilityValue a + bit b0 + 16 * bit b4 + 32 * bit b5)]
  | .guaranteedTimeSlotRequest g => g.count.toNat ≤ 15 ∧ ∃ r < 4,
      l = [9, UInt8.ofNat (characteristicsValue g + 64 * r)]
  | .coordinatorRealignment d => l = commandOctets c ∧ (d.channelPage = none → rest = [])
  | _ => l = commandOctets c

/-- Received content in a frame of type `t`. -/
def ContentOnWire (t : FrameType) (c : FrameContent) (l rest : List UInt8) : Prop :=
  match t with
  | .beacon => ∃ b, c = .beacon b ∧ BeaconOnWire b l
  | .macCommand => ∃ m, c = .command m ∧ CommandOnWire m l rest
  | .data => c = .data ∧ l = []
  | .acknowledgement => c = .acknowledgement ∧ l = []
  | .multipurpose => c = .multipurpose ∧ l = []
  | .fragOrFragAck => c = .fragOrFragAck ∧ l = []
  | .extended => c = .extended ∧ l = []

/-- A received unsecured frame: header, content, payload and footer one after the other, and
nothing else; without footer the footer is reported as zero. -/
def FrameOnWire (cfg : Cfg) (mode : FooterMode) (f : Frame) (bytes : List UInt8) : Prop :=
  f.header.auxSec = none ∧ (mode = .none → f.footer = (0, 0)) ∧
  ∃ hd ct, bytes = hd ++ ct ++ f.payload ++ footerOctets mode f.footer ∧
    HeaderOnWire cfg f.header hd ∧
    ContentOnWire f.header.frameType f.content ct (f.payload ++ footerOctets mode f.footer)

/-! ## Streams -/

/-- `bytes.read(&mut offset)` `k` times in turn. -/
def readInTurn {α : Type} (r : TryRead α) : Nat → List UInt8 → Out ByteErr (List α × Nat)
  | 0, _ => .ok ([], 0)
  | k + 1, bytes =>
    match r bytes with
    | .ok (a, n) =>
      match readInTurn r k (bytes.drop n) with
      | .ok (as, m) => .ok (a :: as, n + m)
      | .err e => .err e
      | .panic => .panic
    | .err e => .err e
    | .panic => .panic

/-- `bytes.write(&mut offset, x)` for several writers in turn: result and buffer. -/
def writeInTurn : List TryWrite → List UInt8 → Out ByteErr Nat × List UInt8
  | [], buf => (.ok 0, buf)
  | w :: ws, buf =>
    match w buf with
    | (.ok n, buf') =>
      match writeInTurn ws (buf'.drop n) with
      | (.ok m, rest) => (.ok (n + m), buf'.take n ++ rest)
      | (.err e, rest) => (.err e, buf'.take n ++ rest)
      | (.panic, rest) => (.panic, buf'.take n ++ rest)
    | r => r

end Verif.Spec
