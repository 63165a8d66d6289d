import Verif.Lemmas.Command
import Verif.Lemmas.Superframe
import Verif.Lemmas.Beacon
import Verif.Model.Header

/-!
# C80: the public field conversions, the realignment codec, the empty lists

The conversions between an octet and a field value are public `From` implementations which an
application can call itself.  Here is what each does for every octet and every value.
-/

namespace Verif
open Spec

/-- **C80** `BeaconOrder::from(u8)` and `u8::from(BeaconOrder)`: octets up to 14 are themselves,
all others mean "on demand"; back and forth gives the octet, but never more than 15; and a value
survives exactly when it is not an order beyond 14. -/
theorem C80_beacon_order :
    (∀ b : UInt8, b.toNat ≤ 14 → BeaconOrder.ofU8 b = .beaconOrder b) ∧
    (∀ b : UInt8, 14 < b.toNat → BeaconOrder.ofU8 b = .onDemand) ∧
    (∀ v : UInt8, (BeaconOrder.beaconOrder v).toU8 = v) ∧ BeaconOrder.onDemand.toU8.toNat = 15 ∧
    (∀ b : UInt8, (BeaconOrder.ofU8 b).toU8.toNat = min b.toNat 15) ∧
    (∀ o : BeaconOrder, BeaconOrder.ofU8 o.toU8 = o ↔ ∀ v, o = .beaconOrder v → v.toNat ≤ 14) := by
  have le : ∀ b : UInt8, b ≤ 14 ↔ b.toNat ≤ 14 := fun b => UInt8.le_iff_toNat_le
  have h1 : ∀ b : UInt8, b.toNat ≤ 14 → BeaconOrder.ofU8 b = .beaconOrder b := fun b h => by
    unfold BeaconOrder.ofU8; rw [if_pos ((le b).mpr h)]
  have h2 : ∀ b : UInt8, 14 < b.toNat → BeaconOrder.ofU8 b = .onDemand := fun b h => by
    unfold BeaconOrder.ofU8; rw [if_neg (fun h' => by have := (le b).mp h'; omega)]
  refine ⟨h1, h2, fun _ => rfl, rfl, fun b => ?_, fun o => ?_⟩
  · rcases Nat.lt_or_ge 14 b.toNat with h | h
    · rw [h2 b h]; show 15 = _; omega
    · rw [h1 b h]; show b.toNat = _; omega
  · cases o with
    | onDemand => exact ⟨fun _ v h => (by cases h), fun _ => rfl⟩
    | beaconOrder v =>
      constructor
      · intro h w hw
        cases hw
        refine Nat.le_of_not_lt fun hlt => ?_
        rw [show (BeaconOrder.beaconOrder v).toU8 = v from rfl, h2 v hlt] at h
        cases h
      · exact fun h => h1 v (h v rfl)

/-- **C80** The same for the superframe order, where the octets beyond 14 mean "inactive". -/
theorem C80_superframe_order :
    (∀ b : UInt8, b.toNat ≤ 14 → SuperframeOrder.ofU8 b = .superframeOrder b) ∧
    (∀ b : UInt8, 14 < b.toNat → SuperframeOrder.ofU8 b = .inactive) ∧
    (∀ v : UInt8, (SuperframeOrder.superframeOrder v).toU8 = v) ∧ SuperframeOrder.inactive.toU8.toNat = 15 ∧
    (∀ b : UInt8, (SuperframeOrder.ofU8 b).toU8.toNat = min b.toNat 15) ∧
    (∀ o : SuperframeOrder,
      SuperframeOrder.ofU8 o.toU8 = o ↔ ∀ v, o = .superframeOrder v → v.toNat ≤ 14) := by
  have le : ∀ b : UInt8, b ≤ 14 ↔ b.toNat ≤ 14 := fun b => UInt8.le_iff_toNat_le
  have h1 : ∀ b : UInt8, b.toNat ≤ 14 → SuperframeOrder.ofU8 b = .superframeOrder b := fun b h => by
    unfold SuperframeOrder.ofU8; rw [if_pos ((le b).mpr h)]
  have h2 : ∀ b : UInt8, 14 < b.toNat → SuperframeOrder.ofU8 b = .inactive := fun b h => by
    unfold SuperframeOrder.ofU8; rw [if_neg (fun h' => by have := (le b).mp h'; omega)]
  refine ⟨h1, h2, fun _ => rfl, rfl, fun b => ?_, fun o => ?_⟩
  · rcases Nat.lt_or_ge 14 b.toNat with h | h
    · rw [h2 b h]; show 15 = _; omega
    · rw [h1 b h]; show b.toNat = _; omega
  · cases o with
    | inactive => exact ⟨fun _ v h => (by cases h), fun _ => rfl⟩
    | superframeOrder v =>
      constructor
      · intro h w hw
        cases hw
        refine Nat.le_of_not_lt fun hlt => ?_
        rw [show (SuperframeOrder.superframeOrder v).toU8 = v from rfl, h2 v hlt] at h
        cases h
      · exact fun h => h1 v (h v rfl)

/-- **C80** `CapabilityInformation`: each flag is one bit of the octet (1, 2, 3, 6, 7); every value
survives the way to an octet and back; and an octet loses exactly bits 0, 4 and 5. -/
theorem C80_capability :
    (∀ b : UInt8, CapabilityInformation.ofU8 b = capabilityOf b) ∧
    (∀ c : CapabilityInformation, CapabilityInformation.ofU8 c.toU8 = c) ∧
    (∀ (b : UInt8) (i : Nat), (CapabilityInformation.ofU8 b).toU8.toNat.testBit i
      = (b.toNat.testBit i && decide (i ∈ [1, 2, 3, 6, 7]))) := by
  refine ⟨CapabilityInformation.ofU8_eq, fun c => ?_, fun b i => ?_⟩
  · rw [CapabilityInformation.ofU8_eq, CapabilityInformation.toU8_eq, capabilityOf_value]
  · rcases Nat.lt_or_ge i 8 with hi | hi
    · have : ∀ b : UInt8, ∀ i : Fin 8, (CapabilityInformation.ofU8 b).toU8.toNat.testBit i.val
          = (b.toNat.testBit i.val && decide (i.val ∈ [1, 2, 3, 6, 7])) := by
        apply forall_u8; decide +kernel
      exact this b ⟨i, hi⟩
    · have hb : ∀ x : UInt8, x.toNat.testBit i = false := fun x =>
        Nat.testBit_lt_two_pow (Nat.lt_of_lt_of_le x.toNat_lt (Nat.pow_le_pow_right (by decide) hi))
      rw [hb, hb, Bool.false_and]

/-- **C80** `GuaranteedTimeSlotCharacteristics`: the count is the low four bits, the flags are bits
4 and 5; a value comes back with its count modulo 16 — the same value exactly when the count is at
most 15 —; and an octet loses exactly its two highest bits. -/
theorem C80_characteristics :
    (∀ b : UInt8, GtsCharacteristics.ofU8 b = characteristicsOf b) ∧
    (∀ g : GtsCharacteristics,
      GtsCharacteristics.ofU8 g.toU8 = ⟨UInt8.ofNat (g.count.toNat % 16), g.receiveOnly, g.allocation⟩) ∧
    (∀ g : GtsCharacteristics, GtsCharacteristics.ofU8 g.toU8 = g ↔ g.count.toNat ≤ 15) ∧
    (∀ b : UInt8, (GtsCharacteristics.ofU8 b).toU8.toNat = b.toNat % 64) := by
  have h1 : ∀ g : GtsCharacteristics,
      GtsCharacteristics.ofU8 g.toU8 = ⟨UInt8.ofNat (g.count.toNat % 16), g.receiveOnly, g.allocation⟩ :=
    fun g => by rw [GtsCharacteristics.ofU8_eq, GtsCharacteristics.toU8_eq, characteristicsOf_value]
  refine ⟨GtsCharacteristics.ofU8_eq, h1, fun g => ?_, ?_⟩
  · rw [h1]
    obtain ⟨c, r, a⟩ := g
    have hc := c.toNat_lt
    simp only [GtsCharacteristics.mk.injEq, and_true]
    rw [← UInt8.toNat_inj, UInt8.toNat_ofNat_of_lt' (by simp [UInt8.size]; omega)]
    omega
  · apply forall_u8; decide +kernel

/-- **C80** Reading `CoordinatorRealignmentData` on its own: refused, as incomplete, exactly when
fewer than seven octets are there. -/
theorem C80_realignment_read (bytes : List UInt8) :
    CoordinatorRealignmentData.tryRead bytes =
      match realignmentRead bytes with
      | some r => .ok r
      | none => .err .incomplete := by
  match bytes with
  | [] | [_] | [_, _] | [_, _, _] | [_, _, _, _] | [_, _, _, _, _] | [_, _, _, _, _, _] =>
    exact CoordinatorRealignmentData.tryRead_short _ (by simp)
  | [p0, p1, c0, c1, ch, d0, d1] => exact CoordinatorRealignmentData.tryRead_none ..
  | p0 :: p1 :: c0 :: c1 :: ch :: d0 :: d1 :: page :: rest =>
    exact CoordinatorRealignmentData.tryRead_some ..

/-- **C80** `CoordinatorRealignmentData` written on its own is read back, whatever follows (without
channel page: when nothing follows). -/
theorem C80_realignment_round_trip (d : CoordinatorRealignmentData) (buf buf' : List UInt8) (n : Nat)
    (hw : d.tryWrite buf = (.ok n, buf')) (suffix : List UInt8)
    (hp : d.channelPage = none → suffix = []) :
    CoordinatorRealignmentData.tryRead (buf'.take n ++ suffix) = .ok (d, n) ∧
    n = if d.channelPage = none then 7 else 8 := by
  obtain ⟨_, _, hn, _⟩ := d.writes.ok_inv hw
  rw [d.writes.ok_take hw, hn, C80_realignment_read]
  obtain ⟨p, c, ch, a, page⟩ := d
  cases page with
  | none =>
    cases hp rfl
    simp [le2_eq, realignmentRead, pageOctets, u16Of_le']
  | some x => simp [le2_eq, realignmentRead, pageOctets, u16Of_le']

/-- **C80** `GuaranteedTimeSlotInformation::new()` and `PendingAddress::new()` hold nothing: their
slices are empty, they are written as one octet zero, and an octet zero (whatever follows) is read
as them.  `Header::has_security` says whether an auxiliary security header is there. -/
theorem C80_empty :
    GtsInfo.new.slotsSlice = .ok [] ∧ GtsInfo.new.permit = false ∧
    PendingAddress.new.shortAddresses = .ok [] ∧ PendingAddress.new.extendedAddresses = .ok [] ∧
    (∀ x rest, GtsInfo.new.tryWrite (x :: rest) = (.ok 1, 0 :: rest)) ∧
    (∀ x rest, PendingAddress.new.tryWrite (x :: rest) = (.ok 1, 0 :: rest)) ∧
    (∀ rest, GtsInfo.tryRead (0 :: rest) = .ok (GtsInfo.new, 1)) ∧
    (∀ rest, PendingAddress.tryRead (0 :: rest) = .ok (PendingAddress.new, 1)) ∧
    (∀ h : Header, h.hasSecurity = true ↔ ∃ aux, h.auxSec = some aux) := by
  refine ⟨rfl, rfl, rfl, rfl, fun _ _ => rfl, fun _ _ => rfl, fun _ => ?_, fun _ => ?_, fun h => ?_⟩
  · simp [GtsInfo.tryRead, R.run, R.bind_apply, R.read, readU8_cons, COUNT_MASK, PERMIT, R.pure_eq,
      GtsInfo.new]
  · simp [PendingAddress.tryRead, R.run, R.bind_apply, R.read, readU8_cons, SHORT_MASK, EXTENDED_MASK,
      R.offset, R.checkLen, PendingAddress.readLoop, R.pure_eq, PendingAddress.new]
  · exact Option.isSome_iff_exists

example : BeaconOrder.ofU8 14 = .beaconOrder 14 ∧ BeaconOrder.ofU8 200 = .onDemand ∧
    BeaconOrder.ofU8 (BeaconOrder.beaconOrder 15).toU8 ≠ .beaconOrder 15 ∧
    SuperframeOrder.ofU8 (SuperframeOrder.superframeOrder 77).toU8 = .inactive ∧
    (CapabilityInformation.ofU8 0xff).toU8 = 0xce ∧
    GtsCharacteristics.ofU8 (GtsCharacteristics.mk 0x1f false true).toU8 = ⟨0x0f, false, true⟩ := by decide
example : (CoordinatorRealignmentData.mk 0x1234 0xabcd 11 0x5678 (some 2)).tryWrite
      (List.replicate 9 0) = (.ok 8, [0x34, 0x12, 0xcd, 0xab, 11, 0x78, 0x56, 2, 0]) ∧
    (CoordinatorRealignmentData.mk 0x1234 0xabcd 11 0x5678 none).tryWrite (List.replicate 7 0)
      = (.ok 7, [0x34, 0x12, 0xcd, 0xab, 11, 0x78, 0x56]) := by decide

end Verif
