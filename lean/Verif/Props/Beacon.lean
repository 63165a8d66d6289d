import Verif.Lemmas.Gts
import Verif.Lemmas.Holds

/-!
# Properties of beacons: C12–C17

`GtsFromApi`, `PendingFromApi`, `BeaconFromApi` (Verif/Spec/BeaconSpec.lean) are the values a user
of the crate can have in hand.
-/

namespace Verif
open Spec

theorem Writes.no_panic {w : TryWrite} {enc : List UInt8} (h : Writes w (.ok ()) enc)
    (buf : List UInt8) : (w buf).1 ≠ .panic := by
  by_cases hl : enc.length ≤ buf.length
  · rw [(h buf).1 hl]; simp [Out.bind]
  · obtain ⟨k, _, hk⟩ := (h buf).2 (by omega)
    rw [hk]; simp

theorem Spec.GtsFromApi.shape {g : GtsInfo} (h : GtsFromApi g) : GtsInfo.Shape g := by
  induction h with
  | new => exact GtsInfo.new_shape
  | read bytes g n hr =>
    obtain ⟨_, _, _, hon, _⟩ := (GtsInfo.decodes _ _ _).1 hr
    exact hon.1
  | setPermit g b _ ih => exact ih

theorem Spec.PendingFromApi.shape {p : PendingAddress} (h : PendingFromApi p) : PendingAddress.Shape p := by
  induction h with
  | new => exact PendingAddress.new_shape
  | read bytes g n hr =>
    obtain ⟨_, _, _, hon, _⟩ := (PendingAddress.decodes _ _ _).1 hr
    exact hon.1

theorem Spec.BeaconFromApi.shape {b : Beacon} (h : BeaconFromApi b) :
    GtsInfo.Shape b.gtsInfo ∧ PendingAddress.Shape b.pendingAddress := by
  cases h with
  | mk s g p hg hp => exact ⟨hg.shape, hp.shape⟩
  | read bytes b n hr =>
    obtain ⟨_, _, _, hon, _⟩ := (Beacon.decodes _ _ _).1 hr
    exact ⟨hon.2.1, hon.2.2.1⟩

/-- A beacon with two slots, one short and one extended pending address. -/
def sampleBeaconOctets : List UInt8 :=
  [0x12, 0xc3, 0x82, 0x01, 0x34, 0x12, 0x11, 0x78, 0x56, 0x14,
   0x11, 0xcd, 0xab, 8, 7, 6, 5, 4, 3, 2, 1]

/-- **C12** In-range superframe specifications round-trip exactly, in two octets with the given
layout. -/
theorem C12_superframe_round_trip (s : SuperframeSpec) (hs : SuperframeInRange s)
    (buf buf' : List UInt8) (n : Nat) (hw : s.tryWrite buf = (.ok n, buf')) (suffix : List UInt8) :
    n = 2 ∧ buf'.take 2 = superframeOctets s false ∧
    SuperframeSpec.tryRead (buf'.take 2 ++ suffix) = .ok (s, 2) := by
  have ht := (SuperframeSpec.writes s).ok_take hw
  obtain ⟨_, _, hn, _⟩ := (SuperframeSpec.writes s).ok_inv hw
  have hn2 : n = 2 := hn
  subst hn2
  refine ⟨rfl, ht, ?_⟩
  rw [ht]
  exact (SuperframeSpec.decodes _ _ _).2 ⟨_, suffix, rfl, ⟨hs, false, rfl⟩, rfl⟩

theorem superframeTruncated_inRange (s : SuperframeSpec) :
    SuperframeInRange (superframeTruncated s) := by
  refine ⟨?_, ?_, ?_⟩
  · intro v hv
    simp only [superframeTruncated, beaconOrderTruncated] at hv
    split at hv
    · cases hv
    · simp only [BeaconOrder.beaconOrder.injEq] at hv
      rw [← hv, UInt8.toNat_ofNat_of_lt' (by simp [UInt8.size]; omega)]; omega
  · intro v hv
    simp only [superframeTruncated, superframeOrderTruncated] at hv
    split at hv
    · cases hv
    · simp only [SuperframeOrder.superframeOrder.injEq] at hv
      rw [← hv, UInt8.toNat_ofNat_of_lt' (by simp [UInt8.size]; omega)]; omega
  · simp only [superframeTruncated]
    rw [UInt8.toNat_ofNat_of_lt' (by simp [UInt8.size]; omega)]; omega

theorem superframeTruncated_octets (s : SuperframeSpec) (r : Bool) :
    superframeOctets (superframeTruncated s) r = superframeOctets s r := by
  have e1 : beaconOrderCode (beaconOrderTruncated s.beaconOrder) % 16
      = beaconOrderCode s.beaconOrder % 16 := by
    unfold beaconOrderTruncated
    split
    · rename_i h; exact h.symm
    · show (UInt8.ofNat _).toNat % 16 = _
      rw [UInt8.toNat_ofNat_of_lt' (by simp [UInt8.size]; omega)]; omega
  have e2 : superframeOrderCode (superframeOrderTruncated s.superframeOrder) % 16
      = superframeOrderCode s.superframeOrder % 16 := by
    unfold superframeOrderTruncated
    split
    · rename_i h; exact h.symm
    · show (UInt8.ofNat _).toNat % 16 = _
      rw [UInt8.toNat_ofNat_of_lt' (by simp [UInt8.size]; omega)]; omega
  have e3 : (UInt8.ofNat (s.finalCapSlot.toNat % 16)).toNat % 16 = s.finalCapSlot.toNat % 16 := by
    rw [UInt8.toNat_ofNat_of_lt' (by simp [UInt8.size]; omega)]; omega
  simp only [superframeOctets, superframeTruncated, e1, e2, e3]

/-- **C12** Any superframe specification reads back truncated to four bits per field. -/
theorem C12_superframe_truncation (s : SuperframeSpec)
    (buf buf' : List UInt8) (n : Nat) (hw : s.tryWrite buf = (.ok n, buf')) (suffix : List UInt8) :
    SuperframeSpec.tryRead (buf'.take n ++ suffix) = .ok (superframeTruncated s, 2) := by
  rw [(SuperframeSpec.writes s).ok_take hw, ← superframeTruncated_octets]
  exact (SuperframeSpec.decodes _ _ _).2
    ⟨_, suffix, rfl, ⟨superframeTruncated_inRange s, false, rfl⟩, rfl⟩

/-- **C12** Any two octets read as an in-range specification, and writing that back reproduces
them except that bit 5 of the second is cleared. -/
theorem C12_superframe_reencode (b0 b1 : UInt8) (rest buf : List UInt8) (hb : 2 ≤ buf.length) :
    ∃ s, SuperframeSpec.tryRead (b0 :: b1 :: rest) = .ok (s, 2) ∧ SuperframeInRange s ∧
      s.tryWrite buf = (.ok 2, [b0, UInt8.ofNat (b1.toNat - 32 * (b1.toNat / 32 % 2))] ++ buf.drop 2) := by
  obtain ⟨r, hr⟩ := SuperframeSpec.ofOctets_octets b0 b1
  have hin := SuperframeSpec.ofOctets_inRange b0 b1
  refine ⟨SuperframeSpec.ofOctets b0 b1, ?_, hin, ?_⟩
  · exact (SuperframeSpec.decodes _ _ _).2 ⟨[b0, b1], rest, rfl, ⟨hin, r, hr⟩, rfl⟩
  · have hw := (SuperframeSpec.writes (SuperframeSpec.ofOctets b0 b1)).ok_of_room buf hb
    have e : superframeOctets (SuperframeSpec.ofOctets b0 b1) false
        = [b0, UInt8.ofNat (b1.toNat - 32 * (b1.toNat / 32 % 2))] := by
      simp only [superframeOctets, List.cons.injEq, and_true] at hr ⊢
      refine ⟨hr.1.symm, ?_⟩
      have e1 := Header.bit_lt (SuperframeSpec.ofOctets b0 b1).batteryLifeExtension
      have e2 := Header.bit_lt (SuperframeSpec.ofOctets b0 b1).panCoordinator
      have e3 := Header.bit_lt (SuperframeSpec.ofOctets b0 b1).associationPermit
      have e4 := Header.bit_lt r
      have e5 : bit false = 0 := rfl
      have hb1 := congrArg UInt8.toNat hr.2
      rw [UInt8.toNat_ofNat_of_lt' (by simp [UInt8.size]; omega)] at hb1
      apply UInt8.toNat_inj.mp
      rw [UInt8.toNat_ofNat_of_lt' (by simp [UInt8.size]; omega),
        UInt8.toNat_ofNat_of_lt' (by simp [UInt8.size]; omega), e5]
      omega
    rw [hw, e]; rfl

example : SuperframeInRange ⟨.beaconOrder 14, .inactive, 15, true, false, true⟩ := by
  refine ⟨?_, ?_, by decide⟩
  · rintro v ⟨⟩; decide
  · rintro v ⟨⟩
example : SuperframeSpec.tryWrite ⟨.beaconOrder 14, .inactive, 15, true, false, true⟩ [0, 0, 0]
    = (.ok 2, [0xfe, 0x9f, 0]) := by decide
example : superframeTruncated ⟨.beaconOrder 0x2f, .superframeOrder 0x13, 0x21, true, false, true⟩
    = ⟨.onDemand, .superframeOrder 3, 1, true, false, true⟩ := by decide

/-- **C13** GTS information round-trips exactly whenever something follows it. -/
theorem C13_gts_round_trip (g : GtsInfo) (hg : GtsFromApi g) (buf buf' : List UInt8) (n : Nat)
    (hw : g.tryWrite buf = (.ok n, buf')) (suffix : List UInt8) (hs : suffix ≠ []) :
    buf'.take n = gtsOctets g 0 0 ∧ GtsInfo.tryRead (buf'.take n ++ suffix) = .ok (g, n) := by
  have ht := (GtsInfo.writes g hg.shape).ok_take hw
  obtain ⟨_, _, hn, _⟩ := (GtsInfo.writes g hg.shape).ok_inv hw
  refine ⟨ht, ?_⟩
  rw [ht]
  exact (GtsInfo.decodes _ _ _).2
    ⟨_, suffix, rfl, ⟨hg.shape, fun _ => hs, 0, by omega, 0, Nat.pow_pos (by omega), rfl⟩, hn⟩

theorem gtsOctets_needs (g : GtsInfo) (h : GtsInfo.Shape g) :
    (gtsOctets g 0 0).length = gtsLength (gtsOctets g 0 0) ∧
    gtsRequired (gtsOctets g 0 0) = gtsLength (gtsOctets g 0 0) + (if g.slotCount = 0 then 0 else 1) := by
  have ep := Header.bit_lt g.permit
  have h1 := h.1
  have hb : (UInt8.ofNat (g.slotCount + 8 * 0 + 128 * bit g.permit)).toNat
      = g.slotCount + 8 * 0 + 128 * bit g.permit :=
    UInt8.toNat_ofNat_of_lt' (by simp [UInt8.size]; omega)
  have hc : (g.slotCount + 8 * 0 + 128 * bit g.permit) % 8 = g.slotCount := by omega
  have hal : (activeSlots g).length = g.slotCount := by simp [activeSlots]; omega
  simp only [gtsOctets, List.cons_append, List.nil_append, gtsLength, gtsRequired, hb, hc]
  by_cases hz : g.slotCount = 0
  · simp [hz]
  · simp only [hz, if_false, List.length_cons, GtsInfo.flatMap_slots_length, hal]; omega

/-- **C14** On their own, the octets written are refused with `Incomplete` when there is at least
one slot, and read back when there is none. -/
theorem C14_gts_needs_spare_octet (g : GtsInfo) (hg : GtsFromApi g) (buf buf' : List UInt8) (n : Nat)
    (hw : g.tryWrite buf = (.ok n, buf')) :
    (g.slotsSlice ≠ .ok [] → GtsInfo.tryRead (buf'.take n) = .err .incomplete) ∧
    (g.slotsSlice = .ok [] → GtsInfo.tryRead (buf'.take n) = .ok (g, n)) := by
  have hsh := hg.shape
  have ht := (GtsInfo.writes g hsh).ok_take hw
  obtain ⟨_, _, hn, _⟩ := (GtsInfo.writes g hsh).ok_inv hw
  have hz : g.slotsSlice = .ok [] ↔ g.slotCount = 0 := by
    unfold GtsInfo.slotsSlice sliceTo
    rw [if_pos hsh.1, Out.ok.injEq, ← List.length_eq_zero_iff]
    have := hsh.1
    simp
  have hl := gtsOctets_needs g hsh
  rw [ht, hz]
  constructor
  · intro hc
    refine (GtsInfo.needs _).2 ?_
    rw [hl.2, if_neg (by rw [← hz]; exact hc), hl.1]; omega
  · intro hc
    refine (GtsInfo.decodes _ _ _).2
      ⟨_, [], by simp, ⟨hsh, fun h => by omega, 0, by omega, 0, Nat.pow_pos (by omega), rfl⟩, hn⟩

/-- The values of the examples below come from reading octets, as in an application. -/
example : ∃ g, GtsFromApi g ∧ g.slotsSlice ≠ .ok [] ∧ (g.tryWrite (List.replicate 8 0)).1 = .ok 8 := by
  have h : (GtsInfo.tryRead [0x82, 0x01, 0x34, 0x12, 0x11, 0x78, 0x56, 0x14, 0x00]).holds
      (fun r => r.2 = 8 ∧ r.1.slotsSlice ≠ .ok [] ∧ (r.1.tryWrite (List.replicate 8 0)).1 = .ok 8) := by
    decide +kernel
  obtain ⟨⟨g, n⟩, hr, _, h1, h2⟩ := h.elim
  exact ⟨g, .read _ _ _ hr, h1, h2⟩
example : ∃ g, GtsFromApi g ∧ g.permit = true ∧ g.slotsSlice = .ok [] :=
  ⟨_, GtsFromApi.setPermit _ true GtsFromApi.new, rfl, by decide⟩

/-- **C15** Pending-address lists round-trip exactly followed by anything, in `1 + 2s + 8e`
octets. -/
theorem C15_pending_round_trip (p : PendingAddress) (hp : PendingFromApi p) (buf buf' : List UInt8)
    (n : Nat) (hw : p.tryWrite buf = (.ok n, buf')) (suffix : List UInt8) :
    n = 1 + 2 * p.shortCount + 8 * p.extendedCount ∧
    buf'.take n = pendingOctets p false false ∧
    PendingAddress.tryRead (buf'.take n ++ suffix) = .ok (p, n) := by
  have hsh := hp.shape
  have ht := (PendingAddress.writes p hsh.1 hsh.2.1).ok_take hw
  obtain ⟨_, _, hn, _⟩ := (PendingAddress.writes p hsh.1 hsh.2.1).ok_inv hw
  refine ⟨?_, ht, ?_⟩
  · rw [hn, pendingOctets]
    have h1 := hsh.1
    have h2 := hsh.2.1
    simp only [List.length_append, List.length_cons, List.length_nil,
      PendingAddress.flatMap_length _ _ 2 (fun a => le_length 2 _),
      PendingAddress.flatMap_length _ _ 8 (fun a => le_length 8 _), List.length_take,
      Vector.length_toList]
    omega
  · rw [ht]
    exact (PendingAddress.decodes _ _ _).2 ⟨_, suffix, rfl, ⟨hsh, false, false, rfl⟩, hn⟩

/-- **C15** Reading succeeds exactly when the octets announced by the count octet are there, and
is `Incomplete` otherwise. -/
theorem C15_pending_read_iff (bytes : List UInt8) :
    (pendingLength bytes ≤ bytes.length →
      ∃ p, PendingAddress.tryRead bytes = .ok (p, pendingLength bytes)) ∧
    (bytes.length < pendingLength bytes → PendingAddress.tryRead bytes = .err .incomplete) :=
  PendingAddress.needs bytes

example : ∃ p, PendingFromApi p ∧
    p.shortAddresses = .ok [0xabcd] ∧ p.extendedAddresses = .ok [0x0102030405060708] ∧
    (p.tryWrite (List.replicate 20 0)).1 = .ok 11 := by
  have h : (PendingAddress.tryRead [0x11, 0xcd, 0xab, 8, 7, 6, 5, 4, 3, 2, 1]).holds
      (fun r => r.1.shortAddresses = .ok [0xabcd] ∧
        r.1.extendedAddresses = .ok [0x0102030405060708] ∧
        (r.1.tryWrite (List.replicate 20 0)).1 = .ok 11) := by decide +kernel
  obtain ⟨⟨g, n⟩, hr, h1⟩ := h.elim
  exact ⟨g, .read _ _ _ hr, h1⟩

/-- **C16** Beacons in range round-trip exactly, followed by anything or nothing. -/
theorem C16_beacon_round_trip (b : Beacon) (hb : BeaconFromApi b)
    (hs : SuperframeInRange b.superframeSpec) (buf buf' : List UInt8) (n : Nat)
    (hw : b.tryWrite buf = (.ok n, buf')) (suffix : List UInt8) :
    buf'.take n = beaconOctets b ∧ Beacon.tryRead (buf'.take n ++ suffix) = .ok (b, n) := by
  obtain ⟨hg, hp⟩ := hb.shape
  have ht := (Beacon.writes b hg hp).ok_take hw
  obtain ⟨_, _, hn, _⟩ := (Beacon.writes b hg hp).ok_inv hw
  refine ⟨ht, ?_⟩
  rw [ht]
  exact (Beacon.decodes _ _ _).2
    ⟨_, suffix, rfl, ⟨hs, hg, hp, false, 0, by omega, 0, Nat.pow_pos (by omega), false, false, rfl⟩, hn⟩

/-- **C16** And every such beacon is written when there is room. -/
theorem C16_beacon_written (b : Beacon) (hb : BeaconFromApi b) (buf : List UInt8)
    (hl : (beaconOctets b).length ≤ buf.length) :
    b.tryWrite buf = (.ok (beaconOctets b).length, beaconOctets b ++ buf.drop (beaconOctets b).length) :=
  (Beacon.writes b hb.shape.1 hb.shape.2).ok_of_room buf hl

/-- **C17** Reading a beacon never panics: it consumes the announced length or is `Incomplete`. -/
theorem C17_beacon_read_total (bytes : List UInt8) :
    (beaconLength bytes ≤ bytes.length →
      ∃ b, Beacon.tryRead bytes = .ok (b, beaconLength bytes) ∧
        SuperframeInRange b.superframeSpec) ∧
    (bytes.length < beaconLength bytes → Beacon.tryRead bytes = .err .incomplete) := by
  refine ⟨fun h => ?_, (Beacon.needs bytes).2⟩
  obtain ⟨b, hb⟩ := (Beacon.needs bytes).1 h
  obtain ⟨_, _, _, hon, _⟩ := (Beacon.decodes _ _ _).1 hb
  exact ⟨b, hb, hon.1⟩

/-- **C17** Every obtainable beacon has at most seven entries in each list, its accessors return
exactly the counted entries, and writing it never panics. -/
theorem C17_beacon_values (b : Beacon) (hb : BeaconFromApi b) :
    (∃ slots, b.gtsInfo.slotsSlice = .ok slots ∧ slots.length = b.gtsInfo.slotCount ∧
      slots.length ≤ 7) ∧
    (∃ as, b.pendingAddress.shortAddresses = .ok as ∧ as.length = b.pendingAddress.shortCount ∧
      as.length ≤ 7) ∧
    (∃ as, b.pendingAddress.extendedAddresses = .ok as ∧
      as.length = b.pendingAddress.extendedCount ∧ as.length ≤ 7) ∧
    ∀ buf, (b.tryWrite buf).1 ≠ .panic := by
  obtain ⟨hg, hp⟩ := hb.shape
  have h1 := hg.1
  have h2 := hp.1
  have h3 := hp.2.1
  refine ⟨⟨_, if_pos h1, ?_⟩, ⟨_, if_pos h2, ?_⟩, ⟨_, if_pos h3, ?_⟩,
    fun buf => (Beacon.writes b hg hp).no_panic buf⟩ <;> simp <;> omega

/-- **C17** The same for GTS information and pending addresses on their own. -/
theorem C17_parts_never_panic (bytes buf : List UInt8) :
    GtsInfo.tryRead bytes ≠ .panic ∧ PendingAddress.tryRead bytes ≠ .panic ∧
    SuperframeSpec.tryRead bytes ≠ .panic ∧ GtsDescriptor.tryRead bytes ≠ .panic ∧
    (∀ g, GtsFromApi g → (g.tryWrite buf).1 ≠ .panic) ∧
    (∀ p, PendingFromApi p → (p.tryWrite buf).1 ≠ .panic) := by
  have np : ∀ {α : Type} {r : TryRead α} {a b : List UInt8 → Nat}, NeedsL r a b →
      r bytes ≠ .panic := by
    intro α r a b h hp
    by_cases hl : a bytes ≤ bytes.length
    · obtain ⟨x, hx⟩ := (h bytes).1 hl
      rw [hx] at hp; cases hp
    · rw [(h bytes).2 (by omega)] at hp; cases hp
  exact ⟨np GtsInfo.needs, np (a := pendingLength) (b := pendingLength) PendingAddress.needs,
    np (a := fun _ => 2) (b := fun _ => 2) SuperframeSpec.needs,
    np (a := fun _ => 3) (b := fun _ => 3) GtsDescriptor.needs,
    fun g hg => (GtsInfo.writes g hg.shape).no_panic buf,
    fun p hp => (PendingAddress.writes p hp.shape.1 hp.shape.2.1).no_panic buf⟩

example : beaconLength sampleBeaconOctets = 21 ∧
    ∃ b, BeaconFromApi b ∧ SuperframeInRange b.superframeSpec ∧
      b.superframeSpec = ⟨.beaconOrder 2, .superframeOrder 1, 3, false, true, true⟩ ∧
      b.tryWrite (List.replicate 21 0) = (.ok 21, sampleBeaconOctets) := by
  refine ⟨by decide, ?_⟩
  have h : (Beacon.tryRead sampleBeaconOctets).holds
      (fun r => r.1.superframeSpec = ⟨.beaconOrder 2, .superframeOrder 1, 3, false, true, true⟩ ∧
        r.1.tryWrite (List.replicate 21 0) = (.ok 21, sampleBeaconOctets)) := by decide +kernel
  obtain ⟨⟨b, n⟩, hr, h1, h2⟩ := h.elim
  obtain ⟨_, _, _, hon, _⟩ := (Beacon.decodes _ _ _).1 hr
  exact ⟨b, .read _ _ _ hr, hon.1, h1, h2⟩

end Verif
