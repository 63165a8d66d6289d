import Verif.Props.Equality
import Verif.Spec.HashSpec

/-!
# C98: hashing tells values apart exactly as equality does
-/

namespace Verif
open Spec

variable {α β : Type}

/-- What is used of a type: its octets are followed by the rest, unambiguously. -/
def Reads [RustHash α] (cfg : Cfg) (P : α → Prop) : Prop :=
  ∀ a b x y, P a → P b → hashed cfg a ++ x = hashed cfg b ++ y → a = b ∧ x = y

theorem Reads.apart [RustHash α] {cfg : Cfg} {P : α → Prop} (h : Reads cfg P) : HashesApart α cfg P := by
  intro a b x y ha hb
  exact ⟨h a b x y ha hb, fun ⟨h1, h2⟩ => by rw [h1, h2]⟩

theorem append_inj_len {l m x y : List UInt8} (h : l ++ x = m ++ y) (hl : l.length = m.length) : l = m ∧ x = y :=
  List.append_inj h hl

theorem nat_reads (e : Endian) (k n m : Nat) (x y : List UInt8) (hn : n < 256 ^ k) (hm : m < 256 ^ k)
    (h : natToBytes e k n ++ x = natToBytes e k m ++ y) : n = m ∧ x = y := by
  rw [natToBytes_eq, natToBytes_eq] at h
  obtain ⟨h1, h2⟩ := append_inj_len h (by simp)
  refine ⟨?_, h2⟩
  have := congrArg (bytesToNat e) h1
  rw [bytesToNat_inOrder, bytesToNat_inOrder, Nat.mod_eq_of_lt hn, Nat.mod_eq_of_lt hm] at this
  exact this

theorem bits_pow (cfg : Cfg) : 256 ^ (cfg.usize.bits / 8) = 2 ^ cfg.usize.bits := by
  cases cfg.usize <;> rfl
theorem bits_big (cfg : Cfg) {n : Nat} (h : n ≤ 9) : n < 256 ^ (cfg.usize.bits / 8) := by
  rw [bits_pow]
  have : 2 ^ 16 ≤ 2 ^ cfg.usize.bits := by cases cfg.usize <;> decide
  omega

theorem disc_reads (cfg : Cfg) (n m : Nat) (x y : List UInt8) (hn : n ≤ 9) (hm : m ≤ 9)
    (h : callOctets cfg (.isize n) ++ x = callOctets cfg (.isize m) ++ y) : n = m ∧ x = y :=
  nat_reads _ _ _ _ _ _ (bits_big cfg hn) (bits_big cfg hm) h
theorem usize_reads (cfg : Cfg) (n m : Nat) (x y : List UInt8) (hn : n < 2 ^ cfg.usize.bits) (hm : m < 2 ^ cfg.usize.bits)
    (h : callOctets cfg (.usize n) ++ x = callOctets cfg (.usize m) ++ y) : n = m ∧ x = y :=
  nat_reads _ _ _ _ _ _ (by rwa [bits_pow]) (by rwa [bits_pow]) h

/-- Everything. -/
abbrev Any : α → Prop := fun _ => True

theorem u8_reads (cfg : Cfg) : Reads (α := UInt8) cfg Any := by
  intro a b x y _ _ h
  simpa [hashed, calls, callOctets] using h
theorem bool_reads (cfg : Cfg) : Reads (α := Bool) cfg Any := by
  intro a b x y _ _ h
  cases a <;> cases b <;> simp_all [hashed, calls, callOctets]
theorem u16_reads (cfg : Cfg) : Reads (α := UInt16) cfg Any := by
  intro a b x y _ _ h
  simp only [hashed, calls, List.flatMap_cons, List.flatMap_nil, List.append_nil, callOctets] at h
  obtain ⟨h1, h2⟩ := nat_reads _ _ _ _ _ _ a.toNat_lt b.toNat_lt h
  exact ⟨UInt16.toNat_inj.1 h1, h2⟩
theorem u32_reads (cfg : Cfg) : Reads (α := UInt32) cfg Any := by
  intro a b x y _ _ h
  simp only [hashed, calls, List.flatMap_cons, List.flatMap_nil, List.append_nil, callOctets] at h
  obtain ⟨h1, h2⟩ := nat_reads _ _ _ _ _ _ a.toNat_lt b.toNat_lt h
  exact ⟨UInt32.toNat_inj.1 h1, h2⟩
theorem u64_reads (cfg : Cfg) : Reads (α := UInt64) cfg Any := by
  intro a b x y _ _ h
  simp only [hashed, calls, List.flatMap_cons, List.flatMap_nil, List.append_nil, callOctets] at h
  obtain ⟨h1, h2⟩ := nat_reads _ _ _ _ _ _ a.toNat_lt b.toNat_lt h
  exact ⟨UInt64.toNat_inj.1 h1, h2⟩

/-- An enum without fields. -/
theorem enum_reads [RustHash α] (cfg : Cfg) (d : α → Nat) (hc : ∀ a : α, calls a = [.isize (d a)]) (hd : ∀ a, d a ≤ 9)
    (hi : ∀ a b, d a = d b → a = b) : Reads (α := α) cfg Any := by
  intro a b x y _ _ h
  simp only [hashed, hc, List.flatMap_cons, List.flatMap_nil, List.append_nil] at h
  obtain ⟨h1, h2⟩ := disc_reads cfg _ _ _ _ (hd a) (hd b) h
  exact ⟨hi _ _ h1, h2⟩

theorem option_reads [RustHash α] {cfg : Cfg} (ha : Reads (α := α) cfg Any) : Reads (α := Option α) cfg Any := by
  intro a b x y _ _ h
  cases a <;> cases b <;> simp only [hashed, calls, List.flatMap_cons, List.flatMap_nil, List.append_nil,
    List.append_assoc] at h
  all_goals obtain ⟨h1, h⟩ := disc_reads cfg _ _ _ _ (by decide) (by decide) h
  · exact ⟨rfl, h⟩
  · exact absurd h1 (by decide)
  · exact absurd h1 (by decide)
  · obtain ⟨rfl, h2⟩ := ha _ _ _ _ trivial trivial h
    exact ⟨rfl, h2⟩

theorem elements_read [RustHash α] {cfg : Cfg} (ha : Reads (α := α) cfg Any) :
    ∀ (l m : List α) (x y : List UInt8), l.length = m.length →
      l.flatMap (hashed cfg) ++ x = m.flatMap (hashed cfg) ++ y → l = m ∧ x = y := by
  intro l
  induction l with
  | nil => intro m x y hl h; cases m with
    | nil => exact ⟨rfl, h⟩
    | cons => simp at hl
  | cons a l ih =>
    intro m x y hl h
    cases m with
    | nil => simp at hl
    | cons b m =>
      simp only [List.flatMap_cons, List.append_assoc] at h
      obtain ⟨rfl, h1⟩ := ha _ _ _ _ trivial trivial h
      obtain ⟨rfl, h2⟩ := ih m x y (by simpa using hl) h1
      exact ⟨rfl, h2⟩

theorem array_reads [RustHash α] {cfg : Cfg} (ha : Reads (α := α) cfg Any) : Reads (α := Vector α 7) cfg Any := by
  intro a b x y _ _ h
  simp only [hashed, calls, List.flatMap_cons, List.append_assoc, List.flatMap_assoc] at h
  obtain ⟨_, h⟩ := usize_reads cfg _ _ _ _ (by rw [← bits_pow]; exact bits_big cfg (by decide))
    (by rw [← bits_pow]; exact bits_big cfg (by decide)) h
  obtain ⟨h1, h⟩ := elements_read ha a.toList b.toList x y (by simp) h
  exact ⟨Vector.toList_inj.1 h1, h⟩

/-- Two fields one after the other. -/
local instance pairHash [RustHash α] [RustHash β] : RustHash (α × β) := ⟨fun p => calls p.1 ++ calls p.2⟩

theorem pair_reads [RustHash α] [RustHash β] {cfg : Cfg} {P : α → Prop} {Q : β → Prop} (ha : Reads cfg P) (hb : Reads cfg Q) :
    Reads (α := α × β) cfg (fun p => P p.1 ∧ Q p.2) := by
  intro a b x y h h' e
  have e : hashed cfg a.1 ++ (hashed cfg a.2 ++ x) = hashed cfg b.1 ++ (hashed cfg b.2 ++ y) := by
    have hs : ∀ p : α × β, hashed cfg p = hashed cfg p.1 ++ hashed cfg p.2 := fun p => List.flatMap_append
    rw [← List.append_assoc, ← List.append_assoc, ← hs, ← hs]
    exact e
  obtain ⟨e1, e⟩ := ha _ _ _ _ h.1 h'.1 e
  obtain ⟨e2, e⟩ := hb _ _ _ _ h.2 h'.2 e
  exact ⟨Prod.ext e1 e2, e⟩

/-- A structure is hashed as its fields. -/
theorem as_fields [RustHash α] [RustHash β] {cfg : Cfg} {P : α → Prop} {Q : β → Prop} (f : α → β) (hb : Reads cfg Q)
    (hc : ∀ a : α, calls a = calls (f a)) (hp : ∀ a, P a → Q (f a)) (hi : ∀ a b, f a = f b → a = b) : Reads cfg P := by
  intro a b x y h h' e
  simp only [hashed, hc] at e
  obtain ⟨e1, e⟩ := hb _ _ _ _ (hp a h) (hp b h') e
  exact ⟨hi _ _ e1, e⟩

theorem tag_reads {cfg : Cfg} {n m : Nat} {l k : List HasherCall} {x y : List UInt8} (hn : n ≤ 9) (hm : m ≤ 9)
    (h : (HasherCall.isize n :: l).flatMap (callOctets cfg) ++ x = (HasherCall.isize m :: k).flatMap (callOctets cfg) ++ y) :
    n = m ∧ l.flatMap (callOctets cfg) ++ x = k.flatMap (callOctets cfg) ++ y := by
  simp only [List.flatMap_cons, List.append_assoc] at h
  exact disc_reads cfg _ _ _ _ hn hm h

theorem frameType_reads (cfg : Cfg) : Reads (α := FrameType) cfg Any :=
  enum_reads cfg _ (fun _ => rfl) (by intro a; cases a <;> decide) (by intro a b; cases a <;> cases b <;> decide)
theorem frameVersion_reads (cfg : Cfg) : Reads (α := FrameVersion) cfg Any :=
  enum_reads cfg _ (fun _ => rfl) (by intro a; cases a <;> decide) (by intro a b; cases a <;> cases b <;> decide)
theorem addressMode_reads (cfg : Cfg) : Reads (α := AddressMode) cfg Any :=
  enum_reads cfg _ (fun _ => rfl) (by intro a; cases a <;> decide) (by intro a b; cases a <;> cases b <;> decide)
theorem securityLevel_reads (cfg : Cfg) : Reads (α := SecurityLevel) cfg Any :=
  enum_reads cfg _ (fun _ => rfl) (by intro a; cases a <;> decide) (by intro a b; cases a <;> cases b <;> decide)
theorem keyIdMode_reads (cfg : Cfg) : Reads (α := KeyIdMode) cfg Any :=
  enum_reads cfg _ (fun _ => rfl) (by intro a; cases a <;> decide) (by intro a b; cases a <;> cases b <;> decide)
theorem direction_reads (cfg : Cfg) : Reads (α := Direction) cfg Any :=
  enum_reads cfg _ (fun _ => rfl) (by intro a; cases a <;> decide) (by intro a b; cases a <;> cases b <;> decide)
theorem commandId_reads (cfg : Cfg) : Reads (α := CommandId) cfg Any :=
  enum_reads cfg _ (fun _ => rfl) (by intro a; cases a <;> decide) (by intro a b; cases a <;> cases b <;> decide)
theorem associationStatus_reads (cfg : Cfg) : Reads (α := AssociationStatus) cfg Any :=
  enum_reads cfg _ (fun _ => rfl) (by intro a; cases a <;> decide) (by intro a b; cases a <;> cases b <;> decide)
theorem disassociationReason_reads (cfg : Cfg) : Reads (α := DisassociationReason) cfg Any :=
  enum_reads cfg _ (fun _ => rfl) (by intro a; cases a <;> decide) (by intro a b; cases a <;> cases b <;> decide)
theorem encodeError_reads (cfg : Cfg) : Reads (α := EncodeError) cfg Any :=
  enum_reads cfg _ (fun _ => rfl) (by intro a; cases a <;> decide) (by intro a b; cases a <;> cases b <;> decide)

theorem keySource_reads (cfg : Cfg) : Reads (α := KeySource) cfg Any := by
  intro a b x y _ _ h
  cases a <;> cases b <;> obtain ⟨h1, h⟩ := tag_reads (by decide) (by decide) h
  · obtain ⟨rfl, h2⟩ := u32_reads cfg _ _ _ _ trivial trivial h; exact ⟨rfl, h2⟩
  · exact absurd h1 (by decide)
  · exact absurd h1 (by decide)
  · obtain ⟨rfl, h2⟩ := u64_reads cfg _ _ _ _ trivial trivial h; exact ⟨rfl, h2⟩

theorem control_reads (cfg : Cfg) : Reads (α := SecurityControl) cfg Any :=
  as_fields (fun c => (c.securityLevel, c.keyIdMode)) (pair_reads (securityLevel_reads cfg) (keyIdMode_reads cfg))
    (fun _ => rfl) (fun _ _ => ⟨trivial, trivial⟩) (by rintro ⟨_, _⟩ ⟨_, _⟩ h; simp_all)

theorem keyIdentifier_reads (cfg : Cfg) : Reads (α := KeyIdentifier) cfg Any :=
  as_fields (fun k => (k.keySource, k.keyIndex)) (pair_reads (option_reads (keySource_reads cfg)) (u8_reads cfg))
    (fun _ => rfl) (fun _ _ => ⟨trivial, trivial⟩) (by rintro ⟨_, _⟩ ⟨_, _⟩ h; simp_all)

theorem aux_reads (cfg : Cfg) : Reads (α := AuxHeader) cfg Any :=
  as_fields (fun a => ((a.control, a.frameCounter), a.keyIdentifier))
    (pair_reads (pair_reads (control_reads cfg) (u32_reads cfg)) (option_reads (keyIdentifier_reads cfg)))
    (fun _ => rfl) (fun _ _ => ⟨⟨trivial, trivial⟩, trivial⟩) (by rintro ⟨_, _, _⟩ ⟨_, _, _⟩ h; simp_all)

theorem address_reads (cfg : Cfg) : Reads (α := Address) cfg Any := by
  intro a b x y _ _ h
  cases a <;> cases b <;> obtain ⟨h1, h⟩ := tag_reads (by decide) (by decide) h
  · have h := (pair_reads (u16_reads cfg) (u16_reads cfg)) (_, _) (_, _) _ _ ⟨trivial, trivial⟩ ⟨trivial, trivial⟩ h
    simp_all
  · exact absurd h1 (by decide)
  · exact absurd h1 (by decide)
  · have h := (pair_reads (u16_reads cfg) (u64_reads cfg)) (_, _) (_, _) _ _ ⟨trivial, trivial⟩ ⟨trivial, trivial⟩ h
    simp_all

theorem header_reads (cfg : Cfg) : Reads (α := Header) cfg Any :=
  as_fields (fun h => ((((((((((h.frameType, h.framePending), h.ackRequest), h.panIdCompress), h.seqNoSuppress),
      h.iePresent), h.version), h.seq), h.destination), h.source), h.auxSec))
    (pair_reads (pair_reads (pair_reads (pair_reads (pair_reads (pair_reads (pair_reads (pair_reads (pair_reads (pair_reads
      (frameType_reads cfg) (bool_reads cfg)) (bool_reads cfg)) (bool_reads cfg)) (bool_reads cfg)) (bool_reads cfg))
      (frameVersion_reads cfg)) (u8_reads cfg)) (option_reads (address_reads cfg))) (option_reads (address_reads cfg)))
      (option_reads (aux_reads cfg)))
    (fun _ => rfl) (fun _ _ => ⟨⟨⟨⟨⟨⟨⟨⟨⟨⟨trivial, trivial⟩, trivial⟩, trivial⟩, trivial⟩, trivial⟩, trivial⟩, trivial⟩, trivial⟩, trivial⟩, trivial⟩)
    (by rintro ⟨_, _, _, _, _, _, _, _, _, _, _⟩ ⟨_, _, _, _, _, _, _, _, _, _, _⟩ h; simp_all)

theorem beaconOrder_reads (cfg : Cfg) : Reads (α := BeaconOrder) cfg Any := by
  intro a b x y _ _ h
  cases a <;> cases b <;> obtain ⟨h1, h⟩ := tag_reads (by decide) (by decide) h
  · obtain ⟨rfl, h2⟩ := u8_reads cfg _ _ _ _ trivial trivial h; exact ⟨rfl, h2⟩
  · exact absurd h1 (by decide)
  · exact absurd h1 (by decide)
  · exact ⟨rfl, h⟩

theorem superframeOrder_reads (cfg : Cfg) : Reads (α := SuperframeOrder) cfg Any := by
  intro a b x y _ _ h
  cases a <;> cases b <;> obtain ⟨h1, h⟩ := tag_reads (by decide) (by decide) h
  · obtain ⟨rfl, h2⟩ := u8_reads cfg _ _ _ _ trivial trivial h; exact ⟨rfl, h2⟩
  · exact absurd h1 (by decide)
  · exact absurd h1 (by decide)
  · exact ⟨rfl, h⟩

theorem superframe_reads (cfg : Cfg) : Reads (α := SuperframeSpec) cfg Any :=
  as_fields (fun s => (((((s.beaconOrder, s.superframeOrder), s.finalCapSlot), s.batteryLifeExtension), s.panCoordinator),
      s.associationPermit))
    (pair_reads (pair_reads (pair_reads (pair_reads (pair_reads (beaconOrder_reads cfg) (superframeOrder_reads cfg))
      (u8_reads cfg)) (bool_reads cfg)) (bool_reads cfg)) (bool_reads cfg))
    (fun _ => rfl) (fun _ _ => ⟨⟨⟨⟨⟨trivial, trivial⟩, trivial⟩, trivial⟩, trivial⟩, trivial⟩)
    (by rintro ⟨_, _, _, _, _, _⟩ ⟨_, _, _, _, _, _⟩ h; simp_all)

theorem slot_reads (cfg : Cfg) : Reads (α := GtsDescriptor) cfg Any :=
  as_fields (fun g => (((g.shortAddress, g.startingSlot), g.length), g.direction))
    (pair_reads (pair_reads (pair_reads (u16_reads cfg) (u8_reads cfg)) (u8_reads cfg)) (direction_reads cfg))
    (fun _ => rfl) (fun _ _ => ⟨⟨⟨trivial, trivial⟩, trivial⟩, trivial⟩)
    (by rintro ⟨_, _, _, _⟩ ⟨_, _, _, _⟩ h; simp_all)

/-- A field of type `usize`. -/
local instance usizeHash : RustHash Nat := ⟨fun n => [.usize n]⟩

theorem count_reads (cfg : Cfg) : Reads (α := Nat) cfg (· ≤ 7) := by
  intro a b x y h h' e
  simp only [hashed, calls, List.flatMap_cons, List.flatMap_nil, List.append_nil] at e
  have hb : ∀ n, n ≤ 7 → n < 2 ^ cfg.usize.bits := fun n h => by
    rw [← bits_pow]; exact bits_big cfg (by omega)
  exact usize_reads cfg _ _ _ _ (hb a h) (hb b h') e

theorem gts_reads (cfg : Cfg) : Reads (α := GtsInfo) cfg GtsFromApi :=
  as_fields (fun g => (g.permit, (g.slotCount, g.slots)))
    (pair_reads (bool_reads cfg) (pair_reads (count_reads cfg) (array_reads (slot_reads cfg))))
    (fun _ => rfl) (fun _ h => ⟨trivial, h.shape.1, trivial⟩) (by rintro ⟨_, _, _⟩ ⟨_, _, _⟩ h; simp_all)

theorem pending_reads (cfg : Cfg) : Reads (α := PendingAddress) cfg PendingFromApi :=
  as_fields (fun p => (p.shortCount, (p.shorts, (p.extendedCount, p.extendeds))))
    (pair_reads (count_reads cfg) (pair_reads (array_reads (u16_reads cfg)) (pair_reads (count_reads cfg) (array_reads (u64_reads cfg)))))
    (fun _ => rfl) (fun _ h => ⟨h.shape.1, trivial, h.shape.2.1, trivial⟩) (by rintro ⟨_, _, _, _⟩ ⟨_, _, _, _⟩ h; simp_all)

theorem beacon_reads (cfg : Cfg) : Reads (α := Beacon) cfg BeaconFromApi :=
  as_fields (fun b => ((b.superframeSpec, (b.gtsInfo.permit, (b.gtsInfo.slotCount, b.gtsInfo.slots))),
      (b.pendingAddress.shortCount, (b.pendingAddress.shorts, (b.pendingAddress.extendedCount, b.pendingAddress.extendeds)))))
    (pair_reads (pair_reads (superframe_reads cfg)
      (pair_reads (bool_reads cfg) (pair_reads (count_reads cfg) (array_reads (slot_reads cfg)))))
      (pair_reads (count_reads cfg) (pair_reads (array_reads (u16_reads cfg)) (pair_reads (count_reads cfg) (array_reads (u64_reads cfg))))))
    (fun _ => rfl)
    (fun _ h => ⟨⟨trivial, trivial, h.shape.1.1, trivial⟩, h.shape.2.1, trivial, h.shape.2.2.1, trivial⟩)
    (by rintro ⟨_, ⟨_, _, _⟩, ⟨_, _, _, _⟩⟩ ⟨_, ⟨_, _, _⟩, ⟨_, _, _, _⟩⟩ h; simp_all)

theorem capability_reads (cfg : Cfg) : Reads (α := CapabilityInformation) cfg Any :=
  as_fields (fun c => ((((c.fullFunctionDevice, c.mainsPower), c.idleReceive), c.frameProtection), c.allocateAddress))
    (pair_reads (pair_reads (pair_reads (pair_reads (bool_reads cfg) (bool_reads cfg)) (bool_reads cfg)) (bool_reads cfg)) (bool_reads cfg))
    (fun _ => rfl) (fun _ _ => ⟨⟨⟨⟨trivial, trivial⟩, trivial⟩, trivial⟩, trivial⟩)
    (by rintro ⟨_, _, _, _, _⟩ ⟨_, _, _, _, _⟩ h; simp_all)

theorem realignment_reads (cfg : Cfg) : Reads (α := CoordinatorRealignmentData) cfg Any :=
  as_fields (fun c => ((((c.panId, c.coordinatorAddress), c.channel), c.deviceAddress), c.channelPage))
    (pair_reads (pair_reads (pair_reads (pair_reads (u16_reads cfg) (u16_reads cfg)) (u8_reads cfg)) (u16_reads cfg)) (option_reads (u8_reads cfg)))
    (fun _ => rfl) (fun _ _ => ⟨⟨⟨⟨trivial, trivial⟩, trivial⟩, trivial⟩, trivial⟩)
    (by rintro ⟨_, _, _, _, _⟩ ⟨_, _, _, _, _⟩ h; simp_all)

theorem characteristics_reads (cfg : Cfg) : Reads (α := GtsCharacteristics) cfg Any :=
  as_fields (fun c => ((c.count, c.receiveOnly), c.allocation))
    (pair_reads (pair_reads (u8_reads cfg) (bool_reads cfg)) (bool_reads cfg))
    (fun _ => rfl) (fun _ _ => ⟨⟨trivial, trivial⟩, trivial⟩) (by rintro ⟨_, _, _⟩ ⟨_, _, _⟩ h; simp_all)

theorem command_reads (cfg : Cfg) : Reads (α := Command) cfg Any := by
  intro a b x y _ _ h
  cases a <;> cases b <;> obtain ⟨h1, h⟩ := tag_reads (by decide) (by decide) h
  all_goals first | exact absurd h1 (by decide) | skip
  · obtain ⟨rfl, h2⟩ := capability_reads cfg _ _ _ _ trivial trivial h; exact ⟨rfl, h2⟩
  · have h := (pair_reads (u16_reads cfg) (associationStatus_reads cfg)) (_, _) (_, _) _ _ ⟨trivial, trivial⟩ ⟨trivial, trivial⟩ h
    simp_all
  · obtain ⟨rfl, h2⟩ := disassociationReason_reads cfg _ _ _ _ trivial trivial h; exact ⟨rfl, h2⟩
  · exact ⟨rfl, h⟩
  · exact ⟨rfl, h⟩
  · exact ⟨rfl, h⟩
  · exact ⟨rfl, h⟩
  · obtain ⟨rfl, h2⟩ := realignment_reads cfg _ _ _ _ trivial trivial h; exact ⟨rfl, h2⟩
  · obtain ⟨rfl, h2⟩ := characteristics_reads cfg _ _ _ _ trivial trivial h; exact ⟨rfl, h2⟩

theorem content_reads (cfg : Cfg) : Reads (α := FrameContent) cfg ContentFromApi := by
  intro a b x y ha hb h
  cases a <;> cases b <;> obtain ⟨h1, h⟩ := tag_reads (by decide) (by decide) h
  all_goals first | exact absurd h1 (by decide) | skip
  · obtain ⟨rfl, h2⟩ := beacon_reads cfg _ _ _ _ ha hb h; exact ⟨rfl, h2⟩
  · exact ⟨rfl, h⟩
  · exact ⟨rfl, h⟩
  · obtain ⟨rfl, h2⟩ := command_reads cfg _ _ _ _ trivial trivial h; exact ⟨rfl, h2⟩
  · exact ⟨rfl, h⟩
  · exact ⟨rfl, h⟩
  · exact ⟨rfl, h⟩

/-- A field of type `&[u8]` or `[u8; 2]`. -/
local instance octetsHash : RustHash (List UInt8) := ⟨octetCalls⟩

theorem octets_reads (cfg : Cfg) : Reads (α := List UInt8) cfg (fun l => l.length < 2 ^ cfg.usize.bits) := by
  intro a b x y h h' e
  simp only [hashed, calls, octetCalls, List.flatMap_cons, List.flatMap_nil, List.append_nil, List.append_assoc] at e
  obtain ⟨e1, e⟩ := usize_reads cfg _ _ _ _ h h' e
  exact append_inj_len e e1

theorem frame_reads (cfg : Cfg) : Reads (α := Frame) cfg (FrameHeld cfg) :=
  as_fields (fun f => (((f.header, f.content), f.payload), [f.footer.1, f.footer.2]))
    (pair_reads (pair_reads (pair_reads (header_reads cfg) (content_reads cfg)) (octets_reads cfg)) (octets_reads cfg))
    (fun _ => rfl)
    (fun f h => ⟨⟨⟨trivial, h.1⟩, Nat.lt_of_lt_of_le h.2 (Nat.pow_le_pow_right (by decide) (Nat.sub_le _ _))⟩, by
      show 2 < _; rw [← bits_pow]; exact bits_big cfg (by decide)⟩)
    (by rintro ⟨_, _, _, _, _⟩ ⟨_, _, _, _, _⟩ h; simp_all)

theorem decodeError_reads (cfg : Cfg) : Reads (α := DecodeError) cfg Any := by
  intro a b x y _ _ h
  cases a <;> cases b <;> obtain ⟨h1, h⟩ := tag_reads (by decide) (by decide) h
  all_goals first
    | exact absurd h1 (by decide)
    | exact ⟨rfl, h⟩
    | (obtain ⟨rfl, h2⟩ := u8_reads cfg _ _ _ _ trivial trivial h; exact ⟨rfl, h2⟩)

/-- The octets fed are a function of the calls made. -/
theorem means_equal [RustHash α] (cfg : Cfg) {P : α → Prop} (h : Reads cfg P) : HashMeansEqual α P := by
  intro a b ha hb
  constructor
  · rintro rfl σ step s; rfl
  · intro hs
    have hc : calls a = calls b := by
      have := hs (List HasherCall) (fun l c => l ++ [c]) []
      have hf : ∀ (l m : List HasherCall), m.foldl (fun l c => l ++ [c]) l = l ++ m := by
        intro l m
        induction m generalizing l with
        | nil => simp
        | cons c m ih => simp [ih]
      simpa only [afterHash, hf, List.nil_append] using this
    exact (h a b [] [] ha hb (by unfold hashed; rw [hc])).1

/-- **C98** Frames: the octets a frame feeds to a hasher end where it ends and tell it from every other frame. -/
theorem C98_frames_hash_apart (cfg : Cfg) : HashesApart Frame cfg (FrameHeld cfg) := (frame_reads cfg).apart

/-- **C98** Frames are equal exactly when no hasher, however it treats the calls made to it, can tell them apart. -/
theorem C98_frames_equal (cfg : Cfg) : HashMeansEqual Frame (FrameHeld cfg) := means_equal cfg (frame_reads cfg)

/-- **C98** Headers and their parts: all of them, whatever their fields. -/
theorem C98_headers_hash_apart (cfg : Cfg) :
    HashesApart Header cfg (fun _ => True) ∧ HashesApart AuxHeader cfg (fun _ => True) ∧
    HashesApart SecurityControl cfg (fun _ => True) ∧ HashesApart KeyIdentifier cfg (fun _ => True) ∧
    HashesApart KeySource cfg (fun _ => True) ∧ HashesApart FrameType cfg (fun _ => True) ∧
    HashesApart FrameVersion cfg (fun _ => True) ∧ HashesApart AddressMode cfg (fun _ => True) ∧
    HashesApart SecurityLevel cfg (fun _ => True) ∧ HashesApart KeyIdMode cfg (fun _ => True) :=
  ⟨(header_reads cfg).apart, (aux_reads cfg).apart, (control_reads cfg).apart, (keyIdentifier_reads cfg).apart,
    (keySource_reads cfg).apart, (frameType_reads cfg).apart, (frameVersion_reads cfg).apart, (addressMode_reads cfg).apart,
    (securityLevel_reads cfg).apart, (keyIdMode_reads cfg).apart⟩

/-- **C98** Addresses, as keys of a map: with `Hash`, and PAN identifiers, short and extended addresses. -/
theorem C98_addresses_hash_apart (cfg : Cfg) :
    HashesApart Address cfg (fun _ => True) ∧ HashesApart PanId cfg (fun _ => True) ∧
    HashesApart ShortAddress cfg (fun _ => True) ∧ HashesApart ExtendedAddress cfg (fun _ => True) ∧
    HashMeansEqual Address (fun _ => True) :=
  ⟨(address_reads cfg).apart, (u16_reads cfg).apart, (u16_reads cfg).apart, (u64_reads cfg).apart,
    means_equal cfg (address_reads cfg)⟩

/-- **C98** Beacons and their parts, with the unused entries of their arrays, as far as the API makes them. -/
theorem C98_beacons_hash_apart (cfg : Cfg) :
    HashesApart Beacon cfg BeaconFromApi ∧ HashesApart GtsInfo cfg GtsFromApi ∧
    HashesApart PendingAddress cfg PendingFromApi ∧ HashesApart GtsDescriptor cfg (fun _ => True) ∧
    HashesApart SuperframeSpec cfg (fun _ => True) ∧ HashesApart BeaconOrder cfg (fun _ => True) ∧
    HashesApart SuperframeOrder cfg (fun _ => True) :=
  ⟨(beacon_reads cfg).apart, (gts_reads cfg).apart, (pending_reads cfg).apart, (slot_reads cfg).apart,
    (superframe_reads cfg).apart, (beaconOrder_reads cfg).apart, (superframeOrder_reads cfg).apart⟩

/-- **C98** Two beacons the API makes feed a hasher the same exactly when the accessors show the same: what the
unused entries of the arrays feed does not keep them apart. -/
theorem C98_beacons_by_what_they_show (cfg : Cfg) (b b' : Beacon) (h : BeaconFromApi b) (h' : BeaconFromApi b') :
    hashed cfg b = hashed cfg b' ↔
      b.superframeSpec = b'.superframeSpec ∧ b.gtsInfo.permit = b'.gtsInfo.permit ∧
      b.gtsInfo.slotsSlice = b'.gtsInfo.slotsSlice ∧
      b.pendingAddress.shortAddresses = b'.pendingAddress.shortAddresses ∧
      b.pendingAddress.extendedAddresses = b'.pendingAddress.extendedAddresses := by
  rw [← C64_beacon b b' h h']
  constructor
  · intro e
    exact ((beacon_reads cfg) b b' [] [] h h' (by rw [e])).1
  · rintro rfl; rfl

/-- **C98** Commands and their parts, frame content. -/
theorem C98_commands_hash_apart (cfg : Cfg) :
    HashesApart Command cfg (fun _ => True) ∧ HashesApart CapabilityInformation cfg (fun _ => True) ∧
    HashesApart CoordinatorRealignmentData cfg (fun _ => True) ∧ HashesApart GtsCharacteristics cfg (fun _ => True) ∧
    HashesApart CommandId cfg (fun _ => True) ∧ HashesApart AssociationStatus cfg (fun _ => True) ∧
    HashesApart DisassociationReason cfg (fun _ => True) ∧ HashesApart FrameContent cfg ContentFromApi :=
  ⟨(command_reads cfg).apart, (capability_reads cfg).apart, (realignment_reads cfg).apart, (characteristics_reads cfg).apart,
    (commandId_reads cfg).apart, (associationStatus_reads cfg).apart, (disassociationReason_reads cfg).apart,
    (content_reads cfg).apart⟩

/-- **C98** Errors. -/
theorem C98_errors_hash_apart (cfg : Cfg) :
    HashesApart DecodeError cfg (fun _ => True) ∧ HashesApart EncodeError cfg (fun _ => True) :=
  ⟨(decodeError_reads cfg).apart, (encodeError_reads cfg).apart⟩

/-- **C98** `Hash32` of PAN identifiers and addresses. -/
theorem C98_hash32 (cfg : Cfg) (x y : List UInt8) :
    (∀ a b : UInt16, hash32U16 cfg a ++ x = hash32U16 cfg b ++ y ↔ a = b ∧ x = y) ∧
    (∀ a b : UInt64, hash32U64 cfg a ++ x = hash32U64 cfg b ++ y ↔ a = b ∧ x = y) := by
  refine ⟨fun a b => ⟨fun h => ?_, fun ⟨h1, h2⟩ => by rw [h1, h2]⟩, fun a b => ⟨fun h => ?_, fun ⟨h1, h2⟩ => by rw [h1, h2]⟩⟩
  · obtain ⟨h1, h2⟩ := nat_reads _ _ _ _ _ _ a.toNat_lt b.toNat_lt h
    exact ⟨UInt16.toNat_inj.1 h1, h2⟩
  · obtain ⟨h1, h2⟩ := nat_reads _ _ _ _ _ _ a.toNat_lt b.toNat_lt h
    exact ⟨UInt64.toNat_inj.1 h1, h2⟩

/-- Witness for C98: two addresses with the same octets in their fields, a short one and an extended one, are told
apart by the discriminant only; and what a frame feeds on a 32-bit host, in full. -/
example :
    hashed ⟨true, .w32, .little⟩ (Address.short 0x1234 0x5678) = [0, 0, 0, 0, 0x34, 0x12, 0x78, 0x56] ∧
    hashed ⟨true, .w32, .little⟩ (Address.extended 0x1234 0x5678) = [1, 0, 0, 0, 0x34, 0x12, 0x78, 0x56, 0, 0, 0, 0, 0, 0] ∧
    hashed ⟨true, .w32, .little⟩
      ({ header := { frameType := .data, framePending := false, ackRequest := true, panIdCompress := false, seqNoSuppress := false,
                     iePresent := false, version := .ieee802154_2006, seq := 7,
                     destination := some (.short 0x1234 0x5678), source := none, auxSec := none },
         content := .data, payload := [0xde, 0xf0], footer := (1, 2) } : Frame) =
      [1, 0, 0, 0,  0, 1, 0, 0, 0,  1, 0, 0, 0,  7,  1, 0, 0, 0, 0, 0, 0, 0, 0x34, 0x12, 0x78, 0x56,  0, 0, 0, 0,  0, 0, 0, 0,
       1, 0, 0, 0,  2, 0, 0, 0, 0xde, 0xf0,  2, 0, 0, 0, 1, 2] := by
  decide +kernel

end Verif
