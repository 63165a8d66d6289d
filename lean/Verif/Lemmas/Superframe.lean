import Verif.Lemmas.ReaderS

/-! # Lemmas: superframe specification -/

namespace Verif
open Spec

theorem nat_or_shift (a b k : Nat) (h : a < 2 ^ k) : a ||| (b <<< k) = a + b * 2 ^ k := by
  rw [Nat.or_comm, ← Nat.shiftLeft_add_eq_or_of_lt h, Nat.shiftLeft_eq]; omega

/-- Two nibbles packed into an octet. -/
theorem nibbles_toNat (a b : UInt8) :
    ((a &&& (0x0f : UInt8)) ||| (b <<< (4 : UInt8))).toNat = a.toNat % 16 + 16 * (b.toNat % 16) := by
  have e : (b <<< (4 : UInt8)).toNat = (b.toNat % 16) <<< 4 := by
    rw [UInt8.toNat_shiftLeft]
    have : (4 : UInt8).toNat % 8 = 4 := rfl
    rw [this, Nat.shiftLeft_eq, Nat.shiftLeft_eq]; omega
  have e2 : (a &&& (0x0f : UInt8)).toNat = a.toNat % 16 := by
    rw [UInt8.toNat_and]
    exact Nat.and_two_pow_sub_one_eq_mod a.toNat 4
  rw [UInt8.toNat_or, e, e2, nat_or_shift _ _ _ (by omega)]; omega

namespace SuperframeSpec

theorem beaconOrder_toU8 (b : BeaconOrder) : b.toU8.toNat = beaconOrderCode b := by cases b <;> rfl
theorem superframeOrder_toU8 (b : SuperframeOrder) : b.toU8.toNat = superframeOrderCode b := by
  cases b <;> rfl

theorem byte1_table : ∀ (x y z : Bool) (n : Fin 256),
    ((UInt8.ofNat n.val) &&& 0x0f ||| (if x then BATTERY_LIFE_EXTENSION else 0) |||
      (if y then PAN_COORDINATOR else 0) ||| (if z then ASSOCIATION_PERMIT else 0)) =
    UInt8.ofNat ((UInt8.ofNat n.val).toNat % 16 + 16 * bit x + 64 * bit y + 128 * bit z) := by
  decide +kernel

theorem byte1_eq (s : SuperframeSpec) : s.byte1 = UInt8.ofNat (s.finalCapSlot.toNat % 16 +
    16 * bit s.batteryLifeExtension + 64 * bit s.panCoordinator + 128 * bit s.associationPermit) :=
  forall_u8 (fun b => (b &&& 0x0f ||| (if s.batteryLifeExtension then BATTERY_LIFE_EXTENSION else 0) |||
      (if s.panCoordinator then PAN_COORDINATOR else 0) |||
      (if s.associationPermit then ASSOCIATION_PERMIT else 0)) = UInt8.ofNat (b.toNat % 16 +
    16 * bit s.batteryLifeExtension + 64 * bit s.panCoordinator + 128 * bit s.associationPermit))
    (byte1_table _ _ _) s.finalCapSlot

theorem writes (s : SuperframeSpec) : Writes s.tryWrite (.ok ()) (superframeOctets s false) := by
  refine Writes.of_eq (Writes.run (WSpec.bind (WSpec.write (Writes.u8 _))
    (WSpec.write (Writes.u8 _)))) ?_
  rw [byte1_eq]
  simp only [superframeOctets, List.cons_append, List.nil_append]
  congr 1
  · apply UInt8.toNat_inj.mp
    unfold byte0
    rw [nibbles_toNat, beaconOrder_toU8, superframeOrder_toU8, UInt8.toNat_ofNat_of_lt'
      (by simp [UInt8.size]; omega)]

/-- The value of two octets. -/
def ofOctets (b0 b1 : UInt8) : SuperframeSpec where
  beaconOrder := BeaconOrder.ofU8 (b0 &&& 0x0f)
  superframeOrder := SuperframeOrder.ofU8 ((b0 >>> 4) &&& 0x0f)
  finalCapSlot := b1 &&& 0x0f
  batteryLifeExtension := (b1 &&& BATTERY_LIFE_EXTENSION) == BATTERY_LIFE_EXTENSION
  panCoordinator := (b1 &&& PAN_COORDINATOR) == PAN_COORDINATOR
  associationPermit := (b1 &&& ASSOCIATION_PERMIT) == ASSOCIATION_PERMIT

theorem lo_toNat (b : UInt8) : (b &&& (0x0f : UInt8)).toNat = b.toNat % 16 := by
  rw [UInt8.toNat_and]; exact Nat.and_two_pow_sub_one_eq_mod b.toNat 4

theorem hi_toNat (b : UInt8) : ((b >>> 4) &&& (0x0f : UInt8)).toNat = b.toNat / 16 := by
  rw [lo_toNat, UInt8.toNat_shiftRight]
  have : (4 : UInt8).toNat % 8 = 4 := rfl
  have h := b.toNat_lt
  rw [this, Nat.shiftRight_eq_div_pow]; omega

theorem bo_code (b : UInt8) (h : b.toNat < 16) : beaconOrderCode (BeaconOrder.ofU8 b) = b.toNat := by
  unfold BeaconOrder.ofU8
  split
  · rfl
  · rename_i hn
    have : ¬ b.toNat ≤ 14 := fun h' => hn (UInt8.le_iff_toNat_le.mpr h')
    simp [beaconOrderCode]; omega

theorem so_code (b : UInt8) (h : b.toNat < 16) :
    superframeOrderCode (SuperframeOrder.ofU8 b) = b.toNat := by
  unfold SuperframeOrder.ofU8
  split
  · rfl
  · rename_i hn
    have : ¬ b.toNat ≤ 14 := fun h' => hn (UInt8.le_iff_toNat_le.mpr h')
    simp [superframeOrderCode]; omega

theorem b1_table : ∀ n : Fin 256, ∃ r : Bool,
    UInt8.ofNat n.val = UInt8.ofNat (((UInt8.ofNat n.val) &&& 0x0f).toNat % 16
      + 16 * bit (((UInt8.ofNat n.val) &&& BATTERY_LIFE_EXTENSION) == BATTERY_LIFE_EXTENSION)
      + 32 * bit r
      + 64 * bit (((UInt8.ofNat n.val) &&& PAN_COORDINATOR) == PAN_COORDINATOR)
      + 128 * bit (((UInt8.ofNat n.val) &&& ASSOCIATION_PERMIT) == ASSOCIATION_PERMIT)) := by
  decide +kernel

theorem b1_inv : ∀ (f : Fin 16) (x r y z : Bool),
    (UInt8.ofNat (f.val + 16 * bit x + 32 * bit r + 64 * bit y + 128 * bit z)) &&& 0x0f
      = UInt8.ofNat f.val ∧
    (((UInt8.ofNat (f.val + 16 * bit x + 32 * bit r + 64 * bit y + 128 * bit z))
      &&& BATTERY_LIFE_EXTENSION) == BATTERY_LIFE_EXTENSION) = x ∧
    (((UInt8.ofNat (f.val + 16 * bit x + 32 * bit r + 64 * bit y + 128 * bit z))
      &&& PAN_COORDINATOR) == PAN_COORDINATOR) = y ∧
    (((UInt8.ofNat (f.val + 16 * bit x + 32 * bit r + 64 * bit y + 128 * bit z))
      &&& ASSOCIATION_PERMIT) == ASSOCIATION_PERMIT) = z := by
  decide +kernel

theorem bo_of_code {b : BeaconOrder} (hr : ∀ v, b = .beaconOrder v → v.toNat ≤ 14) (x : UInt8)
    (h : x.toNat = beaconOrderCode b) : BeaconOrder.ofU8 x = b := by
  unfold BeaconOrder.ofU8
  cases b with
  | beaconOrder v =>
    have : x = v := UInt8.toNat_inj.mp h
    subst this
    rw [if_pos (UInt8.le_iff_toNat_le.mpr (hr x rfl))]
  | onDemand =>
    have : x = 15 := UInt8.toNat_inj.mp h
    subst this; rfl

theorem so_of_code {b : SuperframeOrder} (hr : ∀ v, b = .superframeOrder v → v.toNat ≤ 14) (x : UInt8)
    (h : x.toNat = superframeOrderCode b) : SuperframeOrder.ofU8 x = b := by
  unfold SuperframeOrder.ofU8
  cases b with
  | superframeOrder v =>
    have : x = v := UInt8.toNat_inj.mp h
    subst this
    rw [if_pos (UInt8.le_iff_toNat_le.mpr (hr x rfl))]
  | inactive =>
    have : x = 15 := UInt8.toNat_inj.mp h
    subst this; rfl

theorem bo_range {b : BeaconOrder} (hr : ∀ v, b = .beaconOrder v → v.toNat ≤ 14) :
    beaconOrderCode b < 16 := by
  cases b with
  | beaconOrder v => have := hr v rfl; simp [beaconOrderCode]; omega
  | onDemand => simp [beaconOrderCode]

theorem so_range {b : SuperframeOrder} (hr : ∀ v, b = .superframeOrder v → v.toNat ≤ 14) :
    superframeOrderCode b < 16 := by
  cases b with
  | superframeOrder v => have := hr v rfl; simp [superframeOrderCode]; omega
  | inactive => simp [superframeOrderCode]

theorem ofOctets_inRange (b0 b1 : UInt8) : SuperframeInRange (ofOctets b0 b1) := by
  refine ⟨?_, ?_, ?_⟩
  · intro v hv
    simp only [ofOctets, BeaconOrder.ofU8] at hv
    split at hv
    · rename_i h
      simp only [BeaconOrder.beaconOrder.injEq] at hv
      subst hv
      exact UInt8.le_iff_toNat_le.mp h
    · cases hv
  · intro v hv
    simp only [ofOctets, SuperframeOrder.ofU8] at hv
    split at hv
    · rename_i h
      simp only [SuperframeOrder.superframeOrder.injEq] at hv
      subst hv
      exact UInt8.le_iff_toNat_le.mp h
    · cases hv
  · show (b1 &&& (0x0f : UInt8)).toNat ≤ 15
    rw [lo_toNat]; omega

theorem ofOctets_octets (b0 b1 : UInt8) : ∃ r, [b0, b1] = superframeOctets (ofOctets b0 b1) r := by
  obtain ⟨r, hr⟩ := forall_u8 (fun b => ∃ r : Bool,
    b = UInt8.ofNat ((b &&& 0x0f).toNat % 16
      + 16 * bit ((b &&& BATTERY_LIFE_EXTENSION) == BATTERY_LIFE_EXTENSION)
      + 32 * bit r
      + 64 * bit ((b &&& PAN_COORDINATOR) == PAN_COORDINATOR)
      + 128 * bit ((b &&& ASSOCIATION_PERMIT) == ASSOCIATION_PERMIT))) b1_table b1
  refine ⟨r, ?_⟩
  unfold superframeOctets
  have h1 := b0.toNat_lt
  have e1 : beaconOrderCode (ofOctets b0 b1).beaconOrder = b0.toNat % 16 := by
    show beaconOrderCode (BeaconOrder.ofU8 _) = _
    rw [bo_code _ (by rw [lo_toNat]; omega), lo_toNat]
  have e2 : superframeOrderCode (ofOctets b0 b1).superframeOrder = b0.toNat / 16 := by
    show superframeOrderCode (SuperframeOrder.ofU8 _) = _
    rw [so_code _ (by rw [hi_toNat]; omega), hi_toNat]
  congr 1
  · apply UInt8.toNat_inj.mp
    rw [e1, e2, UInt8.toNat_ofNat_of_lt' (by simp [UInt8.size]; omega)]
    omega
  · congr 1

theorem ofOctets_of {s : SuperframeSpec} (hr : SuperframeInRange s) {b0 b1 : UInt8} {r : Bool}
    (h : [b0, b1] = superframeOctets s r) : ofOctets b0 b1 = s := by
  obtain ⟨h1, h2, h3⟩ := hr
  have r1 := bo_range h1
  have r2 := so_range h2
  simp only [superframeOctets, List.cons.injEq, and_true] at h
  obtain ⟨hb0, hb1⟩ := h
  have e0 : b0.toNat = beaconOrderCode s.beaconOrder + 16 * superframeOrderCode s.superframeOrder := by
    rw [hb0, UInt8.toNat_ofNat_of_lt' (by simp [UInt8.size]; omega)]; omega
  have hf := b1_inv ⟨s.finalCapSlot.toNat, by omega⟩ s.batteryLifeExtension r s.panCoordinator
    s.associationPermit
  have hmod : s.finalCapSlot.toNat % 16 = s.finalCapSlot.toNat := Nat.mod_eq_of_lt (by omega)
  rw [hmod] at hb1
  simp only [← hb1] at hf
  rcases s with ⟨bo, so, f, x, y, z⟩
  simp only [ofOctets, SuperframeSpec.mk.injEq]
  refine ⟨bo_of_code h1 _ ?_, so_of_code h2 _ ?_, ?_, hf.2.1, hf.2.2.1, hf.2.2.2⟩
  · rw [lo_toNat, e0]; simp only at *; omega
  · rw [hi_toNat, e0]; simp only at *; omega
  · rw [hf.1]; simp

theorem decodes : Decodes SuperframeSpec.tryRead
    (fun s l => SuperframeInRange s ∧ ∃ r, l = superframeOctets s r) := by
  have h := DecodesS.checkStart 2 (RDecS.readBind Decodes.u8 fun b0 => RDecS.readBind Decodes.u8
    fun b1 => (RDec.pure (ofOctets b0 b1)).toS)
  refine DecodesS.of (DecodesS.congr h ?_)
  intro s l rest
  constructor
  · rintro ⟨_, b0, l₁, rfl, b1, l₂, rfl, rfl, rfl⟩
    exact ⟨ofOctets_inRange b0 b1, by simpa using ofOctets_octets b0 b1⟩
  · rintro ⟨hr, r, rfl⟩
    have hl : (superframeOctets s r).length = 2 := rfl
    refine ⟨by simp [hl], _, _, rfl, _, _, rfl, ?_, rfl⟩
    exact (ofOctets_of hr (r := r) rfl).symm

theorem needs : Needs SuperframeSpec.tryRead (fun _ => 2) := by
  intro bytes
  match bytes with
  | [] => exact ⟨fun h => absurd h (by simp), fun _ => rfl⟩
  | [_] => exact ⟨fun h => absurd h (by simp), fun _ => rfl⟩
  | b0 :: b1 :: rest =>
    refine ⟨fun _ => ⟨ofOctets b0 b1, ?_⟩, fun h => absurd h (by simp)⟩
    obtain ⟨r, hr⟩ := ofOctets_octets b0 b1
    exact (decodes _ _ _).2 ⟨[b0, b1], rest, rfl, ⟨ofOctets_inRange b0 b1, r, hr⟩, rfl⟩

end SuperframeSpec
end Verif
