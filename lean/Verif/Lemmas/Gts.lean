import Verif.Lemmas.Beacon

/-! # Lemmas: GTS information and whole beacons -/

namespace Verif
open Spec

/-! ## One descriptor -/

namespace GtsDescriptor

theorem pack_eq (s l : UInt8) (hs : s.toNat < 16) (hl : l.toNat < 16) :
    s ||| (l <<< 4) = UInt8.ofNat (s.toNat + 16 * l.toNat) := by
  apply UInt8.toNat_inj.mp
  have e : (l <<< (4 : UInt8)).toNat = l.toNat <<< 4 := by
    rw [UInt8.toNat_shiftLeft]
    have : (4 : UInt8).toNat % 8 = 4 := rfl
    rw [this, Nat.shiftLeft_eq]; omega
  rw [UInt8.toNat_or, e, nat_or_shift _ _ _ (by omega),
    UInt8.toNat_ofNat_of_lt' (by simp [UInt8.size]; omega)]
  omega

theorem writes (d : GtsDescriptor) (h : SlotInRange d) :
    Writes d.tryWrite (.ok ()) (slotOctets d) := by
  refine Writes.of_eq (Writes.run (WSpec.bind (WSpec.write (ShortAddress.writes _))
    (WSpec.write (Writes.u8 _)))) ?_
  rw [pack_eq _ _ h.1 h.2]; rfl

theorem len_toNat (b : UInt8) : (b >>> (4 : UInt8)).toNat = b.toNat / 16 := by
  rw [UInt8.toNat_shiftRight]
  have : (4 : UInt8).toNat % 8 = 4 := rfl
  rw [this, Nat.shiftRight_eq_div_pow]

theorem decodes : Decodes GtsDescriptor.tryRead
    (fun d l => SlotInRange d ∧ d.direction = .receive ∧ l = slotOctets d) := by
  have h := DecodesS.checkStart 3 (RDecS.readBind ShortAddress.decodes fun a =>
    RDecS.readBind Decodes.u8 fun b =>
      (RDec.pure (GtsDescriptor.mk a (b &&& 0x0f) (b >>> 4) .receive)).toS)
  refine DecodesS.of (DecodesS.congr h ?_)
  intro d l rest
  constructor
  · rintro ⟨_, a, l₁, rfl, b, l₂, rfl, rfl, rfl⟩
    have hb := b.toNat_lt
    refine ⟨⟨?_, ?_⟩, rfl, ?_⟩
    · show (b &&& (0x0f : UInt8)).toNat < 16
      rw [SuperframeSpec.lo_toNat]; omega
    · show (b >>> (4 : UInt8)).toNat < 16
      rw [len_toNat]; omega
    · simp only [slotOctets, List.append_nil]
      congr 2
      apply UInt8.toNat_inj.mp
      rw [SuperframeSpec.lo_toNat, len_toNat, UInt8.toNat_ofNat_of_lt' (by simp [UInt8.size]; omega)]
      omega
  · rintro ⟨⟨h1, h2⟩, h3, rfl⟩
    refine ⟨by simp [slotOctets]; omega, d.shortAddress, _, rfl, _, [], rfl, ?_, rfl⟩
    rcases d with ⟨a, s, l, dir⟩
    simp only at h1 h2 h3
    have hv : (UInt8.ofNat (s.toNat + 16 * l.toNat)).toNat = s.toNat + 16 * l.toNat :=
      UInt8.toNat_ofNat_of_lt' (by simp [UInt8.size]; omega)
    simp only [GtsDescriptor.mk.injEq, true_and]
    refine ⟨?_, ?_, h3⟩ <;> apply UInt8.toNat_inj.mp
    · rw [SuperframeSpec.lo_toNat, hv]; omega
    · rw [len_toNat, hv]; omega

theorem needs : Needs GtsDescriptor.tryRead (fun _ => 3) := by
  have h : RNeeds (R.read ShortAddress.tryRead >>= fun a => R.read tryReadU8 >>= fun b =>
      (pure (GtsDescriptor.mk a (b &&& 0x0f) (b >>> 4) .receive) : R _)) (fun _ => 2 + (1 + 0)) :=
    RNeeds.bindFixed (RNeeds.read ShortAddress.needs) fun _ =>
      RNeeds.bindFixed (RNeeds.read Needs.u8) fun _ => RNeeds.pure _
  have h2 := NeedsL.run (RNeedsL.checkHere 3 h.toL)
  intro bytes
  have := h2 bytes
  have e : R.run (R.offset >>= fun off => R.checkLen off 3 >>= fun _ =>
      (R.read ShortAddress.tryRead >>= fun a => R.read tryReadU8 >>= fun b =>
      (pure (GtsDescriptor.mk a (b &&& 0x0f) (b >>> 4) .receive) : R _))) bytes
      = GtsDescriptor.tryRead bytes := rfl
  rw [e] at this
  exact this

end GtsDescriptor

/-! ## The list of slots -/

namespace GtsInfo

/-- Count and active slots fit, and the unused slots are empty. -/
def Shape (g : GtsInfo) : Prop :=
  g.slotCount ≤ 7 ∧ (∀ d ∈ activeSlots g, SlotInRange d) ∧
  g.slots.toList.drop g.slotCount = (List.replicate 7 GtsDescriptor.new).drop g.slotCount

theorem new_shape : Shape GtsInfo.new := by
  refine ⟨by simp [GtsInfo.new], ?_, rfl⟩
  intro d hd
  simp [activeSlots, GtsInfo.new] at hd

theorem directionsValue_lt (ds : List GtsDescriptor) : directionsValue ds < 2 ^ ds.length := by
  induction ds with
  | nil => simp [directionsValue]
  | cons d ds ih =>
    simp only [directionsValue, List.length_cons, Nat.pow_succ]
    split <;> omega

/-- The loop computing the directions octet. -/
theorem mask_spec (slots : Vector GtsDescriptor 7) (m i : Nat) (him : i + m ≤ 7) (dir mask : UInt8)
    (hdir : dir.toNat = 2 ^ i) (hmask : mask.toNat < 2 ^ i) :
    ∃ dir' mask' : UInt8,
      mask'.toNat = mask.toNat + 2 ^ i * directionsValue ((slots.toList.drop i).take m) ∧
      WSpec ((List.range' i m).foldlM (m := W) (fun (x : UInt8 × UInt8) n => do
        let slot ← W.index slots n
        let mask := if slot.directionTransmit then x.2 ||| x.1 else x.2
        pure (x.1 <<< 1, mask)) (dir, mask)) (.ok (dir', mask')) [] := by
  induction m generalizing i dir mask with
  | zero => exact ⟨dir, mask, by simp [directionsValue], WSpec.pure _⟩
  | succ m ih =>
    obtain ⟨d, hd, hidx⟩ := W.index_eq slots i (by omega)
    have hp : 2 ^ i * 2 ≤ 128 := by
      have : 2 ^ i * 2 = 2 ^ (i + 1) := by rw [Nat.pow_succ]
      rw [this]
      calc 2 ^ (i + 1) ≤ 2 ^ 7 := Nat.pow_le_pow_right (by omega) (by omega)
        _ = 128 := rfl
    have hdir2 : (dir <<< 1).toNat = 2 ^ (i + 1) := by
      rw [UInt8.toNat_shiftLeft]
      have : (1 : UInt8).toNat % 8 = 1 := rfl
      rw [this, Nat.shiftLeft_eq, hdir, Nat.pow_succ]; omega
    have hor : (mask ||| dir).toNat = mask.toNat + 2 ^ i := by
      rw [UInt8.toNat_or, hdir]
      have := nat_or_shift mask.toNat 1 i hmask
      rw [Nat.shiftLeft_eq, Nat.one_mul] at this
      exact this
    obtain ⟨hlt, hget⟩ := List.getElem?_eq_some_iff.mp hd
    have hsplit : (slots.toList.drop i).take (m + 1)
        = d :: (slots.toList.drop (i + 1)).take m := by
      rw [List.drop_eq_getElem_cons hlt, hget]; rfl
    have hm2 : (if d.directionTransmit then mask ||| dir else mask).toNat
        = mask.toNat + 2 ^ i * (if d.direction = .transmit then 1 else 0) := by
      unfold GtsDescriptor.directionTransmit
      cases hd : d.direction <;> simp [hor]
    obtain ⟨dir', mask', hval, hspec⟩ := ih (i + 1) (by omega) (dir <<< 1)
      (if d.directionTransmit then mask ||| dir else mask) hdir2 (by
        rw [hm2, Nat.pow_succ]; split <;> omega)
    refine ⟨dir', mask', ?_, ?_⟩
    · rw [hval, hm2, hsplit]
      simp only [directionsValue, Nat.pow_succ]
      split <;> (simp only [Nat.mul_add, Nat.mul_assoc]; omega)
    · rw [List.range'_succ, List.foldlM_cons, hidx]
      exact hspec

theorem headerByte_table : ∀ (p : Bool) (c : Fin 8),
    ((UInt8.ofNat c.val) &&& COUNT_MASK) ||| (if p then PERMIT else 0)
      = UInt8.ofNat (c.val + 128 * bit p) := by decide +kernel

theorem headerByte_eq (g : GtsInfo) (h : g.slotCount ≤ 7) :
    g.headerByte = UInt8.ofNat (g.slotCount + 128 * bit g.permit) :=
  headerByte_table g.permit ⟨g.slotCount, by omega⟩

theorem writes (g : GtsInfo) (hs : Shape g) : Writes g.tryWrite (.ok ()) (gtsOctets g 0 0) := by
  obtain ⟨h1, h2, _⟩ := hs
  by_cases hc : g.slotCount > 0
  · have e : g.tryWrite = W.run (do
        W.write (tryWriteU8 g.headerByte)
        let mask ← g.directionMask
        W.write (tryWriteU8 mask)
        (List.range g.slotCount).forM (m := W) fun n => do
          let slot ← W.index g.slots n
          W.write slot.tryWrite) := by
      unfold tryWrite
      simp only [h1, hc, not_true, if_false, if_true]
    obtain ⟨dir', mask', hval, hspec⟩ := mask_spec g.slots g.slotCount 0 (by omega) 1 0 rfl (by simp)
    have hmask : WSpec g.directionMask (.ok mask') [] := by
      unfold directionMask
      rw [List.range_eq_range']
      exact WSpec.of_eq (WSpec.bind hspec (WSpec.pure _)) rfl
    rw [e]
    refine Writes.of_eq (Writes.run (WSpec.bind (WSpec.write (Writes.u8 _)) (WSpec.bind hmask
      (WSpec.bind (WSpec.write (Writes.u8 _)) (WSpec.forRange g.slots _ _ _ h1
        fun d hd => WSpec.write (GtsDescriptor.writes d (h2 d hd))))))) ?_
    rw [headerByte_eq g h1]
    have hm : mask' = UInt8.ofNat (directionsValue (activeSlots g)) := by
      apply UInt8.toNat_inj.mp
      have hl := directionsValue_lt (activeSlots g)
      have hle : (activeSlots g).length ≤ 7 := by simp [activeSlots]; omega
      have : 2 ^ (activeSlots g).length ≤ 2 ^ 7 := Nat.pow_le_pow_right (by omega) hle
      rw [UInt8.toNat_ofNat_of_lt' (by simp [UInt8.size]; omega), hval]
      simp [activeSlots]
    have hne : g.slotCount ≠ 0 := by omega
    simp [gtsOctets, hne, hm, activeSlots]
  · have hz : g.slotCount = 0 := by omega
    have e : g.tryWrite = W.run (do W.write (tryWriteU8 g.headerByte); pure ()) := by
      unfold tryWrite
      simp only [h1, hc, not_true, if_false]
    rw [e]
    refine Writes.of_eq (Writes.run (WSpec.bind (WSpec.write (Writes.u8 _)) (WSpec.pure ()))) ?_
    rw [headerByte_eq g h1]
    simp [gtsOctets, hz]

/-! ## Reading -/

/-- One step of the reading loop. -/
def readStep (x : UInt8 × Vector GtsDescriptor 7) (n : Nat) :
    R (UInt8 × Vector GtsDescriptor 7) := do
  let slot ← R.read GtsDescriptor.tryRead
  let direction := if x.1 &&& 0b1 == 0b1 then Direction.transmit else Direction.receive
  let slot := slot.setDirection direction
  let slots ← R.setIndex x.2 n slot
  pure (x.1 >>> 1, slots)

theorem readSlots_eq (count : Nat) (mask : UInt8) (slots : Vector GtsDescriptor 7) :
    readSlots count mask slots =
      ((List.range count).foldlM (m := R) readStep (mask, slots) >>= fun x => pure x.2) := rfl

theorem low_bit (b : UInt8) : (b &&& 0b1 == 0b1) = decide (b.toNat % 2 = 1) := by
  have : (b &&& 1).toNat = b.toNat % 2 := by
    rw [UInt8.toNat_and]; exact Nat.and_two_pow_sub_one_eq_mod b.toNat 1
  have h2 : b.toNat % 2 = 0 ∨ b.toNat % 2 = 1 := by omega
  rcases h2 with h | h
  · have e : b &&& 1 = 0 := by apply UInt8.toNat_inj.mp; rw [this, h]; rfl
    rw [e, h]; rfl
  · have e : b &&& 1 = 1 := by apply UInt8.toNat_inj.mp; rw [this, h]; rfl
    rw [e, h]; rfl

theorem shr_one (b : UInt8) : (b >>> (1 : UInt8)).toNat = b.toNat / 2 := by
  rw [UInt8.toNat_shiftRight]
  have : (1 : UInt8).toNat % 8 = 1 := rfl
  rw [this, Nat.shiftRight_eq_div_pow]

/-- Slot with its direction taken from the mask. -/
theorem readStep_eq (mask : UInt8) (slots : Vector GtsDescriptor 7) (i : Nat) (hi : i < 7) :
    readStep (mask, slots) i = (R.read GtsDescriptor.tryRead >>= fun d =>
      pure (mask >>> 1, slots.set i (d.setDirection
        (if mask.toNat % 2 = 1 then .transmit else .receive)) hi)) := by
  unfold readStep
  congr 1; funext d
  show (R.setIndex slots i _ >>= fun s => pure (mask >>> 1, s)) = _
  unfold R.setIndex
  rw [dif_pos hi, low_bit]
  simp only [decide_eq_true_eq]
  rfl

theorem slotOctets_setDirection (d : GtsDescriptor) (x : Direction) :
    slotOctets (d.setDirection x) = slotOctets d := rfl

theorem loop_dec (m i : Nat) (him : i + m ≤ 7) (mask : UInt8) (slots : Vector GtsDescriptor 7) :
    RDec ((List.range' i m).foldlM (m := R) readStep (mask, slots))
      (fun x l => ∃ ds : List GtsDescriptor, ds.length = m ∧ (∀ d ∈ ds, SlotInRange d) ∧
        directionsValue ds = mask.toNat % 2 ^ m ∧ l = ds.flatMap slotOctets ∧
        x.1.toNat = mask.toNat / 2 ^ m ∧
        x.2.toList = slots.toList.take i ++ ds ++ slots.toList.drop (i + m)) := by
  induction m generalizing i mask slots with
  | zero =>
    refine RDec.congr (RDec.pure (mask, slots)) ?_
    rintro ⟨mk, sl⟩ l
    constructor
    · rintro ⟨h, rfl⟩
      simp only [Prod.mk.injEq] at h
      obtain ⟨rfl, rfl⟩ := h
      exact ⟨[], rfl, by simp, by simp [directionsValue, Nat.mod_one], rfl, by simp, by simp⟩
    · rintro ⟨ds, h1, _, _, h4, h5, h6⟩
      rw [List.length_eq_zero_iff] at h1
      subst h1
      simp at h5 h6
      exact ⟨by rw [Prod.mk.injEq]; exact ⟨UInt8.toNat_inj.mp h5, Vector.toList_inj.mp h6⟩, h4⟩
  | succ m ih =>
    rw [List.range'_succ, List.foldlM_cons, readStep_eq _ _ _ (by omega), R.bind_assoc]
    refine RDec.congr (RDec.bind (RDec.read GtsDescriptor.decodes)
      fun d => ih (i + 1) (by omega) (mask >>> 1) _) ?_
    rintro ⟨mk, sl⟩ l
    have hlen : slots.toList.length = 7 := by simp
    have hdiv : mask.toNat / 2 ^ (m + 1) = mask.toNat / 2 / 2 ^ m := by
      rw [Nat.pow_succ, Nat.mul_comm, Nat.div_div_eq_div_mul]
    have hmod : mask.toNat % 2 ^ (m + 1) = mask.toNat % 2 + 2 * (mask.toNat / 2 % 2 ^ m) := by
      rw [Nat.pow_succ, Nat.mul_comm, Nat.mod_mul]
    constructor
    · rintro ⟨d, l₁, l₂, rfl, ⟨hd1, _, rfl⟩, ds, h1, h2, h3, rfl, h5, h6⟩
      refine ⟨d.setDirection (if mask.toNat % 2 = 1 then .transmit else .receive) :: ds,
        by simp [h1], ?_, ?_, ?_, ?_, ?_⟩
      · intro d' hd'
        rcases List.mem_cons.mp hd' with rfl | h
        · exact hd1
        · exact h2 _ h
      · rw [hmod, directionsValue, h3, shr_one]
        have : mask.toNat % 2 = 0 ∨ mask.toNat % 2 = 1 := by omega
        rcases this with h | h <;> rw [h] <;> simp [GtsDescriptor.setDirection]
      · rw [List.flatMap_cons, slotOctets_setDirection]
      · rw [h5, shr_one, hdiv]
      · rw [h6, Vector.toList_set, vec_set_take _ _ _ (by omega), vec_set_drop _ _ _ _ (by omega)]
        simp; congr 1; omega
    · rintro ⟨ds, h1, h2, h3, rfl, h5, h6⟩
      match ds, h1 with
      | d :: ds, h1 =>
        have hv := directionsValue_lt ds
        have hl : ds.length = m := by simpa using h1
        simp only [directionsValue] at h3
        rw [hmod] at h3
        have hpar : (if d.direction = .transmit then 1 else 0) = mask.toNat % 2 := by
          by_cases hd : d.direction = .transmit
          · rw [if_pos hd] at h3 ⊢; omega
          · rw [if_neg hd] at h3 ⊢; omega
        have hrec : directionsValue ds = mask.toNat / 2 % 2 ^ m := by
          rw [hpar] at h3; omega
        have hdir : d.direction = (if mask.toNat % 2 = 1 then .transmit else .receive) := by
          rw [← hpar]; cases d.direction <;> rfl
        refine ⟨d.setDirection .receive, slotOctets d, ds.flatMap slotOctets, by simp,
          ⟨h2 d (by simp), rfl, rfl⟩, ds, hl, fun d' hd' => h2 d' (by simp [hd']), ?_, rfl, ?_, ?_⟩
        · rw [shr_one]; exact hrec
        · rw [shr_one, ← hdiv]; exact h5
        · have e : (d.setDirection .receive).setDirection
              (if mask.toNat % 2 = 1 then .transmit else .receive) = d := by
            rw [← hdir]; rfl
          rw [h6, Vector.toList_set, e, vec_set_take _ _ _ (by omega),
            vec_set_drop _ _ _ _ (by omega)]
          simp; congr 1; omega

theorem loop_needs (m i : Nat) (him : i + m ≤ 7) (mask : UInt8) (slots : Vector GtsDescriptor 7) :
    RNeeds ((List.range' i m).foldlM (m := R) readStep (mask, slots)) (fun _ => 3 * m) := by
  induction m generalizing i mask slots with
  | zero => exact RNeeds.pure _
  | succ m ih =>
    rw [List.range'_succ, List.foldlM_cons, readStep_eq _ _ _ (by omega), R.bind_assoc]
    refine RNeeds.congr (RNeeds.bindFixed (RNeeds.read GtsDescriptor.needs)
      fun d => ih (i + 1) (by omega) (mask >>> 1) _) ?_
    intro _; omega

theorem count_table : ∀ n : Fin 256,
    (UInt8.ofNat n.val &&& COUNT_MASK).toNat = (UInt8.ofNat n.val).toNat % 8 ∧
    ((UInt8.ofNat n.val &&& PERMIT) == PERMIT) = decide ((UInt8.ofNat n.val).toNat / 128 = 1) := by
  decide +kernel

theorem count_eq (b : UInt8) : (b &&& COUNT_MASK).toNat = b.toNat % 8 :=
  (forall_u8 (fun b => (b &&& COUNT_MASK).toNat = b.toNat % 8 ∧
    ((b &&& PERMIT) == PERMIT) = decide (b.toNat / 128 = 1)) count_table b).1
theorem permit_eq (b : UInt8) : ((b &&& PERMIT) == PERMIT) = decide (b.toNat / 128 = 1) :=
  (forall_u8 (fun b => (b &&& COUNT_MASK).toNat = b.toNat % 8 ∧
    ((b &&& PERMIT) == PERMIT) = decide (b.toNat / 128 = 1)) count_table b).2

/-- What follows the count octet. -/
def readRest (c : Nat) (permit : Bool) : R GtsInfo :=
  if c > 0 then do
    let off ← R.offset
    R.checkLen off (2 + (3 * c))
    let mask ← R.read tryReadU8
    let x ← (List.range' 0 c).foldlM (m := R) readStep
      (mask, Vector.replicate 7 GtsDescriptor.new)
    pure { permit, slotCount := c, slots := x.2 }
  else
    pure { permit, slotCount := c, slots := Vector.replicate 7 GtsDescriptor.new }

theorem tryRead_eq : GtsInfo.tryRead = R.run (do
    let byte ← R.read tryReadU8
    readRest (byte.toNat % 8) (decide (byte.toNat / 128 = 1))) := by
  have : ∀ byte : UInt8, readRest (byte.toNat % 8) (decide (byte.toNat / 128 = 1)) =
      readRest (byte &&& COUNT_MASK).toNat ((byte &&& PERMIT) == PERMIT) := by
    intro b; rw [count_eq, permit_eq]
  simp only [this]
  unfold GtsInfo.tryRead
  refine congrArg R.run ?_
  refine congrArg (fun f => R.read tryReadU8 >>= f) ?_
  funext b
  unfold readRest
  rw [← List.range_eq_range']
  by_cases hc : (b &&& COUNT_MASK).toNat > 0
  · simp only [hc, if_true, readSlots_eq, R.bind_assoc]
    rfl
  · simp only [hc, if_false]

/-- The value and its octets, in exact correspondence; one more octet must follow the slots. -/
def OnWire (g : GtsInfo) (l s : List UInt8) : Prop :=
  Shape g ∧ (g.slotCount > 0 → s ≠ []) ∧
  ∃ r < 16, ∃ q < 2 ^ (8 - g.slotCount), l = gtsOctets g r q

theorem flatMap_slots_length (ds : List GtsDescriptor) :
    (ds.flatMap slotOctets).length = 3 * ds.length :=
  PendingAddress.flatMap_length _ _ 3 (fun a => by simp [slotOctets])

theorem pow_split (c : Nat) (h : c ≤ 7) : 2 ^ c * 2 ^ (8 - c) = 256 := by
  rw [← Nat.pow_add]
  have : c + (8 - c) = 8 := by omega
  rw [this]

theorem decodes : DecodesS GtsInfo.tryRead OnWire := by
  rw [tryRead_eq]
  have hrest : ∀ (c : Nat) (permit : Bool), c ≤ 7 → RDecS (readRest c permit)
      (fun g l s => (c = 0 → g = ⟨permit, 0, Vector.replicate 7 GtsDescriptor.new⟩ ∧ l = []) ∧
        (c > 0 → 2 + 3 * c ≤ (l ++ s).length ∧ ∃ (mask : UInt8) (l₂ : List UInt8), l = [mask] ++ l₂ ∧
          ∃ x : UInt8 × Vector GtsDescriptor 7, ∃ l₃ l₄, l₂ = l₃ ++ l₄ ∧
          (∃ ds : List GtsDescriptor, ds.length = c ∧ (∀ d ∈ ds, SlotInRange d) ∧
            directionsValue ds = mask.toNat % 2 ^ c ∧ l₃ = ds.flatMap slotOctets ∧
            x.1.toNat = mask.toNat / 2 ^ c ∧
            x.2.toList = (Vector.replicate 7 GtsDescriptor.new).toList.take 0 ++ ds ++
              (Vector.replicate 7 GtsDescriptor.new).toList.drop (0 + c)) ∧
          (g = ⟨permit, c, x.2⟩ ∧ l₄ = []))) := by
    intro c permit hc7
    unfold readRest
    by_cases hc : c > 0
    · rw [if_pos hc]
      refine RDecS.congr (RDecS.checkHere _ (RDecS.readBind Decodes.u8 fun mask =>
        RDec.toS (RDec.bind (loop_dec c 0 (by omega) mask _) fun x => RDec.pure _))) ?_
      intro g l s
      constructor
      · intro h; exact ⟨fun h0 => by omega, fun _ => h⟩
      · intro h; exact h.2 hc
    · have hz : c = 0 := by omega
      subst hz
      rw [if_neg hc]
      refine RDecS.congr (RDec.pure _).toS ?_
      intro g l s
      constructor
      · intro h; exact ⟨fun _ => h, fun h' => by omega⟩
      · intro h; exact h.1 rfl
  have h := DecodesS.run (RDecS.readBind Decodes.u8 fun b =>
    hrest (b.toNat % 8) (decide (b.toNat / 128 = 1)) (by omega))
  refine DecodesS.congr h ?_
  intro g l s
  have hbit : ∀ k, k < 2 → bit (decide (k = 1)) = k := by
    intro k hk
    have : k = 0 ∨ k = 1 := by omega
    rcases this with rfl | rfl <;> rfl
  constructor
  · rintro ⟨b, l₁, rfl, h0, h1⟩
    have hb := b.toNat_lt
    by_cases hc : b.toNat % 8 = 0
    · obtain ⟨rfl, rfl⟩ := h0 hc
      refine ⟨?_, fun h => absurd h (by simp), b.toNat / 8 % 16, by omega, 0, Nat.pow_pos (by omega), ?_⟩
      · refine ⟨by simp, ?_, by simp⟩
        intro d hd; simp [activeSlots] at hd
      · simp only [gtsOctets, if_true, List.append_nil]
        congr 1
        apply UInt8.toNat_inj.mp
        rw [hbit _ (by omega), UInt8.toNat_ofNat_of_lt' (by simp [UInt8.size]; omega)]
        omega
    · obtain ⟨hlen, mask, l₂, rfl, x, l₃, l₄, rfl, ⟨ds, d1, d2, d3, rfl, _, d6⟩, rfl, rfl⟩ :=
        h1 (by omega)
      simp only [List.take_zero, List.nil_append, Nat.zero_add] at d6
      have hact : activeSlots ⟨decide (b.toNat / 128 = 1), b.toNat % 8, x.2⟩ = ds := by
        simp only [activeSlots, d6]; rw [← d1]; simp
      have hp := pow_split (b.toNat % 8) (by omega)
      have hm := mask.toNat_lt
      refine ⟨⟨by simp; omega, ?_, ?_⟩, ?_, b.toNat / 8 % 16, by omega, mask.toNat / 2 ^ (b.toNat % 8), ?_, ?_⟩
      · rw [hact]; exact d2
      · simp only [d6]
        rw [← d1]; simp
      · rintro _ rfl
        simp only [List.append_nil, List.length_append, flatMap_slots_length, List.length_cons,
          List.length_nil, d1] at hlen
        omega
      · rw [Nat.div_lt_iff_lt_mul (Nat.pow_pos (by omega)), Nat.mul_comm, hp]; exact hm
      · simp only [gtsOctets, hact, if_neg hc]
        have e1 : UInt8.ofNat (b.toNat % 8 + 8 * (b.toNat / 8 % 16) +
            128 * bit (decide (b.toNat / 128 = 1))) = b := by
          apply UInt8.toNat_inj.mp
          rw [hbit _ (by omega), UInt8.toNat_ofNat_of_lt' (by simp [UInt8.size]; omega)]
          omega
        have e2 : UInt8.ofNat (directionsValue ds + 2 ^ (b.toNat % 8) *
            (mask.toNat / 2 ^ (b.toNat % 8))) = mask := by
          rw [d3, Nat.mod_add_div]; simp
        rw [e1, e2]; simp
  · rintro ⟨⟨h1, h2, h3⟩, h4, r, hr, q, hq, rfl⟩
    have hp := pow_split g.slotCount h1
    have ep := Header.bit_lt g.permit
    have hb : (UInt8.ofNat (g.slotCount + 8 * r + 128 * bit g.permit)).toNat
        = g.slotCount + 8 * r + 128 * bit g.permit :=
      UInt8.toNat_ofNat_of_lt' (by simp [UInt8.size]; omega)
    have c1 : (g.slotCount + 8 * r + 128 * bit g.permit) % 8 = g.slotCount := by omega
    have c2 : decide ((g.slotCount + 8 * r + 128 * bit g.permit) / 128 = 1) = g.permit := by
      have : (g.slotCount + 8 * r + 128 * bit g.permit) / 128 = bit g.permit := by omega
      rw [this]; cases g.permit <;> rfl
    refine ⟨_, _, rfl, ?_, ?_⟩
    · rw [hb, c1, c2]
      intro hz
      rw [if_pos hz]
      refine ⟨?_, rfl⟩
      rcases g with ⟨p, c, sl⟩
      simp only at hz h3
      subst hz
      simp only [GtsInfo.mk.injEq, true_and]
      apply Vector.toList_inj.mp
      simpa using h3
    · rw [hb, c1, c2]
      intro hc
      have hne : g.slotCount ≠ 0 := by omega
      rw [if_neg hne]
      have hal : (activeSlots g).length = g.slotCount := by simp [activeSlots]; omega
      have hdv := directionsValue_lt (activeSlots g)
      rw [hal] at hdv
      have hmaskv : directionsValue (activeSlots g) + 2 ^ g.slotCount * q < 256 := by
        have : 2 ^ g.slotCount * (q + 1) ≤ 2 ^ g.slotCount * 2 ^ (8 - g.slotCount) :=
          Nat.mul_le_mul_left _ hq
        rw [hp, Nat.mul_add] at this
        omega
      have hmk : (UInt8.ofNat (directionsValue (activeSlots g) + 2 ^ g.slotCount * q)).toNat
          = directionsValue (activeSlots g) + 2 ^ g.slotCount * q :=
        UInt8.toNat_ofNat_of_lt' (by simpa [UInt8.size] using hmaskv)
      refine ⟨?_, _, _, rfl, (UInt8.ofNat (q), g.slots), _, [], (by simp), ⟨activeSlots g, hal, h2, ?_, rfl,
        ?_, ?_⟩, rfl, rfl⟩
      · have hs := h4 hc
        have : 0 < s.length := List.length_pos_iff.mpr hs
        simp only [List.length_append, flatMap_slots_length, hal, List.length_cons, List.length_nil]
        omega
      · rw [hmk, Nat.add_mul_mod_self_left, Nat.mod_eq_of_lt hdv]
      · rw [hmk, Nat.add_mul_div_left _ _ (Nat.pow_pos (by omega)), Nat.div_eq_of_lt hdv]
        have : q < 256 := Nat.lt_of_lt_of_le hq (by
          calc 2 ^ (8 - g.slotCount) ≤ 2 ^ 8 := Nat.pow_le_pow_right (by omega) (by omega)
            _ = 256 := rfl)
        rw [UInt8.toNat_ofNat_of_lt' (by simpa [UInt8.size] using this)]; omega
      · simp only [List.take_zero, List.nil_append, Nat.zero_add, Vector.toList_replicate]
        rw [← h3]; simp [activeSlots]

theorem needs : NeedsL GtsInfo.tryRead gtsRequired gtsLength := by
  rw [tryRead_eq]
  refine NeedsL.run ?_
  intro pre rest
  cases rest with
  | nil =>
    refine ⟨fun h => absurd h (by simp [gtsRequired]), fun _ => ?_⟩
    rw [R.bind_apply]
    have := (RNeeds.read Needs.u8 pre []).2 (by simp)
    rw [this]
  | cons b rest =>
    have h0 : R.read tryReadU8 (pre ++ b :: rest) pre.length = .ok (b, (pre ++ [b]).length) :=
      (RDec.read Decodes.u8 _ _ _ _).2 ⟨[b], rest, rfl, rfl, by simp⟩
    rw [R.bind_apply, h0]
    have e1 : pre ++ b :: rest = (pre ++ [b]) ++ rest := by simp
    simp only
    rw [e1]
    unfold readRest
    by_cases hc : b.toNat % 8 = 0
    · simp only [gtsRequired, gtsLength, hc, if_true]
      refine ⟨fun _ => ⟨⟨decide (b.toNat / 128 = 1), 0, Vector.replicate 7 GtsDescriptor.new⟩, ?_⟩,
        fun h => absurd h (by simp)⟩
      rw [if_neg (by simp)]
      simp only [List.length_append, List.length_cons, List.length_nil]
      rfl
    · rw [if_pos (by omega)]
      have := RNeedsL.checkHere (2 + (3 * (b.toNat % 8)))
        (f := R.read tryReadU8 >>= fun mask => (List.range' 0 (b.toNat % 8)).foldlM (m := R) readStep
          (mask, Vector.replicate 7 GtsDescriptor.new) >>= fun x =>
          pure (GtsInfo.mk (decide (b.toNat / 128 = 1)) (b.toNat % 8) x.2))
        (RNeeds.toL (RNeeds.bindFixed (RNeeds.read Needs.u8) fun mask =>
          RNeeds.bindFixed (loop_needs (b.toNat % 8) 0 (by omega) mask _) fun x => RNeeds.pure _))
        (pre ++ [b]) rest
      simp only [gtsRequired, gtsLength, hc, if_false, List.length_cons, List.length_append,
        List.length_nil] at this ⊢
      constructor
      · intro hl
        obtain ⟨a, ha⟩ := this.1 (by omega)
        exact ⟨a, by rw [ha]; congr 2; omega⟩
      · intro hl
        exact this.2 (by omega)

end GtsInfo

/-! ## Beacon -/

namespace Beacon

/-- A beacon and its octets, in exact correspondence. -/
def OnWire (b : Beacon) (l : List UInt8) : Prop :=
  SuperframeInRange b.superframeSpec ∧ GtsInfo.Shape b.gtsInfo ∧ PendingAddress.Shape b.pendingAddress ∧
  ∃ b13, ∃ r < 16, ∃ q < 2 ^ (8 - b.gtsInfo.slotCount), ∃ r3 r7,
    l = superframeOctets b.superframeSpec b13 ++ gtsOctets b.gtsInfo r q
      ++ pendingOctets b.pendingAddress r3 r7

theorem pendingOctets_ne (p : PendingAddress) (r3 r7 : Bool) : pendingOctets p r3 r7 ≠ [] := by
  simp [pendingOctets]

theorem decodes : Decodes Beacon.tryRead OnWire := by
  have h := DecodesS.run (RDecS.bind (RDecS.read SuperframeSpec.decodes.toS) fun s =>
    RDecS.bind (RDecS.read GtsInfo.decodes) fun g =>
    RDecS.bind (RDecS.read PendingAddress.decodes.toS) fun p =>
      (RDec.pure (Beacon.mk s g p)).toS)
  refine DecodesS.of (DecodesS.congr h ?_)
  intro b l rest
  constructor
  · rintro ⟨s, l₁, l₂, rfl, ⟨hs, b13, rfl⟩, g, l₃, l₄, rfl, ⟨hg, _, r, hr, q, hq, rfl⟩, p, l₅, l₆, rfl,
      ⟨hp, r3, r7, rfl⟩, rfl, rfl⟩
    exact ⟨hs, hg, hp, b13, r, hr, q, hq, r3, r7, by simp⟩
  · rintro ⟨hs, hg, hp, b13, r, hr, q, hq, r3, r7, rfl⟩
    refine ⟨b.superframeSpec, _, _, by rw [List.append_assoc], ⟨hs, b13, rfl⟩, b.gtsInfo, _, _, rfl,
      ⟨hg, ?_, r, hr, q, hq, rfl⟩, b.pendingAddress, _, [], (by simp), ⟨hp, r3, r7, rfl⟩, rfl, rfl⟩
    intro _
    simp [pendingOctets_ne]

theorem writes (b : Beacon) (hg : GtsInfo.Shape b.gtsInfo) (hp : PendingAddress.Shape b.pendingAddress) :
    Writes b.tryWrite (.ok ()) (beaconOctets b) := by
  refine Writes.of_eq (Writes.run (WSpec.bind (WSpec.write (SuperframeSpec.writes _))
    (WSpec.bind (WSpec.write (GtsInfo.writes _ hg)) (WSpec.write (PendingAddress.writes _ hp.1 hp.2.1))))) ?_
  simp [beaconOctets]

theorem pendingLength_pos (l : List UInt8) : 1 ≤ pendingLength l := by
  cases l <;> simp [pendingLength]; omega

theorem gts_le (l : List UInt8) : gtsLength l ≤ gtsRequired l ∧ gtsRequired l ≤ gtsLength l + 1 := by
  cases l with
  | nil => simp [gtsLength, gtsRequired]
  | cons b l => simp only [gtsLength, gtsRequired]; split <;> omega

theorem needs : Needs Beacon.tryRead beaconLength := by
  have h := RNeedsL.bind (RNeeds.read SuperframeSpec.needs).toL (fun _ => Nat.le_refl _) fun s =>
    RNeedsL.bind (RNeedsL.read GtsInfo.needs) (fun l => (gts_le l).1) fun g =>
    RNeedsL.bind (RNeeds.read PendingAddress.needs).toL (fun _ => Nat.le_refl _) fun p =>
      RNeedsL.pure (Beacon.mk s g p)
  refine NeedsL.run (RNeedsL.congr h ?_ ?_)
  · intro l
    simp only [beaconLength, List.drop_drop]
    have := gts_le (l.drop 2)
    have := pendingLength_pos (l.drop (2 + gtsLength (l.drop 2)))
    omega
  · intro l
    simp only [beaconLength, List.drop_drop]
    omega

end Beacon
end Verif
