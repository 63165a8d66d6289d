import Verif.Lemmas.Superframe
import Verif.Spec.BeaconSpec

/-! # Lemmas: GTS information, pending addresses, beacon -/

namespace Verif
open Spec

/-! ## Loops over seven-element arrays -/

theorem flatMap_range {α : Type} (l : List α) (enc : α → List UInt8) (m : Nat) :
    (List.range m).flatMap (fun n => (l[n]?.map enc).getD []) = (l.take m).flatMap enc := by
  induction m with
  | zero => rfl
  | succ m ih =>
    rw [List.range_succ, List.flatMap_append, ih, List.take_add_one, List.flatMap_append]
    congr 1
    cases h : l[m]? <;> simp [h]

theorem W.index_eq {α : Type} (arr : Vector α 7) (n : Nat) (h : n < 7) :
    ∃ a, arr.toList[n]? = some a ∧ W.index arr n = pure a := by
  refine ⟨arr[n], ?_, ?_⟩
  · simp [h]
  · unfold W.index; simp [h]

theorem WSpec.forRange {α : Type} (arr : Vector α 7) (f : α → W Unit) (enc : α → List UInt8) (m : Nat)
    (hm : m ≤ 7) (h : ∀ a ∈ arr.toList.take m, WSpec (f a) (.ok ()) (enc a)) :
    WSpec ((List.range m).forM (m := W) fun n => W.index arr n >>= f) (.ok ())
      ((arr.toList.take m).flatMap enc) := by
  rw [← flatMap_range]
  refine WSpec.forM _ _ _ ?_
  intro n hn
  rw [List.mem_range] at hn
  obtain ⟨a, ha, hi⟩ := W.index_eq arr n (by omega)
  rw [ha]
  have hmem : a ∈ arr.toList.take m := by
    rw [List.mem_take_iff_getElem]
    obtain ⟨hlt, he⟩ := List.getElem?_eq_some_iff.mp ha
    exact ⟨n, by omega, he⟩
  have : W.index arr n >>= f = f a := by rw [hi]; rfl
  simp only [this, Option.map_some, Option.getD_some]
  exact h a hmem

theorem vec_set_take {α : Type} (l : List α) (i : Nat) (a : α) (h : i < l.length) :
    (l.set i a).take (i + 1) = l.take i ++ [a] := by
  rw [List.take_add_one, List.take_set_of_le (Nat.le_refl i)]
  simp [h]

theorem vec_set_drop {α : Type} (l : List α) (i k : Nat) (a : α) (h : i < k) :
    (l.set i a).drop k = l.drop k := by
  rw [List.drop_set]; simp [h]

/-- `for n in i..i+m { arr[n] = bytes.read(offset)?; }` -/
theorem readLoop_dec {α : Type} {tr : TryRead α} {enc : α → List UInt8}
    (h : Decodes tr (fun v l => l = enc v)) (m i : Nat) (him : i + m ≤ 7) (arr : Vector α 7) :
    RDec ((List.range' i m).foldlM (m := R) (fun arr n => do
        let a ← R.read tr
        R.setIndex arr n a) arr)
      (fun arr' l => ∃ as : List α, as.length = m ∧ l = as.flatMap enc ∧
        arr'.toList = arr.toList.take i ++ as ++ arr.toList.drop (i + m)) := by
  induction m generalizing i arr with
  | zero =>
    refine RDec.congr (RDec.pure arr) ?_
    intro arr' l
    constructor
    · rintro ⟨rfl, rfl⟩; exact ⟨[], rfl, rfl, by simp⟩
    · rintro ⟨as, h1, h2, h3⟩
      rw [List.length_eq_zero_iff] at h1
      subst h1
      simp at h3
      exact ⟨Vector.toList_inj.mp h3, h2⟩
  | succ m ih =>
    rw [List.range'_succ]
    have hset : ∀ a, R.setIndex arr i a = pure (arr.set i a (by omega)) := by
      intro a; unfold R.setIndex; rw [dif_pos (by omega)]
    have hstep : (R.read tr >>= fun a => R.setIndex arr i a)
        = (R.read tr >>= fun a => pure (arr.set i a (by omega))) := by
      congr 1; funext a; exact hset a
    have e : (List.foldlM (m := R) (fun arr n => do
        let a ← R.read tr
        R.setIndex arr n a) arr (i :: List.range' (i + 1) m)) =
        (R.read tr >>= fun a => (List.range' (i + 1) m).foldlM (m := R) (fun arr n => do
          let a ← R.read tr
          R.setIndex arr n a) (arr.set i a (by omega))) := by
      rw [List.foldlM_cons, hstep, R.bind_assoc]; rfl
    rw [e]
    refine RDec.congr (RDec.readBind h fun a => ih (i + 1) (by omega) _) ?_
    intro arr' l
    have hlen : arr.toList.length = 7 := by simp
    constructor
    · rintro ⟨a, l₂, rfl, as, h1, rfl, h3⟩
      refine ⟨a :: as, by simp [h1], by simp, ?_⟩
      rw [h3, Vector.toList_set, vec_set_take _ _ _ (by omega), vec_set_drop _ _ _ _ (by omega)]
      simp; congr 1; omega
    · rintro ⟨as, h1, rfl, h3⟩
      match as, h1 with
      | a :: as, h1 =>
        refine ⟨a, as.flatMap enc, by simp, as, by simpa using h1, rfl, ?_⟩
        rw [h3, Vector.toList_set, vec_set_take _ _ _ (by omega), vec_set_drop _ _ _ _ (by omega)]
        simp; congr 1; omega

theorem readLoop_needs {α : Type} {tr : TryRead α} {k : Nat}
    (h : Needs tr (fun _ => k)) (m i : Nat) (him : i + m ≤ 7) (arr : Vector α 7) :
    RNeeds ((List.range' i m).foldlM (m := R) (fun arr n => do
        let a ← R.read tr
        R.setIndex arr n a) arr) (fun _ => k * m) := by
  induction m generalizing i arr with
  | zero => exact RNeeds.pure arr
  | succ m ih =>
    rw [List.range'_succ, List.foldlM_cons]
    refine RNeeds.congr (RNeeds.bindFixed (k := k) (m := k * m) ?_ fun a => ih (i + 1) (by omega) _) ?_
    · show RNeeds (R.read tr >>= fun a => R.setIndex arr i a) (fun _ => k)
      refine RNeeds.congr (RNeeds.bindFixed (k := k) (m := 0) (RNeeds.read h) fun a => ?_) ?_
      · unfold R.setIndex; rw [dif_pos (by omega)]; exact RNeeds.pure _
      · intro _; rfl
    · intro _; rw [Nat.mul_succ]; omega

/-! ## Pending addresses -/

namespace PendingAddress

/-- Counts fit, and the unused entries are the broadcast address. -/
def Shape (p : PendingAddress) : Prop :=
  p.shortCount ≤ 7 ∧ p.extendedCount ≤ 7 ∧
  p.shorts.toList.drop p.shortCount
    = (List.replicate 7 ShortAddress.broadcast).drop p.shortCount ∧
  p.extendeds.toList.drop p.extendedCount
    = (List.replicate 7 ExtendedAddress.broadcast).drop p.extendedCount

theorem new_shape : Shape PendingAddress.new := by
  refine ⟨by simp [PendingAddress.new], by simp [PendingAddress.new], ?_, ?_⟩ <;> rfl

theorem headerByte_table : ∀ s e : Fin 8,
    ((UInt8.ofNat e.val <<< 4) &&& EXTENDED_MASK) ||| (UInt8.ofNat s.val &&& SHORT_MASK)
      = UInt8.ofNat (s.val + 16 * e.val) := by decide +kernel

theorem headerByte_eq (p : PendingAddress) (h1 : p.shortCount ≤ 7) (h2 : p.extendedCount ≤ 7) :
    p.headerByte = UInt8.ofNat (p.shortCount + 16 * p.extendedCount) :=
  headerByte_table ⟨p.shortCount, by omega⟩ ⟨p.extendedCount, by omega⟩

theorem writes (p : PendingAddress) (h1 : p.shortCount ≤ 7) (h2 : p.extendedCount ≤ 7) :
    Writes p.tryWrite (.ok ()) (pendingOctets p false false) := by
  have e : p.tryWrite = W.run (do
      W.write (tryWriteU8 p.headerByte)
      (List.range p.shortCount).forM (m := W) fun n => do
        let addr ← W.index p.shorts n
        W.write (ShortAddress.tryWrite addr)
      (List.range p.extendedCount).forM (m := W) fun n => do
        let addr ← W.index p.extendeds n
        W.write (ExtendedAddress.tryWrite addr)) := by
    unfold tryWrite
    simp only [h1, h2, not_true, if_false]
  rw [e]
  refine Writes.of_eq (Writes.run (WSpec.bind (WSpec.write (Writes.u8 _))
    (WSpec.bind (WSpec.forRange p.shorts _ _ _ h1 fun a _ => WSpec.write (ShortAddress.writes a))
      (WSpec.forRange p.extendeds _ _ _ h2 fun a _ => WSpec.write (ExtendedAddress.writes a))))) ?_
  rw [headerByte_eq p h1 h2]
  simp [pendingOctets, bit]

theorem count_table : ∀ n : Fin 256,
    (UInt8.ofNat n.val &&& SHORT_MASK).toNat = (UInt8.ofNat n.val).toNat % 8 ∧
    ((UInt8.ofNat n.val &&& EXTENDED_MASK) >>> 4).toNat = (UInt8.ofNat n.val).toNat / 16 % 8 := by
  decide +kernel

theorem short_count (b : UInt8) : (b &&& SHORT_MASK).toNat = b.toNat % 8 :=
  (forall_u8 (fun b => (b &&& SHORT_MASK).toNat = b.toNat % 8 ∧
    ((b &&& EXTENDED_MASK) >>> 4).toNat = b.toNat / 16 % 8) count_table b).1
theorem ext_count (b : UInt8) : ((b &&& EXTENDED_MASK) >>> 4).toNat = b.toNat / 16 % 8 :=
  (forall_u8 (fun b => (b &&& SHORT_MASK).toNat = b.toNat % 8 ∧
    ((b &&& EXTENDED_MASK) >>> 4).toNat = b.toNat / 16 % 8) count_table b).2

/-- What follows the count octet. -/
def readRest (sl el : Nat) : R PendingAddress := do
  let shorts ← readLoop ShortAddress.tryRead sl (Vector.replicate 7 ShortAddress.broadcast)
  let extendeds ← readLoop ExtendedAddress.tryRead el
    (Vector.replicate 7 ExtendedAddress.broadcast)
  pure { shortCount := sl, shorts, extendedCount := el, extendeds }

theorem tryRead_eq : PendingAddress.tryRead = R.run (do
    let byte ← R.read tryReadU8
    let off ← R.offset
    R.checkLen off (((byte &&& SHORT_MASK).toNat * 2) + (((byte &&& EXTENDED_MASK) >>> 4).toNat * 8))
    readRest (byte &&& SHORT_MASK).toNat ((byte &&& EXTENDED_MASK) >>> 4).toNat) := rfl

theorem octets_split (b : UInt8) : ∃ r3 r7, b = UInt8.ofNat
    (b.toNat % 8 + 8 * bit r3 + 16 * (b.toNat / 16 % 8) + 128 * bit r7) := by
  refine ⟨decide (b.toNat / 8 % 2 = 1), decide (b.toNat / 128 % 2 = 1), ?_⟩
  have hb : ∀ k, bit (decide (k % 2 = 1)) = k % 2 := by
    intro k
    have : k % 2 = 0 ∨ k % 2 = 1 := by omega
    rcases this with h | h <;> rw [h] <;> rfl
  have hlt := b.toNat_lt
  apply UInt8.toNat_inj.mp
  rw [hb, hb, UInt8.toNat_ofNat_of_lt' (by simp [UInt8.size]; omega)]
  omega

theorem flatMap_length {α : Type} (l : List α) (f : α → List UInt8) (k : Nat)
    (h : ∀ a, (f a).length = k) : (l.flatMap f).length = k * l.length := by
  induction l with
  | nil => simp
  | cons a l ih => rw [List.flatMap_cons, List.length_append, ih, h, List.length_cons, Nat.mul_succ]; omega

theorem decodes : Decodes PendingAddress.tryRead
    (fun p l => Shape p ∧ ∃ r3 r7, l = pendingOctets p r3 r7) := by
  rw [tryRead_eq]
  have h := DecodesS.run (RDecS.readBind Decodes.u8 fun b =>
    RDecS.checkHere (((b &&& SHORT_MASK).toNat * 2) + (((b &&& EXTENDED_MASK) >>> 4).toNat * 8))
      (f := readRest (b &&& SHORT_MASK).toNat ((b &&& EXTENDED_MASK) >>> 4).toNat)
      (RDec.toS (RDec.bind
        (by unfold readLoop; rw [List.range_eq_range']
            exact readLoop_dec ShortAddress.decodes _ 0 (by rw [short_count]; omega) _)
        fun shorts => RDec.bind
          (by unfold readLoop; rw [List.range_eq_range']
              exact readLoop_dec ExtendedAddress.decodes _ 0 (by rw [ext_count]; omega) _)
          fun exts => RDec.pure _)))
  refine DecodesS.of (DecodesS.congr h ?_)
  intro p l rest
  simp only [short_count, ext_count]
  constructor
  · rintro ⟨b, l₁, rfl, hlen, sh, l₂, l₃, rfl, ⟨as, ha1, rfl, ha2⟩, ex, l₄, l₅, rfl,
      ⟨bs, hb1, rfl, hb2⟩, rfl, rfl⟩
    simp only [Nat.zero_add, List.take_zero, List.nil_append] at ha2 hb2
    refine ⟨⟨by simp; omega, by simp; omega, ?_, ?_⟩, ?_⟩
    · simp only [ha2]; rw [← ha1]; simp
    · simp only [hb2]; rw [← hb1]; simp
    · obtain ⟨r3, r7, hb⟩ := octets_split b
      refine ⟨r3, r7, ?_⟩
      unfold pendingOctets
      simp only [ha2, hb2]
      rw [← hb, ← ha1, ← hb1]
      simp
  · rintro ⟨⟨h1, h2, h3, h4⟩, r3, r7, rfl⟩
    have e3 := Header.bit_lt r3
    have e7 := Header.bit_lt r7
    have hb : (UInt8.ofNat (p.shortCount + 8 * bit r3 + 16 * p.extendedCount + 128 * bit r7)).toNat
        = p.shortCount + 8 * bit r3 + 16 * p.extendedCount + 128 * bit r7 :=
      UInt8.toNat_ofNat_of_lt' (by simp [UInt8.size]; omega)
    have c1 : (p.shortCount + 8 * bit r3 + 16 * p.extendedCount + 128 * bit r7) % 8 = p.shortCount := by
      omega
    have c2 : (p.shortCount + 8 * bit r3 + 16 * p.extendedCount + 128 * bit r7) / 16 % 8
        = p.extendedCount := by omega
    have l1 : (p.shorts.toList.take p.shortCount).length = p.shortCount := by simp; omega
    have l2 : (p.extendeds.toList.take p.extendedCount).length = p.extendedCount := by simp; omega
    refine ⟨_, _, by unfold pendingOctets; rw [List.append_assoc], ?_, p.shorts, _, _, rfl,
      ⟨p.shorts.toList.take p.shortCount, ?_, rfl, ?_⟩, p.extendeds, _, [], (by simp),
      ⟨p.extendeds.toList.take p.extendedCount, ?_, rfl, ?_⟩, ?_, rfl⟩
    · rw [hb, c1, c2, List.length_append, List.length_append,
        flatMap_length _ _ 2 (fun a => le_length 2 _), flatMap_length _ _ 8 (fun a => le_length 8 _),
        l1, l2]
      omega
    · rw [hb, c1, l1]
    · rw [hb, c1]
      simp only [Nat.zero_add, List.take_zero, List.nil_append, Vector.toList_replicate]
      rw [← h3, List.take_append_drop]
    · rw [hb, c2, l2]
    · rw [hb, c2]
      simp only [Nat.zero_add, List.take_zero, List.nil_append, Vector.toList_replicate]
      rw [← h4, List.take_append_drop]
    · rw [hb, c1, c2]

theorem needs : Needs PendingAddress.tryRead pendingLength := by
  rw [tryRead_eq]
  refine NeedsL.run ?_
  intro pre rest
  cases rest with
  | nil =>
    refine ⟨fun h => absurd h (by simp [pendingLength]), fun _ => ?_⟩
    rw [R.bind_apply]
    have := (RNeeds.read Needs.u8 pre []).2 (by simp)
    rw [this]
  | cons b rest =>
    have h0 : R.read tryReadU8 (pre ++ b :: rest) pre.length = .ok (b, (pre ++ [b]).length) :=
      (RDec.read Decodes.u8 _ _ _ _).2 ⟨[b], rest, rfl, rfl, by simp⟩
    rw [R.bind_apply, h0]
    have e1 : pre ++ b :: rest = (pre ++ [b]) ++ rest := by simp
    simp only
    rw [e1]
    have hs : (b &&& SHORT_MASK).toNat ≤ 7 := by rw [short_count]; omega
    have he : ((b &&& EXTENDED_MASK) >>> 4).toNat ≤ 7 := by rw [ext_count]; omega
    have hr : RNeeds (readRest (b &&& SHORT_MASK).toNat ((b &&& EXTENDED_MASK) >>> 4).toNat)
        (fun _ => 2 * (b &&& SHORT_MASK).toNat + (8 * ((b &&& EXTENDED_MASK) >>> 4).toNat + 0)) := by
      refine RNeeds.bindFixed ?_ fun _ => RNeeds.bindFixed ?_ fun _ => RNeeds.pure _
      · unfold readLoop; rw [List.range_eq_range']
        exact readLoop_needs ShortAddress.needs _ 0 (by omega) _
      · unfold readLoop; rw [List.range_eq_range']
        exact readLoop_needs ExtendedAddress.needs _ 0 (by omega) _
    have := RNeedsL.checkHere
      (((b &&& SHORT_MASK).toNat * 2) + (((b &&& EXTENDED_MASK) >>> 4).toNat * 8)) hr.toL
      (pre ++ [b]) rest
    simp only [short_count, ext_count] at this ⊢
    simp only [pendingLength, List.length_cons, List.length_append, List.length_nil] at this ⊢
    constructor
    · intro hl
      obtain ⟨a, ha⟩ := this.1 (by omega)
      exact ⟨a, by rw [ha]; congr 2; omega⟩
    · intro hl
      exact this.2 (by omega)

end PendingAddress
end Verif
