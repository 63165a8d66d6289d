import Verif.Spec.SerdeSpec

/-!
# C99: addresses stored with `serde`
-/

namespace Verif
open Spec

theorem deserializeU16_iff (o : Offered) (v : UInt16) : deserializeU16 o = some v ↔ Shows (.u16 v) o := by
  unfold Shows
  constructor
  · intro h
    cases o <;> simp only [deserializeU16, reduceCtorEq] at h
    rename_i z
    split at h
    · rename_i hz
      obtain rfl := Option.some.inj h
      congr 1
      rw [UInt16.toNat_ofNat', Nat.mod_eq_of_lt (by omega)]
      omega
    · cases h
  · rintro rfl
    have := v.toNat_lt
    simp only [deserializeU16]
    rw [if_pos (by omega)]
    simp

theorem deserializeU64_iff (o : Offered) (v : UInt64) : deserializeU64 o = some v ↔ Shows (.u64 v) o := by
  unfold Shows
  constructor
  · intro h
    cases o <;> simp only [deserializeU64, reduceCtorEq] at h
    rename_i z
    split at h
    · rename_i hz
      obtain rfl := Option.some.inj h
      congr 1
      rw [UInt64.toNat_ofNat', Nat.mod_eq_of_lt (by omega)]
      omega
    · cases h
  · rintro rfl
    have := v.toNat_lt
    simp only [deserializeU64]
    rw [if_pos (by omega)]
    simp

theorem deserializeNewtype_iff {α : Type} (field : Offered → Option α) (ser : α → Serialized) (name : String)
    (h : ∀ o v, field o = some v ↔ Shows (ser v) o) (o : Offered) (v : α) :
    deserializeNewtype field o = some v ↔ Shows (.newtypeStruct name (ser v)) o := by
  unfold Shows
  constructor
  · intro hd
    match o, hd with
    | .newtype x, hd => exact ⟨x, (h _ _).1 hd, .inl rfl⟩
    | .seq (x :: more), hd => exact ⟨x, (h _ _).1 hd, .inr ⟨more, rfl⟩⟩
  · rintro ⟨x, hx, rfl | ⟨more, rfl⟩⟩ <;> exact (h _ _).2 hx

/-- **C99** PAN identifiers, short and extended addresses come out of what a format shows exactly when it shows them: an
integer in range, wrapped in a newtype structure or first in a sequence. -/
theorem C99_parts_iff (o : Offered) :
    (∀ p : PanId, PanId.deserialize o = some p ↔ Shows p.serialize o) ∧
    (∀ a : ShortAddress, ShortAddress.deserialize o = some a ↔ Shows a.serialize o) ∧
    (∀ a : ExtendedAddress, ExtendedAddress.deserialize o = some a ↔ Shows a.serialize o) :=
  ⟨fun _ => deserializeNewtype_iff _ _ _ deserializeU16_iff o _,
   fun _ => deserializeNewtype_iff _ _ _ deserializeU16_iff o _,
   fun _ => deserializeNewtype_iff _ _ _ deserializeU64_iff o _⟩

/-- **C99** An address comes out of what a format shows exactly when the format shows that address. -/
theorem C99_address_iff (o : Offered) (a : Address) : Address.deserialize o = some a ↔ Shows a.serialize o := by
  have hp (o : Offered) := (C99_parts_iff o).1
  have hs (o : Offered) := (C99_parts_iff o).2.1
  have he (o : Offered) := (C99_parts_iff o).2.2
  constructor
  · intro h
    match o, h with
    | .enum tag (x :: y :: more), h =>
      simp only [Address.deserialize] at h
      have h0 : Address.variant tag = some 0 → tag = .index 0 ∨ tag = .name "Short" ∨ tag = .bytes "Short".toUTF8.toList := by
        intro ht
        cases tag <;> simp only [Address.variant] at ht
        · split at ht
          · simp_all
          · split at ht <;> simp_all
        · split at ht
          · simp_all
          · split at ht <;> simp_all
        · split at ht
          · simp_all
          · split at ht <;> simp_all
        · cases ht
      have h1 : ∀ i, Address.variant tag = some i → i ≠ 0 →
          tag = .index 1 ∨ tag = .name "Extended" ∨ tag = .bytes "Extended".toUTF8.toList := by
        intro i ht hi
        cases tag <;> simp only [Address.variant] at ht
        · split at ht
          · simp_all
          · split at ht <;> simp_all
        · split at ht
          · simp_all
          · split at ht <;> simp_all
        · split at ht
          · simp_all
          · split at ht <;> simp_all
        · cases ht
      split at h
      · rename_i ht
        cases hx : PanId.deserialize x with
        | none => simp [hx] at h
        | some p =>
          cases hy : ShortAddress.deserialize y with
          | none => simp [hx, hy] at h
          | some b =>
            simp only [hx, hy, Option.bind_eq_bind, Option.bind_some, Option.pure_def, Option.some.injEq] at h
            subst h
            exact ⟨tag, x, y, more, rfl, (hp _ _).1 hx, (hs _ _).1 hy, h0 ht⟩
      · rename_i i hi ht
        cases hx : PanId.deserialize x with
        | none => simp [hx] at h
        | some p =>
          cases hy : ExtendedAddress.deserialize y with
          | none => simp [hx, hy] at h
          | some b =>
            simp only [hx, hy, Option.bind_eq_bind, Option.bind_some, Option.pure_def, Option.some.injEq] at h
            subst h
            exact ⟨tag, x, y, more, rfl, (hp _ _).1 hx, (he _ _).1 hy, h1 _ ht (by simpa using hi)⟩
      · cases h
  · cases a with
    | short p b =>
      rintro ⟨tag, x, y, more, rfl, hx, hy, ht⟩
      have hv : Address.variant tag = some 0 := by
        rcases ht with rfl | rfl | rfl
        · rfl
        · rfl
        · exact if_pos rfl
      simp only [Address.deserialize, hv, (hp _ _).2 hx, (hs _ _).2 hy, Option.bind_eq_bind, Option.bind_some, Option.pure_def]
    | extended p b =>
      rintro ⟨tag, x, y, more, rfl, hx, hy, ht⟩
      have hv : Address.variant tag = some 1 := by
        rcases ht with rfl | rfl | rfl
        · rfl
        · rfl
        · decide +kernel
      simp only [Address.deserialize, hv, (hp _ _).2 hx, (he _ _).2 hy, Option.bind_eq_bind, Option.bind_some, Option.pure_def]

/-- **C99** So whatever is stored with a format that keeps what it is given is loaded as the same value. -/
theorem C99_round_trip {δ : Type} (f : Format δ) (hf : f.Keeps) :
    (∀ a : Address, Address.deserialize (f.load (f.store a.serialize)) = some a) ∧
    (∀ p : PanId, PanId.deserialize (f.load (f.store p.serialize)) = some p) ∧
    (∀ a : ShortAddress, ShortAddress.deserialize (f.load (f.store a.serialize)) = some a) ∧
    (∀ a : ExtendedAddress, ExtendedAddress.deserialize (f.load (f.store a.serialize)) = some a) :=
  ⟨fun a => (C99_address_iff _ _).2 (hf _), fun a => (C99_parts_iff _).1 _ |>.2 (hf _),
   fun a => (C99_parts_iff _).2.1 _ |>.2 (hf _), fun a => (C99_parts_iff _).2.2 _ |>.2 (hf _)⟩

/-- **C99** And such a format stores different addresses differently. -/
theorem C99_stored_apart {δ : Type} (f : Format δ) (hf : f.Keeps) (a b : Address) :
    f.store a.serialize = f.store b.serialize ↔ a = b := by
  refine ⟨fun h => ?_, fun h => by rw [h]⟩
  have ha := (C99_round_trip f hf).1 a
  rw [h, (C99_round_trip f hf).1 b] at ha
  exact (Option.some.inj ha).symm

/-- **C99** The same with formats that compare what they stored with what they are asked for, names included, and refuse
it if it differs: every value is loaded as the same value if it is asked for as what it is. -/
theorem C99_strict_round_trip {δ : Type} (f : StrictFormat δ) (hf : f.Keeps) :
    (∀ a : Address, Address.deserialize (f.load Address.asks (f.store a.serialize)) = some a) ∧
    (∀ p : PanId, PanId.deserialize (f.load PanId.asks (f.store p.serialize)) = some p) ∧
    (∀ a : ShortAddress, ShortAddress.deserialize (f.load ShortAddress.asks (f.store a.serialize)) = some a) ∧
    (∀ a : ExtendedAddress, ExtendedAddress.deserialize (f.load ExtendedAddress.asks (f.store a.serialize)) = some a) := by
  have hp : ∀ p : PanId, Expected PanId.asks p.serialize := fun _ => ⟨rfl, trivial⟩
  have hs : ∀ a : ShortAddress, Expected ShortAddress.asks a.serialize := fun _ => ⟨rfl, trivial⟩
  have he : ∀ a : ExtendedAddress, Expected ExtendedAddress.asks a.serialize := fun _ => ⟨rfl, trivial⟩
  have ha : ∀ a : Address, Expected Address.asks a.serialize := by
    intro a
    cases a with
    | short p a => exact ⟨rfl, _, _, rfl, hp p, hs a⟩
    | extended p a => exact ⟨rfl, _, _, rfl, hp p, he a⟩
  exact ⟨fun a => (C99_address_iff _ _).2 (hf _ _ (ha a)), fun a => (C99_parts_iff _).1 _ |>.2 (hf _ _ (hp a)),
   fun a => (C99_parts_iff _).2.1 _ |>.2 (hf _ _ (hs a)), fun a => (C99_parts_iff _).2.2 _ |>.2 (hf _ _ (he a))⟩

/-- **C99** Such a format can tell the types apart: no value of one of the four types is what another asks for. -/
theorem C99_types_apart (p : PanId) (s : ShortAddress) (e : ExtendedAddress) (a : Address) :
    (Expected PanId.asks p.serialize ∧ ¬ Expected PanId.asks s.serialize ∧ ¬ Expected PanId.asks e.serialize ∧
      ¬ Expected PanId.asks a.serialize) ∧
    (¬ Expected ShortAddress.asks p.serialize ∧ Expected ShortAddress.asks s.serialize ∧
      ¬ Expected ShortAddress.asks e.serialize ∧ ¬ Expected ShortAddress.asks a.serialize) ∧
    (¬ Expected ExtendedAddress.asks p.serialize ∧ ¬ Expected ExtendedAddress.asks s.serialize ∧
      Expected ExtendedAddress.asks e.serialize ∧ ¬ Expected ExtendedAddress.asks a.serialize) ∧
    (¬ Expected Address.asks p.serialize ∧ ¬ Expected Address.asks s.serialize ∧ ¬ Expected Address.asks e.serialize ∧
      Expected Address.asks a.serialize) := by
  cases a <;>
  simp [Expected, PanId.asks, ShortAddress.asks, ExtendedAddress.asks, Address.asks, PanId.serialize, ShortAddress.serialize,
    ExtendedAddress.serialize, Address.serialize] <;>
  exact ⟨_, _, ⟨rfl, rfl⟩, ⟨rfl, trivial⟩, rfl, trivial⟩

end Verif
