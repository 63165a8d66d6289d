import Mathlib.SetTheory.Cardinal.Finite
import Mathlib.Data.Set.Card
import Verif.Spec.ChanceSpec
import Verif.Props.Forgery

/-!
# Counting ciphers
-/

namespace Verif

open Spec Rfc3610

instance finite_octet : Finite UInt8 :=
  Finite.of_injective (fun x : UInt8 => x.toFin) (fun _ _ h => UInt8.toFin_inj.1 h)

instance finite_block : Finite Block :=
  Finite.of_injective (fun (v : Block) (i : Fin 16) => v[i]) (fun v w h => by
    ext i hi
    exact congrArg UInt8.toNat (congrFun h ⟨i, hi⟩))

instance finite_cipher {κ : Type} [Finite κ] : Finite (BlockCipher κ) := inferInstance

theorem howMany_mono {κ : Type} [Finite κ] {P Q : BlockCipher κ → Prop} (h : ∀ e, P e → Q e) : howMany P ≤ howMany Q :=
  Set.ncard_le_ncard (fun e he => h e he) (Set.toFinite _)

theorem howMany_or {κ : Type} [Finite κ] (P Q : BlockCipher κ → Prop) :
    howMany (fun e => P e ∨ Q e) ≤ howMany P + howMany Q :=
  Set.ncard_union_le {e | P e} {e | Q e}

theorem howMany_exists {κ : Type} [Finite κ] (P : Nat → BlockCipher κ → Prop) (m : Nat) : ∀ n,
    (∀ i, i < n → howMany (P i) ≤ m) → howMany (fun e => ∃ i, i < n ∧ P i e) ≤ n * m := by
  intro n
  induction n with
  | zero =>
    intro _
    unfold howMany
    simp
  | succ n ih =>
    intro h
    have h1 := ih (fun i hi => h i (by omega))
    have h2 := h n (by omega)
    have h3 : howMany (fun e => ∃ i, i < n + 1 ∧ P i e) ≤ howMany (fun e => (∃ i, i < n ∧ P i e) ∨ P n e) :=
      howMany_mono (by
        rintro e ⟨i, hi, hp⟩
        by_cases hin : i = n
        · subst hin; exact .inr hp
        · exact .inl ⟨i, by omega, hp⟩)
    have h4 := howMany_or (fun e => ∃ i, i < n ∧ P i e) (P n)
    have : (n + 1) * m = n * m + m := by rw [Nat.add_mul, Nat.one_mul]
    omega

/-- A one-to-one map from the ciphers with one property into those with another. -/
theorem howMany_inj {κ : Type} [Finite κ] {P Q : BlockCipher κ → Prop} (φ : BlockCipher κ → BlockCipher κ)
    (h : ∀ e, P e → Q (φ e)) (hi : ∀ e e', P e → P e' → φ e = φ e' → e = e') : howMany P ≤ howMany Q :=
  Set.ncard_le_ncard_of_injOn φ (fun e he => h e he) (fun e he e' he' heq => hi e e' he he' heq) (Set.toFinite _)

theorem howMany_not {κ : Type} [Finite κ] (P : BlockCipher κ → Prop) :
    howMany P + howMany (fun e => ¬ P e) = howManyCiphers κ :=
  Set.ncard_add_ncard_compl {e | P e} (Set.toFinite _) (Set.toFinite _)

/-! ## Resampling -/

/-- The block with its first `t` octets replaced. -/
def withPrefix (t : Nat) (s : Fin t → Fin 256) (b : Block) : Block :=
  Vector.ofFn fun i => if h : i.val < t then UInt8.ofFin (s ⟨i.val, h⟩) else b[i]

theorem withPrefix_get (t : Nat) (s : Fin t → Fin 256) (b : Block) (i : Nat) (hi : i < 16) :
    (withPrefix t s b)[i] = if h : i < t then UInt8.ofFin (s ⟨i, h⟩) else b[i] := by
  unfold withPrefix; simp

theorem take_eq_iff (t : Nat) (b c : Block) :
    b.toList.take t = c.toList.take t ↔ ∀ i (hi : i < 16), i < t → b[i] = c[i] := by
  constructor
  · intro h i hi ht
    have : (b.toList.take t)[i]? = (c.toList.take t)[i]? := by rw [h]
    rw [List.getElem?_take, List.getElem?_take, if_pos ht, if_pos ht] at this
    simpa [Vector.getElem?_toList, hi] using this
  · intro h
    apply List.ext_getElem
    · simp
    · intro i h1 h2
      simp only [List.length_take, Vector.length_toList] at h1
      simp only [List.getElem_take, Vector.getElem_toList]
      exact h i (by omega) (by omega)

theorem replaced_replaced {κ : Type} (e : BlockCipher κ) (k : κ) (x v w : Block) :
    replaced (replaced e k x v) k x w = replaced e k x w := by
  funext k' x'
  unfold replaced
  split <;> rfl

theorem replaced_same {κ : Type} (e : BlockCipher κ) (k : κ) (x : Block) : replaced e k x (e k x) = e := by
  funext k' x'
  unfold replaced
  split
  · rename_i h; rw [h.1, h.2]
  · rfl

/-- If a property pins down the first `t` octets of the cipher's value at a place, and neither the place nor those
octets depend on the value there, the property has a chance of at most `256^-t`. -/
theorem howMany_resample {κ : Type} [Finite κ] (t : Nat) (ht : t ≤ 16) (P : BlockCipher κ → Prop)
    (f : BlockCipher κ → Option (κ × Block × List UInt8))
    (h : ∀ e, P e → ∃ k x w, (e k x).toList.take t = w ∧ ∀ y, f (replaced e k x y) = some (k, x, w)) :
    howMany P * 256 ^ t ≤ howManyCiphers κ := by
  have key : ∀ e, P e → ∃ k x, ∀ y, f (replaced e k x y) = some (k, x, (e k x).toList.take t) := by
    intro e he
    obtain ⟨k, x, w, h1, h2⟩ := h e he
    exact ⟨k, x, fun y => by rw [h1]; exact h2 y⟩
  have hcard : Nat.card ({e // P e} × (Fin t → Fin 256)) = howMany P * 256 ^ t := by
    rw [Nat.card_prod, Nat.card_fun, Nat.card_fin, Nat.card_fin]
    rfl
  rw [← hcard]
  choose K X hKX using key
  refine Nat.card_le_card_of_injective
    (fun a : {e // P e} × (Fin t → Fin 256) =>
      replaced a.1.1 (K a.1.1 a.1.2) (X a.1.1 a.1.2) (withPrefix t a.2 (a.1.1 (K a.1.1 a.1.2) (X a.1.1 a.1.2)))) ?_
  rintro ⟨⟨e, he⟩, s⟩ ⟨⟨e', he'⟩, s'⟩ heq
  simp only at heq
  have h1 := hKX e he (withPrefix t s (e (K e he) (X e he)))
  have h2 := hKX e' he' (withPrefix t s' (e' (K e' he') (X e' he')))
  rw [heq, h2] at h1
  simp only [Option.some.injEq, Prod.mk.injEq] at h1
  obtain ⟨hk, hx, hw⟩ := h1
  rw [← hk, ← hx] at heq hw
  have hv : withPrefix t s (e (K e' he') (X e' he')) = withPrefix t s' (e' (K e' he') (X e' he')) := by
    have := congrFun (congrFun heq (K e' he')) (X e' he')
    rwa [replaced_at, replaced_at] at this
  have hs : s = s' := by
    funext i
    have := congrArg (fun v : Block => v[i.val]'(by omega)) hv
    simp only [withPrefix_get, i.isLt, dif_pos] at this
    have := congrArg UInt8.toFin this
    rwa [UInt8.toFin_ofFin, UInt8.toFin_ofFin] at this
  have hval : e (K e' he') (X e' he') = e' (K e' he') (X e' he') := by
    have hw' := (take_eq_iff t _ _).1 hw
    ext i hi
    by_cases hit : i < t
    · rw [hw' i hi hit]
    · have := congrArg (fun v : Block => v[i]'hi) hv
      simp only [withPrefix_get, hit] at this
      simpa using congrArg UInt8.toNat this
  have he'' : e = e' := by
    have g := congrArg (fun d => replaced d (K e' he') (X e' he') (e (K e' he') (X e' he'))) heq
    simp only [replaced_replaced, replaced_same] at g
    rw [g, hval, replaced_same]
  subst he'' hs
  rfl

end Verif
