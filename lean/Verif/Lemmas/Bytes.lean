import Verif.Spec.Layout

/-! # Lemmas: octet strings and integers -/

namespace Verif

open Spec

@[simp] theorem natToLE_length (k n : Nat) : (natToLE k n).length = k := by
  induction k generalizing n with
  | zero => rfl
  | succ k ih => simp [natToLE, ih]

@[simp] theorem le_length (k n : Nat) : (le k n).length = k := by simp [le]

@[simp] theorem inOrder_length (e : Endian) (k n : Nat) : (inOrder e k n).length = k := by
  cases e <;> simp [inOrder]

theorem le_succ (k n : Nat) : le (k + 1) n = UInt8.ofNat n :: le k (n / 256) := by
  simp only [le, List.range_succ_eq_map, List.map_cons, List.map_map]
  congr 1
  · simp
  · apply List.map_congr_left
    intro i _
    simp [Function.comp, Nat.pow_succ, Nat.div_div_eq_div_mul, Nat.mul_comm]

theorem natToLE_eq_le (k n : Nat) : natToLE k n = le k n := by
  induction k generalizing n with
  | zero => rfl
  | succ k ih => rw [le_succ, natToLE, ih]

theorem natToBytes_eq (e : Endian) (k n : Nat) : natToBytes e k n = inOrder e k n := by
  cases e <;> simp [natToBytes, inOrder, natToLE_eq_le]

theorem leToNat_lt (l : List UInt8) : leToNat l < 256 ^ l.length := by
  induction l with
  | nil => simp [leToNat]
  | cons b l ih =>
    have := b.toNat_lt
    simp only [leToNat, List.length_cons, Nat.pow_succ]
    omega

theorem leToNat_le (k n : Nat) : leToNat (le k n) = n % 256 ^ k := by
  induction k generalizing n with
  | zero => simp [le, leToNat, Nat.mod_one]
  | succ k ih =>
    rw [le_succ, leToNat, ih]
    have : (256 : Nat) ^ (k + 1) = 256 * 256 ^ k := by rw [Nat.pow_succ, Nat.mul_comm]
    rw [this, Nat.mod_mul]
    simp

theorem le_leToNat (l : List UInt8) : le l.length (leToNat l) = l := by
  induction l with
  | nil => rfl
  | cons b l ih =>
    have := b.toNat_lt
    rw [List.length_cons, le_succ, leToNat]
    congr 1
    · apply UInt8.toNat_inj.mp
      simp
    · have : (b.toNat + 256 * leToNat l) / 256 = leToNat l := by omega
      rw [this, ih]

theorem bytesToNat_inOrder (e : Endian) (k n : Nat) :
    bytesToNat e (inOrder e k n) = n % 256 ^ k := by
  cases e <;> simp [bytesToNat, inOrder, leToNat_le]

theorem inOrder_bytesToNat (e : Endian) (l : List UInt8) :
    inOrder e l.length (bytesToNat e l) = l := by
  cases e with
  | little => exact le_leToNat l
  | big =>
    have := le_leToNat l.reverse
    simp only [List.length_reverse] at this
    simp [bytesToNat, inOrder, this]

theorem bytesToNat_lt (e : Endian) (l : List UInt8) : bytesToNat e l < 256 ^ l.length := by
  cases e with
  | little => exact leToNat_lt l
  | big => simpa [bytesToNat] using leToNat_lt l.reverse

theorem le_inj {k a b : Nat} (ha : a < 256 ^ k) (hb : b < 256 ^ k) (h : le k a = le k b) :
    a = b := by
  have := congrArg leToNat h
  rwa [leToNat_le, leToNat_le, Nat.mod_eq_of_lt ha, Nat.mod_eq_of_lt hb] at this

theorem le_one (n : Nat) : le 1 n = [UInt8.ofNat n] := by simp [le]

theorem split_at {α : Type} (l : List α) (k : Nat) (h : k ≤ l.length) :
    ∃ a b, l = a ++ b ∧ a.length = k :=
  ⟨l.take k, l.drop k, (List.take_append_drop k l).symm, by simp [h]⟩

end Verif
