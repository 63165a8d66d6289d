import Verif.Lemmas.HeaderVerdict

/-! # Lemmas for the header properties -/

namespace Verif
open Spec

theorem Decodes.local_ {α : Type} {r : TryRead α} {E : α → List UInt8 → Prop} (h : Decodes r E)
    {bytes : List UInt8} {a : α} {n : Nat} (hr : r bytes = .ok (a, n)) :
    n ≤ bytes.length ∧ E a (bytes.take n) ∧ ∀ suffix, r (bytes.take n ++ suffix) = .ok (a, n) := by
  obtain ⟨l, s, rfl, he, rfl⟩ := (h _ _ _).1 hr
  refine ⟨by simp, by simpa using he, fun suffix => ?_⟩
  exact (h _ _ _).2 ⟨l, suffix, by simp, he, rfl⟩

namespace Header

theorem verdict_of_ok {cfg : Cfg} {bytes : List UInt8} {h : Header} {n : Nat}
    (hr : Header.tryRead cfg bytes = .ok (h, n)) : headerVerdict bytes = .ok n := by
  rw [← verdict cfg bytes, hr]; rfl

theorem verdict_bounds {bytes : List UInt8} {n : Nat} (h : headerVerdict bytes = .ok n) :
    3 ≤ n ∧ n ≤ bytes.length := by
  match bytes, h with
  | b0 :: b1 :: b2 :: rest, h =>
    simp only [headerVerdict] at h
    repeat' split at h
    all_goals first | (cases h; done) | skip
    all_goals (simp only [Out.ok.injEq] at h; omega)

theorem auxNeed_take (l : List UInt8) (k : Nat) (hk : 0 < k) : auxNeed (l.take k) = auxNeed l := by
  cases l with
  | nil => simp
  | cons b l =>
    obtain ⟨k, rfl⟩ : ∃ j, k = j + 1 := ⟨k - 1, by omega⟩
    rfl

theorem auxNeed_ge (l : List UInt8) : 5 ≤ auxNeed l := by
  cases l with
  | nil => simp [auxNeed]
  | cons b l => simp only [auxNeed]; split <;> omega

theorem verdict_prefix {bytes : List UInt8} {n : Nat} (h : headerVerdict bytes = .ok n) (k : Nat)
    (hk : k < n) : headerVerdict (bytes.take k) = .err .incomplete := by
  match bytes, h with
  | b0 :: b1 :: b2 :: rest, h =>
    match k, hk with
    | 0, _ => rfl
    | 1, _ => rfl
    | 2, _ => rfl
    | k + 3, hk =>
      simp only [List.take_succ_cons]
      simp only [headerVerdict] at h ⊢
      by_cases h1 : (b0.toNat + 256 * b1.toNat) / 4096 % 4 = 3
      · simp [h1] at h
      by_cases h2 : (b0.toNat + 256 * b1.toNat) % 8 = 4
      · simp [h1, h2] at h
      by_cases h3 : (b0.toNat + 256 * b1.toNat) / 1024 % 4 = 1 ∨
          (b0.toNat + 256 * b1.toNat) / 16384 % 4 = 1
      · simp [h1, h2, h3] at h
      by_cases h4 : (b0.toNat + 256 * b1.toNat) / 64 % 2 = 1 ∧
          (b0.toNat + 256 * b1.toNat) / 1024 % 4 = 0
      · simp [h1, h2, h4] at h
      rw [if_neg h1, if_neg h2, if_neg h3, if_neg h4] at h ⊢
      generalize hA : (addrLength ((b0.toNat + 256 * b1.toNat) / 1024 % 4) true +
          addrLength ((b0.toNat + 256 * b1.toNat) / 16384 % 4)
            (decide ¬(b0.toNat + 256 * b1.toNat) / 64 % 2 = 1)) = A at *
      simp only [List.length_cons, List.length_take] at h ⊢
      by_cases hlen : rest.length + 1 + 1 + 1 < 3 + A +
          (if (b0.toNat + 256 * b1.toNat) / 8 % 2 = 1 then auxNeed (rest.drop A) else 0)
      · rw [if_pos hlen] at h; cases h
      · rw [if_neg hlen] at h
        simp only [Out.ok.injEq] at h
        rw [if_pos]
        by_cases hs : (b0.toNat + 256 * b1.toNat) / 8 % 2 = 1
        · simp only [hs, if_true] at h ⊢
          rw [List.drop_take]
          by_cases hAk : A < k
          · rw [auxNeed_take _ _ (by omega)]; omega
          · have := auxNeed_ge ((rest.drop A).take (k - A)); omega
        · simp only [hs, if_false] at h ⊢; omega

theorem le2_eq (n : Nat) : le 2 n = [UInt8.ofNat n, UInt8.ofNat (n / 256)] := by
  simp [le, List.range_succ]

theorem clear789_octets (h : Header) (b7 b8 b9 : Bool) (aux : List UInt8) :
    clear789 (headerOctets h b7 b8 b9 aux) = headerOctets h false false false aux := by
  unfold headerOctets
  simp only [le2_eq, List.cons_append, List.nil_append, List.append_assoc, clear789]
  have e1 := typeCode_lt h.frameType
  have e2 := versionCode_lt h.version
  have e3 : modeCode h.destination < 4 := by rw [← amCode_ofOption]; exact amCode_lt _
  have e4 : modeCode h.source < 4 := by rw [← amCode_ofOption]; exact amCode_lt _
  have e5 := bit_lt h.auxSec.isSome
  have e6 := bit_lt h.framePending
  have e7 := bit_lt h.ackRequest
  have e8 := bit_lt h.panIdCompress
  have e9 := bit_lt b7
  have e10 := bit_lt b8
  have e11 := bit_lt b9
  have e12 : bit false = 0 := rfl
  congr 1
  · apply UInt8.toNat_inj.mp
    simp only [UInt8.toNat_ofNat', frameControl, e12]
    omega
  · congr 1
    apply UInt8.toNat_inj.mp
    simp only [UInt8.toNat_ofNat', frameControl, e12]
    omega

end Header
end Verif
