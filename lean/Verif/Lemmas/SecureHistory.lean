import Verif.Lemmas.SecureWrite
import Verif.Spec.HistorySpec

/-!
# Lemmas: nonces, and what a write does to the context
-/

namespace Verif
open Spec

theorem u64_octet (x : UInt64) (i : Nat) (hi : i < 8) :
    ((x >>> (UInt64.ofNat (8 * i))) &&& 0xFF).toUInt8 = UInt8.ofNat (x.toNat / 256 ^ i) := by
  apply UInt8.toNat_inj.1
  have h1 : (UInt64.ofNat (8 * i)).toNat = 8 * i := by
    rw [UInt64.toNat_ofNat']; omega
  have h255 : ∀ n : Nat, n &&& 255 = n % 256 := fun n => Nat.and_two_pow_sub_one_eq_mod n 8
  simp only [UInt64.toNat_toUInt8, UInt64.toNat_and, UInt64.toNat_shiftRight, h1, UInt8.toNat_ofNat',
    UInt64.reduceToNat, h255]
  rw [Nat.mod_eq_of_lt (by omega : 8 * i < 64), Nat.shiftRight_eq_div_pow, Nat.pow_mul]
  simp

theorem u32_octet (x : UInt32) (i : Nat) (hi : i < 4) :
    ((x >>> (UInt32.ofNat (8 * i))) &&& 0xFF).toUInt8 = UInt8.ofNat (x.toNat / 256 ^ i) := by
  apply UInt8.toNat_inj.1
  have h1 : (UInt32.ofNat (8 * i)).toNat = 8 * i := by
    rw [UInt32.toNat_ofNat']; omega
  have h255 : ∀ n : Nat, n &&& 255 = n % 256 := fun n => Nat.and_two_pow_sub_one_eq_mod n 8
  simp only [UInt32.toNat_toUInt8, UInt32.toNat_and, UInt32.toNat_shiftRight, h1, UInt8.toNat_ofNat',
    UInt32.reduceToNat, h255]
  rw [Nat.mod_eq_of_lt (by omega : 8 * i < 32), Nat.shiftRight_eq_div_pow, Nat.pow_mul]
  simp

theorem calculateNonce_eq (eui : UInt64) (c : UInt32) (l : SecurityLevel) :
    calculateNonce eui c l = nonceOctets eui c l := by
  unfold calculateNonce nonceOctets le
  congr 1
  · congr 1
    · apply List.map_congr_left
      intro i hi
      exact u64_octet eui i (by simpa using hi)
    · apply List.map_congr_left
      intro i hi
      exact u32_octet c i (by simpa using hi)
  · cases l <;> rfl

theorem nonceOctets_inj {e e' : UInt64} {c c' : UInt32} {l l' : SecurityLevel}
    (h : nonceOctets e c l = nonceOctets e' c' l') : e = e' ∧ c = c' ∧ l = l' := by
  unfold nonceOctets at h
  obtain ⟨h, h3⟩ := List.append_inj' h (by simp)
  obtain ⟨h1, h2⟩ := List.append_inj h (by simp)
  refine ⟨?_, ?_, ?_⟩
  · exact UInt64.toNat_inj.1 (le_inj e.toNat_lt e'.toNat_lt h1)
  · exact UInt32.toNat_inj.1 (le_inj c.toNat_lt c'.toNat_lt h2)
  · cases l <;> cases l' <;> first | rfl | (revert h3; decide)

theorem SecCtx.next_toNat {κ : Type} (sc : SecCtx κ) (h : sc.frameCounter ≠ 0xFFFFFFFF) :
    sc.next.frameCounter.toNat = sc.frameCounter.toNat + 1 := by
  have h1 := sc.frameCounter.toNat_lt
  have h2 : sc.frameCounter.toNat ≠ 4294967295 := fun hc => h (UInt32.toNat_inj.1 hc)
  show (sc.frameCounter + 1).toNat = _
  rw [UInt32.toNat_add]
  simp
  omega

theorem protect_same {κ : Type} {a b : Aead κ} {nonce n : List UInt8} (h : SameExcept nonce a b)
    (hn : n ≠ nonce) (level : SecurityLevel) (key : κ) (payload : List UInt8) :
    protect a level key n payload = protect b level key n payload ∧
    protectArea a level key n payload = protectArea b level key n payload := by
  unfold protect protectArea
  rw [h.2 _ _ _ _ _ hn, h.2 _ _ _ _ _ hn]
  exact ⟨rfl, rfl⟩

/-- When the counter is consumed. -/
def Consumes {κ : Type} (f : Frame) (aux : AuxHeader) (sc : SecCtx κ) (buf : List UInt8) : Prop :=
  ¬ 125 < f.payload.length + uncompressedLength f.header + auxLength aux.keyIdentifier
      + tagLength aux.control.securityLevel ∧
  f.payload.length ≤ buf.length ∧ aux.control.securityLevel ≠ .none ∧ sc.frameCounter ≠ 0xFFFFFFFF

theorem secureData_consumes {κ : Type} (aead : Aead κ) (f : Frame) (aux : AuxHeader)
    (sc : SecCtx κ) (buf : List UInt8) (h : Consumes f aux sc buf) :
    (secureData aead f aux sc buf).2.1 = sc.next := by
  obtain ⟨h1, h2, h3, h4⟩ := h
  unfold secureData
  simp only
  rw [if_neg h1, if_neg (by omega), if_neg h3, if_neg h4]
  repeat' split
  all_goals rfl

theorem secureData_keeps {κ : Type} (aead : Aead κ) (f : Frame) (aux : AuxHeader)
    (sc : SecCtx κ) (buf : List UInt8) (h : ¬ Consumes f aux sc buf) :
    (secureData aead f aux sc buf).2.1 = sc := by
  unfold Consumes at h
  unfold secureData
  simp only
  by_cases h1 : 125 < f.payload.length + uncompressedLength f.header + auxLength aux.keyIdentifier
      + tagLength aux.control.securityLevel
  · rw [if_pos h1]
  rw [if_neg h1]
  by_cases h2 : buf.length < f.payload.length
  · rw [if_pos h2]
  rw [if_neg h2]
  by_cases h3 : aux.control.securityLevel = .none
  · rw [if_pos h3]
  rw [if_neg h3]
  by_cases h4 : sc.frameCounter = 0xFFFFFFFF
  · rw [if_pos h4]
  exact absurd ⟨h1, by omega, h3, h4⟩ h

/-- Two ciphers that differ under one nonce only give the same result, unless that nonce is the
context's and the counter is consumed. -/
theorem secureData_same {κ : Type} {a b : Aead κ} {nonce : List UInt8} (h : SameExcept nonce a b)
    (f : Frame) (aux : AuxHeader) (sc : SecCtx κ) (buf : List UInt8) :
    secureData a f aux sc buf = secureData b f aux sc buf ∨
    (Consumes f aux sc buf ∧
      nonce = nonceOctets sc.euid sc.frameCounter aux.control.securityLevel) := by
  by_cases hn : nonceOctets sc.euid sc.frameCounter aux.control.securityLevel = nonce
  · by_cases hc : Consumes f aux sc buf
    · exact .inr ⟨hc, hn.symm⟩
    · left
      unfold Consumes at hc
      unfold secureData
      simp only
      by_cases h1 : 125 < f.payload.length + uncompressedLength f.header + auxLength aux.keyIdentifier
          + tagLength aux.control.securityLevel
      · rw [if_pos h1, if_pos h1]
      rw [if_neg h1, if_neg h1]
      by_cases h2 : buf.length < f.payload.length
      · rw [if_pos h2, if_pos h2]
      rw [if_neg h2, if_neg h2]
      by_cases h3 : aux.control.securityLevel = .none
      · rw [if_pos h3, if_pos h3]
      rw [if_neg h3, if_neg h3]
      by_cases h4 : sc.frameCounter = 0xFFFFFFFF
      · rw [if_pos h4, if_pos h4]
      exact absurd ⟨h1, by omega, h3, h4⟩ hc
  · left
    unfold secureData
    simp only [calculateNonce_eq, (protect_same h hn _ _ _).1, (protect_same h hn _ _ _).2]

/-- A successful step used the nonce. -/
theorem secureData_ok {κ : Type} {aead : Aead κ} {f : Frame} {aux : AuxHeader}
    {sc sc' : SecCtx κ} {buf sub : List UInt8} {n : Nat} (hl : aux.control.securityLevel ≠ .none)
    (h : secureData aead f aux sc buf = (.ok n, sc', sub)) :
    Consumes f aux sc buf ∧ sc' = sc.next ∧ aux.control.securityLevel ≠ .enc ∧
    ∃ eui key body tag, sc.keyProvider .dst aux.keyIdentifier f.header.destination = some (eui, key) ∧
      protect aead aux.control.securityLevel key
        (nonceOctets sc.euid sc.frameCounter aux.control.securityLevel) f.payload = some (body, tag) ∧
      n = f.payload.length + tag.length ∧ n ≤ buf.length ∧
      sub = body ++ (tag ++ buf.drop n) := by
  unfold secureData at h
  simp only [calculateNonce_eq] at h
  split at h
  · simp at h
  rename_i h1
  split at h
  · simp at h
  rename_i h2
  split at h
  · simp at h
  rename_i h4
  split at h
  · simp at h
  rename_i eui key hk
  split at h
  · simp at h
  rename_i h5
  split at h
  · simp at h
  rename_i body tag hp
  split at h
  · simp at h
  rename_i h6
  simp only [Prod.mk.injEq, Out.ok.injEq] at h
  obtain ⟨rfl, rfl, rfl⟩ := h
  simp only [List.length_drop] at h6
  refine ⟨⟨h1, by omega, hl, h4⟩, rfl, h5, eui, key, body, tag, hk, hp, rfl, by omega, ?_⟩
  rw [List.drop_drop]

namespace Frame

/-- The context after any write. -/
theorem tryWrite_ctx {κ : Type} (cfg : Cfg) {aead : Aead κ} (ht : AeadTyped aead) (f : Frame)
    (mode : FooterMode) (sc : SecCtx κ) (buf : List UInt8) :
    (f.tryWrite cfg aead ⟨mode, some sc⟩ buf).2.2 = ⟨mode, some sc⟩ ∨
    (sc.frameCounter ≠ 0xFFFFFFFF ∧
      (f.tryWrite cfg aead ⟨mode, some sc⟩ buf).2.2 = ⟨mode, some sc.next⟩) := by
  rw [tryWrite_eq]
  rcases hw : f.writeHead cfg (some sc) buf 0 with ⟨⟨⟩ | e | _, bytes, off⟩
  · unfold afterHead
    simp only
    have hfin : ∀ sec bytes off (ctx : SerDesCtx κ), (finish f sec bytes off ctx).2.2 = ctx := by
      intro sec bytes off ctx
      unfold finish
      rcases f.writeTail ctx.footerMode sec bytes off with ⟨⟨⟩ | e | _, _, _⟩ <;> rfl
    have key : (secureFrame aead f sc mode (bytes.drop off)).2.1 = sc ∨
        (sc.frameCounter ≠ 0xFFFFFFFF ∧ (secureFrame aead f sc mode (bytes.drop off)).2.1 = sc.next) := by
      rw [secureFrame_cases ht]
      split
      · exact .inl rfl
      · exact .inl rfl
      · rename_i aux _
        split
        · by_cases hc : Consumes f aux sc (bytes.drop off)
          · exact .inr ⟨hc.2.2.2, secureData_consumes aead f aux sc _ hc⟩
          · exact .inl (secureData_keeps aead f aux sc _ hc)
        · exact .inl rfl
    rcases hr : secureFrame aead f sc mode (bytes.drop off) with ⟨r, sc', sub⟩
    rw [hr] at key
    simp only at key
    have : ∀ x : Out ByteErr Nat × List UInt8 × SerDesCtx κ, x.2.2 = ⟨mode, some sc'⟩ →
        x.2.2 = ⟨mode, some sc⟩ ∨ (sc.frameCounter ≠ 0xFFFFFFFF ∧ x.2.2 = ⟨mode, some sc.next⟩) := by
      intro x hx
      rcases key with rfl | ⟨hk, rfl⟩
      · exact .inl hx
      · exact .inr ⟨hk, hx⟩
    apply this
    cases r with
    | ok n => exact hfin ..
    | panic => rfl
    | err e => cases e <;> first | rfl | exact hfin ..
  · exact .inl rfl
  · exact .inl rfl

/-- Two ciphers that differ under one nonce only. -/
theorem tryWrite_same {κ : Type} (cfg : Cfg) {a b : Aead κ} (ha : AeadTyped a) (hb : AeadTyped b)
    {nonce : List UInt8} (h : SameExcept nonce a b) (f : Frame) (mode : FooterMode) (sc : SecCtx κ)
    (buf : List UInt8) :
    f.tryWrite cfg a ⟨mode, some sc⟩ buf = f.tryWrite cfg b ⟨mode, some sc⟩ buf ∨
    (sc.frameCounter ≠ 0xFFFFFFFF ∧ (∃ aux, f.header.auxSec = some aux ∧ aux.control.securityLevel ≠ .none ∧
      nonce = nonceOctets sc.euid sc.frameCounter aux.control.securityLevel) ∧
      ∀ c : Aead κ, AeadTyped c → (f.tryWrite cfg c ⟨mode, some sc⟩ buf).2.2 = ⟨mode, some sc.next⟩) := by
  simp only [tryWrite_eq]
  rcases hw : f.writeHead cfg (some sc) buf 0 with ⟨⟨⟩ | e | _, bytes, off⟩
  · simp only
    unfold afterHead
    simp only
    have key : secureFrame a f sc mode (bytes.drop off) = secureFrame b f sc mode (bytes.drop off) ∨
        (sc.frameCounter ≠ 0xFFFFFFFF ∧ (∃ aux, f.header.auxSec = some aux ∧ aux.control.securityLevel ≠ .none ∧
          nonce = nonceOctets sc.euid sc.frameCounter aux.control.securityLevel) ∧
          ∀ c : Aead κ, AeadTyped c → (secureFrame c f sc mode (bytes.drop off)).2.1 = sc.next) := by
      by_cases hx : mode = .none ∧ (∃ aux, f.header.auxSec = some aux) ∧ f.header.frameType = .data
      · obtain ⟨rfl, ⟨aux, hx⟩, hd⟩ := hx
        rw [secureFrame_data ha f aux sc hx hd, secureFrame_data hb f aux sc hx hd]
        rcases secureData_same h f aux sc (bytes.drop off) with he | ⟨hc, hn⟩
        · exact .inl he
        · refine .inr ⟨hc.2.2.2, ⟨aux, hx, hc.2.2.1, hn⟩, fun c hcc => ?_⟩
          rw [secureFrame_data hcc f aux sc hx hd]
          exact secureData_consumes c f aux sc _ hc
      · left
        rw [secureFrame_cases ha, secureFrame_cases hb]
        cases mode with
        | explicit => rfl
        | none =>
          cases hax : f.header.auxSec with
          | none => rfl
          | some aux =>
            have hd : f.header.frameType ≠ .data := fun hd => hx ⟨rfl, ⟨aux, hax⟩, hd⟩
            simp only [if_neg hd]
    rcases key with he | ⟨h1, h2, h3⟩
    · left; rw [he]
    · refine .inr ⟨h1, h2, fun c hc => ?_⟩
      have := h3 c hc
      have hfin : ∀ sec bytes off (ctx : SerDesCtx κ), (finish f sec bytes off ctx).2.2 = ctx := by
        intro sec bytes off ctx
        unfold finish
        rcases f.writeTail ctx.footerMode sec bytes off with ⟨⟨⟩ | e | _, _, _⟩ <;> rfl
      rcases hr : secureFrame c f sc mode (bytes.drop off) with ⟨r, sc', sub⟩
      rw [hr] at this
      simp only at this
      subst this
      cases r with
      | ok n => exact hfin ..
      | panic => rfl
      | err e => cases e <;> first | rfl | exact hfin ..
  · exact .inl rfl
  · exact .inl rfl

end Frame

end Verif
