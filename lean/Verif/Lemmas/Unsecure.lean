import Verif.Lemmas.SecureWrite

/-!
# Lemmas: unsecuring incoming frames
-/

namespace Verif
open Spec

/-- The protected area after checking it. -/
def checkArea {κ : Type} (aead : Aead κ) (level : SecurityLevel) (key : κ)
    (nonce body tag : List UInt8) : List UInt8 :=
  if EncMic level then (aead.decrypt (tagLength level) key nonce [] body tag).2 else body

theorem checkArea_length {κ : Type} {aead : Aead κ} (ht : AeadTyped aead) (level : SecurityLevel)
    (key : κ) (nonce body tag : List UInt8) :
    (checkArea aead level key nonce body tag).length = body.length := by
  unfold checkArea
  split
  · exact ht.decrypt_length _ _ _ _ _ _
  · rfl

theorem unprotect_area {κ : Type} {aead : Aead κ} {level : SecurityLevel} {key : κ}
    {nonce body tag payload : List UInt8} (h : unprotect aead level key nonce body tag = some payload) :
    checkArea aead level key nonce body tag = payload := by
  unfold unprotect at h
  unfold checkArea
  split at h
  · rename_i hm
    have : ¬ EncMic level := by cases level <;> simp_all [MicOnly, EncMic]
    rw [if_neg this]
    split at h <;> simp_all
  · split at h
    · rename_i he
      rw [if_pos he]
      rcases h1 : aead.decrypt (tagLength level) key nonce [] body tag with ⟨_ | _, b⟩ <;> simp_all
    · cases h

theorem unprotect_length {κ : Type} {aead : Aead κ} (ht : AeadTyped aead) {level : SecurityLevel}
    {key : κ} {nonce body tag payload : List UInt8}
    (h : unprotect aead level key nonce body tag = some payload) : payload.length = body.length := by
  rw [← unprotect_area h, checkArea_length ht]

/-- With the laws of an AEAD, a payload protected is a payload recovered. -/
theorem unprotect_protect {κ : Type} {aead : Aead κ} (hl : AeadLaws aead) {level : SecurityLevel}
    {key : κ} {nonce payload body tag : List UInt8}
    (h : protect aead level key nonce payload = some (body, tag)) :
    unprotect aead level key nonce body tag = some payload := by
  unfold protect at h
  unfold unprotect
  split at h
  · rename_i hm
    rw [if_pos hm]
    rcases h1 : aead.encrypt (tagLength level) key nonce payload [] with ⟨_ | t, b⟩
    · simp [h1] at h
    · simp only [h1, Option.map_some, Option.some.injEq, Prod.mk.injEq] at h
      obtain ⟨rfl, rfl⟩ := h
      have hb := hl.encrypt_length (tagLength level) key nonce payload []
      rw [h1] at hb
      have : b = [] := List.length_eq_zero_iff.mp (by simpa using hb)
      subst this
      rw [hl.decrypts _ _ _ _ _ _ _ (tagLength_size (Or.inl hm)) h1]
      rfl
  · split at h
    · rename_i hm he
      rw [if_neg hm, if_pos he]
      rcases h1 : aead.encrypt (tagLength level) key nonce [] payload with ⟨_ | t, b⟩
      · simp [h1] at h
      · simp only [h1, Option.some.injEq, Prod.mk.injEq] at h
        obtain ⟨rfl, rfl⟩ := h
        rw [hl.decrypts _ _ _ _ _ _ _ (tagLength_size (Or.inr he)) h1]
    · cases h

/-- Only a protected payload is recovered. -/
theorem protect_of_unprotect {κ : Type} {aead : Aead κ} (hl : AeadLaws aead) {level : SecurityLevel}
    {key : κ} {nonce payload body tag : List UInt8} (htag : tag.length = tagLength level)
    (h : unprotect aead level key nonce body tag = some payload) :
    protect aead level key nonce payload = some (body, tag) := by
  unfold unprotect at h
  unfold protect
  split at h
  · rename_i hm
    rw [if_pos hm]
    split at h
    · rename_i hd
      simp only [Option.some.injEq] at h
      subst h
      rcases h1 : aead.decrypt (tagLength level) key nonce body [] tag with ⟨ok, b⟩
      rw [h1] at hd
      simp only at hd
      subst hd
      have hb := hl.decrypt_length (tagLength level) key nonce body [] tag
      rw [h1] at hb
      have : b = [] := List.length_eq_zero_iff.mp (by simpa using hb)
      subst this
      rw [hl.only _ _ _ _ _ _ _ (tagLength_size (Or.inl hm)) htag h1]
      rfl
    · cases h
  · split at h
    · rename_i hm he
      rw [if_neg hm, if_pos he]
      rcases h1 : aead.decrypt (tagLength level) key nonce [] body tag with ⟨_ | _, b⟩
      · simp [h1] at h
      · simp only [h1, Option.some.injEq] at h
        subst h
        rw [hl.only _ _ _ _ _ _ _ (tagLength_size (Or.inr he)) htag h1]
    · cases h

theorem tagLength_le (l : SecurityLevel) : tagLength l ≤ 16 := by cases l <;> decide

theorem PtrWidth.bits_ge (w : PtrWidth) : 65536 ≤ 2 ^ w.bits := by cases w <;> decide

/-- The effect of `doUnsecure`. -/
theorem doUnsecure_eq {κ : Type} (cfg : Cfg) (aead : Aead κ) (key : κ) (nonce : List UInt8)
    (fc : UInt32) (level : SecurityLevel) (t : Nat) (htt : t = tagLength level) (mic encmic : SecurityLevel)
    (hl : level = mic ∨ level = encmic) (hm : MicOnly mic) (he : EncMic encmic) (buf : List UInt8) :
    doUnsecure cfg aead key nonce fc level t mic encmic buf =
      if buf.length < tagLength level then (.panic, buf)
      else
        let body := buf.take (buf.length - tagLength level)
        let tag := buf.drop (buf.length - tagLength level)
        let area := checkArea aead level key nonce body tag ++ tag
        match unprotect aead level key nonce body tag with
        | none => (.err .transformationError, area)
        | some _ => if fc = 0xFFFFFFFF ∧ cfg.overflowChecks = true then (.panic, area)
          else (.ok (tagLength level, fc + 1), area) := by
  subst htt
  have htl := tagLength_le level
  have hbits := cfg.usize.bits_ge
  by_cases hb : buf.length < tagLength level
  · rw [if_pos hb]
    unfold doUnsecure
    simp only [micOctetSize_eq]
    unfold usub
    rw [if_neg (by omega)]
    split
    · rfl
    · rename_i heq
      split at heq <;> cases heq
    · rename_i start heq
      split at heq
      · cases heq
      · simp only [Out.ok.injEq] at heq
        rw [if_pos (by omega)]
  · rw [if_neg hb]
    have hu : (usub cfg buf.length (tagLength level) : Out SecErr Nat)
        = .ok (buf.length - tagLength level) := by unfold usub; rw [if_pos (by omega)]
    have hc1 : ¬ ¬ (buf.length - tagLength level ≤ buf.length) := by omega
    have hc2 : ¬ ¬ ((buf.drop (buf.length - tagLength level)).length = tagLength level) := by
      simp; omega
    have hbuf := List.take_append_drop (buf.length - tagLength level) buf
    rcases hl with rfl | rfl
    · have hne : ¬ EncMic level := by cases level <;> simp_all [MicOnly, EncMic]
      unfold doUnsecure unprotect checkArea
      rcases h1 : aead.decrypt (tagLength level) key nonce (buf.take (buf.length - tagLength level)) []
        (buf.drop (buf.length - tagLength level)) with ⟨_ | _, b⟩
      · simp only [micOctetSize_eq, hu, if_neg hc1, if_neg hc2, if_pos, if_pos hm, if_neg hne, h1, hbuf]
        simp
      · simp only [micOctetSize_eq, hu, if_neg hc1, if_neg hc2, if_pos, if_pos hm, if_neg hne, h1, u32Succ,
          hbuf]
        by_cases hf : fc = 0xFFFFFFFF ∧ cfg.overflowChecks = true
        · simp only [if_pos hf]
        · simp only [if_neg hf]
    · have hne : ¬ MicOnly level := by cases level <;> simp_all [MicOnly, EncMic]
      have hne' : level ≠ mic := by rintro rfl; exact hne hm
      unfold doUnsecure unprotect checkArea
      rcases h1 : aead.decrypt (tagLength level) key nonce [] (buf.take (buf.length - tagLength level))
        (buf.drop (buf.length - tagLength level)) with ⟨_ | _, b⟩
      · simp only [micOctetSize_eq, hu, if_neg hc1, if_neg hc2, if_pos, if_neg hne, if_neg hne', if_pos he, h1]
      · simp only [micOctetSize_eq, hu, if_neg hc1, if_neg hc2, if_pos, if_neg hne, if_neg hne', if_pos he, h1,
          u32Succ]
        by_cases hf : fc = 0xFFFFFFFF ∧ cfg.overflowChecks = true
        · simp only [if_pos hf]
        · simp only [if_neg hf]

/-- `unsecureFrame` for a secured data frame of a current version, spelled out. -/
def unsecureData {κ σ : Type} (cfg : Cfg) (aead : Aead κ) (h : Header) (aux : AuxHeader)
    (buf : List UInt8) (sc : SecCtx κ) (lookup : DevLookup σ) (dev : σ) :
    Out SecErr Nat × List UInt8 × SecCtx κ × σ :=
  let level := aux.control.securityLevel
  if level = .none then (.err .unsupportedSecurity, buf, sc, dev)
  else match sc.keyProvider .src aux.keyIdentifier h.source with
    | none => (.err .unavailableKey, buf, sc, dev)
    | some (eui, key) =>
      match h.source with
      | none => (.err .noSourceAddress, buf, sc, dev)
      | some src =>
        match lookup dev .src src with
        | (dev, none) => (.err .unavailableDevice, buf, sc, dev)
        | (dev, some (device, store)) =>
          if device.frameCounter = 0xFFFFFFFF ∨ aux.frameCounter < device.frameCounter then
            (.err .counterError, buf, sc, dev)
          else if level = .enc then (.err .notImplemented, buf, sc, dev)
          else if buf.length < tagLength level then (.panic, buf, sc, dev)
          else
            let nonce := calculateNonce eui aux.frameCounter level
            let body := buf.take (buf.length - tagLength level)
            let tag := buf.drop (buf.length - tagLength level)
            let area := checkArea aead level key nonce body tag ++ tag
            match unprotect aead level key nonce body tag with
            | none => (.err .transformationError, area, sc, dev)
            | some _ =>
              if aux.frameCounter = 0xFFFFFFFF ∧ cfg.overflowChecks = true then (.panic, area, sc, dev)
              else (.ok (tagLength level), area, sc,
                store { device with frameCounter := aux.frameCounter + 1 })

theorem unsecureFrame_cases {κ σ : Type} (cfg : Cfg) (aead : Aead κ) (h : Header) (aux : AuxHeader)
    (ha : h.auxSec = some aux) (buf : List UInt8) (sc : SecCtx κ) (mode : FooterMode)
    (lookup : DevLookup σ) (dev : σ) :
    unsecureFrame cfg aead h buf sc mode lookup dev =
      match mode with
      | .explicit => (.panic, buf, sc, dev)
      | .none =>
        if h.frameType ≠ .data then (.err .notImplemented, buf, sc, dev)
        else if h.version = .ieee802154_2003 then (.err .unsupportedLegacy, buf, sc, dev)
        else unsecureData cfg aead h aux buf sc lookup dev := by
  have hs : h.hasSecurity = true := by simp [Header.hasSecurity, ha]
  cases mode with
  | explicit => rfl
  | none =>
    unfold unsecureFrame unsecureData
    simp only [hs, if_true, ha]
    split
    · rfl
    split
    · rfl
    split
    · rfl
    rename_i hnone
    cases hk : sc.keyProvider .src aux.keyIdentifier h.source with
    | none => rfl
    | some ek =>
      obtain ⟨eui, key⟩ := ek
      simp only
      cases hsrc : h.source with
      | none => rfl
      | some src =>
        simp only
        rcases hlk : lookup dev .src src with ⟨dev1, _ | ⟨device, store⟩⟩
        · rfl
        · simp only
          split
          · rfl
          · generalize aux.control.securityLevel = level at *
            have key_eq : ∀ (t : Nat) (mic encmic : SecurityLevel), t = tagLength level →
                (level = mic ∨ level = encmic) → MicOnly mic → EncMic encmic →
                ((match doUnsecure cfg aead key (calculateNonce eui aux.frameCounter level)
                    aux.frameCounter level t mic encmic buf with
                  | (.ok (taglen, fc'), buffer) =>
                      (.ok taglen, buffer, sc, store { device with frameCounter := fc' })
                  | (.err e, buffer) => (.err e, buffer, sc, dev1)
                  | (.panic, buffer) => (.panic, buffer, sc, dev1)) :
                    Out SecErr Nat × List UInt8 × SecCtx κ × σ) =
                if buf.length < tagLength level then (.panic, buf, sc, dev1)
                else
                  let nonce := calculateNonce eui aux.frameCounter level
                  let body := buf.take (buf.length - tagLength level)
                  let tag := buf.drop (buf.length - tagLength level)
                  let area := checkArea aead level key nonce body tag ++ tag
                  match unprotect aead level key nonce body tag with
                  | none => (.err .transformationError, area, sc, dev1)
                  | some _ =>
                    if aux.frameCounter = 0xFFFFFFFF ∧ cfg.overflowChecks = true then
                      (.panic, area, sc, dev1)
                    else (.ok (tagLength level), area, sc,
                      store { device with frameCounter := aux.frameCounter + 1 }) := by
              intro t mic encmic htt hl hm he
              rw [doUnsecure_eq cfg aead key _ _ level t htt mic encmic hl hm he buf]
              by_cases hb : buf.length < tagLength level
              · simp only [if_pos hb]
              · simp only [if_neg hb]
                generalize unprotect aead level key _ _ _ = pr
                rcases pr with _ | p
                · rfl
                · simp only
                  by_cases hf : aux.frameCounter = 0xFFFFFFFF ∧ cfg.overflowChecks = true
                  · simp only [if_pos hf]
                  · simp only [if_neg hf]
            cases level with
            | none => exact absurd rfl hnone
            | enc => rfl
            | mic32 | mic64 | mic128 | encmic32 | encmic64 | encmic128 =>
              simp only [reduceCtorEq, if_false]
              first
                | exact key_eq 4 .mic32 .encmic32 rfl (by simp) trivial trivial
                | exact key_eq 8 .mic64 .encmic64 rfl (by simp) trivial trivial
                | exact key_eq 16 .mic128 .encmic128 rfl (by simp) trivial trivial

end Verif
