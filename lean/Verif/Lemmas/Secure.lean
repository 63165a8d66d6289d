import Verif.Spec.SecuritySpec
import Verif.Lemmas.Contained

/-!
# Lemmas: securing outgoing frames
-/

namespace Verif
open Spec

theorem micOctetSize_eq (l : SecurityLevel) : l.micOctetSize = tagLength l := by cases l <;> rfl

theorem tagLength_size {l : SecurityLevel} (h : Authenticating l) :
    tagLength l = 4 ∨ tagLength l = 8 ∨ tagLength l = 16 := by
  cases l <;> simp_all [Authenticating, MicOnly, EncMic, tagLength]

/-- The payload area after an attempt to protect the payload. -/
def protectArea {κ : Type} (aead : Aead κ) (level : SecurityLevel) (key : κ)
    (nonce payload : List UInt8) : List UInt8 :=
  if EncMic level then (aead.encrypt (tagLength level) key nonce [] payload).2 else payload

theorem protectArea_length {κ : Type} {aead : Aead κ} (ht : AeadTyped aead) (level : SecurityLevel)
    (key : κ) (nonce payload : List UInt8) :
    (protectArea aead level key nonce payload).length = payload.length := by
  unfold protectArea
  split
  · exact ht.encrypt_length _ _ _ _ _
  · rfl

theorem protect_area {κ : Type} {aead : Aead κ} {level : SecurityLevel} {key : κ}
    {nonce payload body tag : List UInt8} (h : protect aead level key nonce payload = some (body, tag)) :
    protectArea aead level key nonce payload = body := by
  unfold protect at h
  unfold protectArea
  split at h
  · rename_i hm
    have : ¬ EncMic level := by cases level <;> simp_all [MicOnly, EncMic]
    rw [if_neg this]
    cases h1 : (aead.encrypt (tagLength level) key nonce payload []).1 <;> simp_all
  · split at h
    · rename_i he
      rw [if_pos he]
      rcases h1 : aead.encrypt (tagLength level) key nonce [] payload with ⟨_ | t, b⟩ <;> simp_all
    · cases h

theorem protect_lengths {κ : Type} {aead : Aead κ} (ht : AeadTyped aead) {level : SecurityLevel}
    {key : κ} {nonce payload body tag : List UInt8}
    (h : protect aead level key nonce payload = some (body, tag)) :
    body.length = payload.length ∧ tag.length = tagLength level := by
  constructor
  · rw [← protect_area h, protectArea_length ht]
  · unfold protect at h
    split at h
    · rename_i hm
      have hs := tagLength_size (Or.inl hm)
      cases h1 : (aead.encrypt (tagLength level) key nonce payload []).1 with
      | none => simp [h1] at h
      | some t =>
        simp only [h1, Option.map_some, Option.some.injEq, Prod.mk.injEq] at h
        rw [← h.2]
        exact ht.tag_length _ _ _ _ _ _ hs h1
    · split at h
      · rename_i he
        have hs := tagLength_size (Or.inr he)
        rcases h1 : aead.encrypt (tagLength level) key nonce [] payload with ⟨_ | t, b⟩
        · simp [h1] at h
        · simp only [h1, Option.some.injEq, Prod.mk.injEq] at h
          rw [← h.2]
          exact ht.tag_length _ _ _ _ _ _ hs (by rw [h1])
      · cases h

/-- The effect of `doSecure` on a buffer that holds the payload. -/
theorem doSecure_eq {κ : Type} {aead : Aead κ} (ht : AeadTyped aead) (key : κ) (nonce : List UInt8)
    (level : SecurityLevel) (mic encmic : SecurityLevel) (hl : level = mic ∨ level = encmic)
    (hm : MicOnly mic) (he : EncMic encmic) (payload rest : List UInt8) :
    doSecure aead key nonce level (tagLength level) mic encmic (payload ++ rest) payload.length =
      match protect aead level key nonce payload with
      | none => (.err .transformationError, protectArea aead level key nonce payload ++ rest)
      | some (body, tag) =>
        if rest.length < tag.length then (.err (.writeError .incomplete), body ++ rest)
        else (.ok (payload.length + tag.length), body ++ (tag ++ rest.drop tag.length)) := by
  have htag : ∀ (b tag : List UInt8), b.length = payload.length →
      (match W.write (tryWriteBytes tag) (b ++ rest) payload.length with
      | (.ok (), buffer, offset) => ((.ok offset, buffer) : Out SecErr Nat × List UInt8)
      | (.err e, buffer, _) => (.err (.writeError e), buffer)
      | (.panic, buffer, _) => (.panic, buffer)) =
      if rest.length < tag.length then (.err (.writeError .incomplete), b ++ rest)
      else (.ok (payload.length + tag.length), b ++ (tag ++ rest.drop tag.length)) := by
    intro b tag hb
    rw [← hb]
    unfold W.write
    rw [if_neg (by simp)]
    simp only [List.drop_left, List.take_left]
    unfold tryWriteBytes
    by_cases hr : rest.length < tag.length
    · simp only [if_pos hr]
    · simp only [if_neg hr]
  rcases hl with rfl | rfl
  · have hne : ¬ EncMic level := by cases level <;> simp_all [MicOnly, EncMic]
    unfold doSecure protect protectArea
    rcases h1 : aead.encrypt (tagLength level) key nonce payload [] with ⟨_ | t, b⟩
    · simp only [if_pos, if_pos hm, if_neg hne, List.take_left, h1, Option.map_none]
    · simp only [if_pos, if_pos hm, if_neg hne, List.take_left, h1, Option.map_some]
      exact htag payload t rfl
  · have hne : ¬ MicOnly level := by cases level <;> simp_all [MicOnly, EncMic]
    have hne' : level ≠ mic := by rintro rfl; exact hne hm
    have hlen := ht.encrypt_length (tagLength level) key nonce [] payload
    unfold doSecure protect protectArea
    rcases h1 : aead.encrypt (tagLength level) key nonce [] payload with ⟨_ | t, b⟩
    · simp only [if_neg hne', if_pos, if_neg hne, if_pos he, List.take_left, List.drop_left, h1]
    · rw [h1] at hlen
      simp only [if_neg hne', if_pos, if_neg hne, if_pos he, List.take_left, List.drop_left, h1]
      exact htag b t hlen

/-- The context after one counter value was used. -/
def SecCtx.next {κ : Type} (sc : SecCtx κ) : SecCtx κ := { sc with frameCounter := sc.frameCounter + 1 }

/-- `secureFrame` for a secured data frame, spelled out. -/
def secureData {κ : Type} (aead : Aead κ) (f : Frame) (aux : AuxHeader) (sc : SecCtx κ)
    (buf : List UInt8) : Out SecErr Nat × SecCtx κ × List UInt8 :=
  let level := aux.control.securityLevel
  let p := f.payload.length
  if 125 < p + uncompressedLength f.header + auxLength aux.keyIdentifier + tagLength level then
    (.err .frameTooLong, sc, buf)
  else if buf.length < p then (.err (.writeError .incomplete), sc, buf)
  else if level = .none then (.ok p, sc, f.payload ++ buf.drop p)
  else if sc.frameCounter = 0xFFFFFFFF then (.err .counterError, sc, f.payload ++ buf.drop p)
  else match sc.keyProvider .dst aux.keyIdentifier f.header.destination with
    | none => (.err .unavailableKey, sc.next, f.payload ++ buf.drop p)
    | some (_, key) =>
      if level = .enc then (.err .notImplemented, sc.next, f.payload ++ buf.drop p)
      else
        let nonce := calculateNonce sc.euid sc.frameCounter level
        match protect aead level key nonce f.payload with
        | none => (.err .transformationError, sc.next,
            protectArea aead level key nonce f.payload ++ buf.drop p)
        | some (body, tag) =>
          if (buf.drop p).length < tag.length then
            (.err (.writeError .incomplete), sc.next, body ++ buf.drop p)
          else (.ok (p + tag.length), sc.next, body ++ (tag ++ (buf.drop p).drop tag.length))

theorem secureFrame_data {κ : Type} {aead : Aead κ} (ht : AeadTyped aead) (f : Frame) (aux : AuxHeader)
    (sc : SecCtx κ) (ha : f.header.auxSec = some aux) (hd : f.header.frameType = .data)
    (buf : List UInt8) :
    secureFrame aead f sc .none buf = secureData aead f aux sc buf := by
  have hs : f.header.hasSecurity = true := by simp [Header.hasSecurity, ha]
  have hlen : ∀ n : Nat, (¬ (n + 2 ≤ 127)) ↔ 125 < n := by intro n; omega
  unfold secureFrame secureData
  simp only [hs, if_true, hd, ne_eq, not_true, if_false, ha, micOctetSize_eq, AuxHeader.octetSize_eq, Header.octetSize_eq, hlen]
  split
  · rfl
  · by_cases hp : buf.length < f.payload.length
    · have : W.write (tryWriteBytes f.payload) buf 0 = (.err .incomplete, buf, 0) := by
        simp [W.write, tryWriteBytes, hp]
      rw [this, if_pos hp]
    · have : W.write (tryWriteBytes f.payload) buf 0 =
          (.ok (), f.payload ++ buf.drop f.payload.length, f.payload.length) := by
        simp [W.write, tryWriteBytes, hp]
      rw [this, if_neg hp]
      simp only
      split
      · rfl
      · split
        · rfl
        · rename_i hnone hctr
          simp only [SecCtx.next]
          cases hk : sc.keyProvider .dst aux.keyIdentifier f.header.destination with
          | none => rfl
          | some ek =>
            obtain ⟨eui, key⟩ := ek
            simp only
            generalize aux.control.securityLevel = level at *
            have key_eq : ∀ (t : Nat) (mic encmic : SecurityLevel), t = tagLength level →
                (level = mic ∨ level = encmic) → MicOnly mic → EncMic encmic →
                doSecure aead key (calculateNonce sc.euid sc.frameCounter level) level t mic encmic
                  (f.payload ++ buf.drop f.payload.length) f.payload.length =
                match protect aead level key (calculateNonce sc.euid sc.frameCounter level) f.payload with
                | none => (.err .transformationError, protectArea aead level key
                    (calculateNonce sc.euid sc.frameCounter level) f.payload ++ buf.drop f.payload.length)
                | some (body, tag) =>
                  if (buf.drop f.payload.length).length < tag.length then
                    (.err (.writeError .incomplete), body ++ buf.drop f.payload.length)
                  else (.ok (f.payload.length + tag.length),
                    body ++ (tag ++ (buf.drop f.payload.length).drop tag.length)) := by
              rintro t mic encmic rfl hl hm he
              exact doSecure_eq ht key _ level mic encmic hl hm he f.payload _
            cases level with
            | none => exact absurd rfl hnone
            | enc => rfl
            | mic32 | mic64 | mic128 | encmic32 | encmic64 | encmic128 =>
              simp only [reduceCtorEq, if_false]
              first
                | rw [key_eq 4 .mic32 .encmic32 rfl (by simp) trivial trivial]
                | rw [key_eq 8 .mic64 .encmic64 rfl (by simp) trivial trivial]
                | rw [key_eq 16 .mic128 .encmic128 rfl (by simp) trivial trivial]
              generalize protect aead _ key _ f.payload = pr
              rcases pr with _ | ⟨body, tag⟩
              · rfl
              · simp only
                split <;> rfl

end Verif

namespace Verif
open Spec

/-- `secureFrame` in every case. -/
theorem secureFrame_cases {κ : Type} {aead : Aead κ} (ht : AeadTyped aead) (f : Frame) (sc : SecCtx κ)
    (mode : FooterMode) (buf : List UInt8) :
    secureFrame aead f sc mode buf =
      match mode, f.header.auxSec with
      | .explicit, _ => (.panic, sc, buf)
      | .none, none => (.err .securityNotEnabled, sc, buf)
      | .none, some aux =>
        if f.header.frameType = .data then secureData aead f aux sc buf
        else (.err .notImplemented, sc, buf) := by
  cases mode with
  | explicit => rfl
  | none =>
    cases ha : f.header.auxSec with
    | none => exact Frame.secureFrame_unsecured aead f sc ha buf
    | some aux =>
      have hs : f.header.hasSecurity = true := by simp [Header.hasSecurity, ha]
      by_cases hd : f.header.frameType = .data
      · simp only [if_pos hd]; exact secureFrame_data ht f aux sc ha hd buf
      · simp [secureFrame, hs, hd]

/-- What `secureData` can do to the buffer. -/
theorem secureData_contained {κ : Type} {aead : Aead κ} (ht : AeadTyped aead) (f : Frame)
    (aux : AuxHeader) (sc : SecCtx κ) (buf : List UInt8) :
    (secureData aead f aux sc buf).2.2.length = buf.length ∧
    ∀ n, (secureData aead f aux sc buf).1 = .ok n →
      n ≤ buf.length ∧ (secureData aead f aux sc buf).2.2.drop n = buf.drop n := by
  unfold secureData
  simp only
  split
  · exact ⟨rfl, by simp⟩
  split
  · exact ⟨rfl, by simp⟩
  rename_i hp
  have hl : (f.payload ++ buf.drop f.payload.length).length = buf.length := by simp; omega
  split
  · exact ⟨hl, fun n hn => by cases hn; exact ⟨by omega, by simp⟩⟩
  split
  · exact ⟨hl, by simp⟩
  split
  · exact ⟨hl, by simp⟩
  split
  · exact ⟨hl, by simp⟩
  split
  · refine ⟨?_, by simp⟩
    rw [List.length_append, protectArea_length ht]; simpa using hl
  · rename_i body tag hpr
    have hpl := protect_lengths ht hpr
    split
    · refine ⟨?_, by simp⟩
      rw [List.length_append, hpl.1]; simpa using hl
    · rename_i hr
      simp only [List.length_drop] at hr
      refine ⟨?_, ?_⟩
      · simp only [List.length_append, hpl.1, List.length_drop]; omega
      · intro n hn
        cases hn
        refine ⟨by omega, ?_⟩
        rw [← List.append_assoc, show f.payload.length + tag.length = (body ++ tag).length by simp [hpl.1],
          List.drop_left, List.drop_drop]
        simp [hpl.1]

theorem secureFrame_contained {κ : Type} {aead : Aead κ} (ht : AeadTyped aead) (f : Frame)
    (sc : SecCtx κ) (mode : FooterMode) (buf : List UInt8) :
    (secureFrame aead f sc mode buf).2.2.length = buf.length ∧
    ∀ n, (secureFrame aead f sc mode buf).1 = .ok n →
      n ≤ buf.length ∧ (secureFrame aead f sc mode buf).2.2.drop n = buf.drop n := by
  rw [secureFrame_cases ht]
  split
  · exact ⟨rfl, by simp⟩
  · exact ⟨rfl, by simp⟩
  · split
    · exact secureData_contained ht f _ sc buf
    · exact ⟨rfl, by simp⟩

namespace Frame

theorem finish_contained {κ : Type} (f : Frame) (sec : Bool) (bytes : List UInt8) (off : Nat)
    (ctx : SerDesCtx κ) (h : off ≤ bytes.length) :
    (finish f sec bytes off ctx).2.1.length = bytes.length ∧
    ∀ n, (finish f sec bytes off ctx).1 = .ok n →
      off ≤ n ∧ n ≤ bytes.length ∧ (finish f sec bytes off ctx).2.1.drop n = bytes.drop n := by
  have hc : WCont (f.writeTail ctx.footerMode sec) := by
    unfold writeTail
    cases sec <;> cases ctx.footerMode <;> dsimp only <;>
      simp only [Bool.false_eq_true, not_false_eq_true, not_true_eq_false, if_true, if_false]
    · exact WCont.bind (WCont.write (Contained.bytes _)) fun _ => WCont.pure _
    · exact WCont.bind (WCont.write (Contained.bytes _)) fun _ => WCont.write (Contained.bytes _)
    · exact WCont.pure _
    · exact WCont.write (Contained.bytes _)
  rcases he : f.writeTail ctx.footerMode sec bytes off with ⟨r, b', o'⟩
  have h1 := hc bytes off h _ _ _ he
  unfold finish
  rw [he]
  cases r with
  | ok a => exact ⟨h1.1, fun n hn => by cases hn; exact h1.2.2 a rfl⟩
  | err e => exact ⟨h1.1, by simp⟩
  | panic => exact ⟨h1.1, by simp⟩

theorem contained {κ : Type} (cfg : Cfg) {aead : Aead κ} (ht : AeadTyped aead) (f : Frame)
    (ctx : SerDesCtx κ) : Contained (frameWriter cfg aead f ctx) := by
  have key : ∀ buf, (f.tryWrite cfg aead ctx buf).2.1.length = buf.length ∧
      ∀ n, (f.tryWrite cfg aead ctx buf).1 = .ok n →
        n ≤ buf.length ∧ (f.tryWrite cfg aead ctx buf).2.1.drop n = buf.drop n := by
    intro buf
    have hc : WCont (f.writeHead cfg ctx.securityCtx) :=
      WCont.bind (WCont.write (Header.contained cfg f.header _)) fun _ =>
        WCont.write (FrameContent.contained _)
    rcases he : f.writeHead cfg ctx.securityCtx buf 0 with ⟨r, b', o'⟩
    have h1 := hc buf 0 (Nat.zero_le _) _ _ _ he
    rw [tryWrite_eq, he]
    cases r with
    | err e => exact ⟨h1.1, by simp⟩
    | panic => exact ⟨h1.1, by simp⟩
    | ok a =>
      have h1o := h1.2.2 a rfl
      have h1l := h1.1
      simp only
      unfold afterHead
      cases hsc : ctx.securityCtx with
      | none =>
        have h2 := finish_contained f false b' o' ctx (by omega)
        refine ⟨by rw [h2.1, h1l], fun n hn => ?_⟩
        have h3 := h2.2 n hn
        refine ⟨by omega, ?_⟩
        rw [h3.2.2]
        have := congrArg (List.drop (n - o')) h1o.2.2
        simpa [List.drop_drop, show o' + (n - o') = n by omega] using this
      | some sc =>
        simp only
        have h2 := secureFrame_contained ht f sc ctx.footerMode (b'.drop o')
        rcases hs : secureFrame aead f sc ctx.footerMode (b'.drop o') with ⟨r2, sc', sub⟩
        rw [hs] at h2
        simp only [List.length_drop] at h2
        have htake : (b'.take o').length = o' := by simp; omega
        have hlen : (b'.take o' ++ sub).length = buf.length := by
          rw [List.length_append, htake, h2.1]; omega
        have hdrop : ∀ n, o' ≤ n → (b'.take o' ++ sub).drop n = sub.drop (n - o') := by
          intro n hn
          rw [List.drop_append, List.drop_of_length_le (by omega), List.nil_append, htake]
        have hdb : ∀ n, o' ≤ n → b'.drop n = buf.drop n := by
          intro n hn
          have := congrArg (List.drop (n - o')) h1o.2.2
          simpa [List.drop_drop, show o' + (n - o') = n by omega] using this
        cases r2 with
        | ok len =>
          simp only
          have h2' := h2.2 len rfl
          have h3 := finish_contained f true (b'.take o' ++ sub) (o' + len)
            { ctx with securityCtx := some sc' } (by rw [hlen]; omega)
          refine ⟨by rw [h3.1, hlen], fun n hn => ?_⟩
          have h4 := h3.2 n hn
          refine ⟨by omega, ?_⟩
          rw [h4.2.2, hdrop n (by omega), ← hdb n (by omega)]
          have := congrArg (List.drop (n - o' - len)) h2'.2
          simp only [List.drop_drop] at this
          rw [show len + (n - o' - len) = n - o' by omega] at this
          rw [this]; congr 1; omega
        | panic => exact ⟨hlen, by simp⟩
        | err e =>
          by_cases hne : e = .securityNotEnabled
          · subst hne
            have hsub : sub = b'.drop o' := by
              rw [secureFrame_cases ht] at hs
              cases hm : ctx.footerMode with
              | explicit => rw [hm] at hs; simp at hs
              | none =>
                rw [hm] at hs
                cases ha : f.header.auxSec with
                | none => rw [ha] at hs; simp at hs; exact hs.2.symm
                | some aux =>
                  rw [ha] at hs
                  simp only at hs
                  split at hs
                  · unfold secureData at hs
                    simp only at hs
                    repeat' split at hs
                    all_goals simp at hs
                  · simp at hs
            simp only
            have h3 := finish_contained f false (b'.take o' ++ sub) o'
              { ctx with securityCtx := some sc' } (by rw [hlen]; omega)
            refine ⟨by rw [h3.1, hlen], fun n hn => ?_⟩
            have h4 := h3.2 n hn
            refine ⟨by omega, ?_⟩
            rw [h4.2.2, hsub, List.take_append_drop, hdb n h4.1]
          · cases e <;> first | exact absurd rfl hne | exact ⟨hlen, by simp⟩
  exact ⟨fun b => (key b).1, fun b => (key b).2⟩

end Frame

end Verif
