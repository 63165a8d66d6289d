import Verif.Lemmas.Secure

/-!
# Lemmas: writing secured frames
-/

namespace Verif
open Spec

namespace Frame

/-- Result of a write in terms of the result of securing. -/
def securedResult {κ : Type} (mode : FooterMode) (head : List UInt8) :
    Out SecErr Nat × SecCtx κ × List UInt8 → Out ByteErr Nat × List UInt8 × SerDesCtx κ
  | (.ok n, sc, sub) => (.ok (head.length + n), head ++ sub, ⟨mode, some sc⟩)
  | (.err e, sc, sub) => (.err e.toByteErr, head ++ sub, ⟨mode, some sc⟩)
  | (.panic, sc, sub) => (.panic, head ++ sub, ⟨mode, some sc⟩)

theorem secureData_enabled {κ : Type} (aead : Aead κ) (f : Frame) (aux : AuxHeader) (sc : SecCtx κ)
    (buf : List UInt8) : (secureData aead f aux sc buf).1 ≠ .err .securityNotEnabled ∧
      (secureData aead f aux sc buf).1 ≠ .panic := by
  unfold secureData
  simp only
  repeat' split
  all_goals simp

/-- A secured data frame whose header and content fit. -/
theorem tryWrite_secured {κ : Type} (cfg : Cfg) {aead : Aead κ} (ht : AeadTyped aead) (f : Frame)
    (aux : AuxHeader) (sc : SecCtx κ) (he : Encodable f.header) (hc : ContentFromApi f.content)
    (ha : f.header.auxSec = some aux) (hd : f.header.frameType = .data) (buf : List UInt8)
    (hl : (securedHead cfg sc.frameCounter f).length ≤ buf.length) :
    f.tryWrite cfg aead ⟨.none, some sc⟩ buf =
      securedResult .none (securedHead cfg sc.frameCounter f)
        (secureData aead f aux sc (buf.drop (securedHead cfg sc.frameCounter f).length)) := by
  have hh := writeHead_ok cfg f (some sc) he hc (by simp)
  rw [tryWrite_head cfg aead f ⟨.none, some sc⟩ hh buf hl]
  show afterHead aead f _ (securedHead cfg sc.frameCounter f ++
    buf.drop (securedHead cfg sc.frameCounter f).length) (securedHead cfg sc.frameCounter f).length = _
  generalize securedHead cfg sc.frameCounter f = head at *
  unfold afterHead
  simp only [List.drop_left, List.take_left]
  rw [secureFrame_data ht f aux sc ha hd]
  have hn := secureData_enabled aead f aux sc (buf.drop head.length)
  rcases hr : secureData aead f aux sc (buf.drop head.length) with ⟨r, sc', sub⟩
  rw [hr] at hn
  cases r with
  | ok n => simp [finish, securedResult, writeTail, pure, W.pure]
  | panic => exact absurd rfl hn.2
  | err e => cases e <;> first | rfl | exact absurd (by rfl) hn.1

/-- A secured frame of another type: refused, nothing touched behind header and content. -/
theorem tryWrite_not_data {κ : Type} (cfg : Cfg) (aead : Aead κ) (f : Frame) (sc : SecCtx κ)
    (he : Encodable f.header) (hc : ContentFromApi f.content)
    (ha : f.header.auxSec.isSome = true) (hd : f.header.frameType ≠ .data) (buf : List UInt8)
    (hl : (securedHead cfg sc.frameCounter f).length ≤ buf.length) :
    f.tryWrite cfg aead ⟨.none, some sc⟩ buf =
      (.err (SecErr.toByteErr .notImplemented),
        securedHead cfg sc.frameCounter f ++ buf.drop (securedHead cfg sc.frameCounter f).length,
        ⟨.none, some sc⟩) := by
  have hh := writeHead_ok cfg f (some sc) he hc (by simp)
  rw [tryWrite_head cfg aead f ⟨.none, some sc⟩ hh buf hl]
  show afterHead aead f _ (securedHead cfg sc.frameCounter f ++
    buf.drop (securedHead cfg sc.frameCounter f).length) (securedHead cfg sc.frameCounter f).length = _
  have hs : f.header.hasSecurity = true := ha
  unfold afterHead
  simp only [List.drop_left, List.take_left, secureFrame, hs, if_true, hd, ne_eq, not_false_eq_true]

/-- Header and content that do not fit. -/
theorem tryWrite_secured_short {κ : Type} (cfg : Cfg) (aead : Aead κ) (f : Frame) (mode : FooterMode)
    (sc : SecCtx κ) (he : Encodable f.header) (hc : ContentFromApi f.content) (buf : List UInt8)
    (hl : buf.length < (securedHead cfg sc.frameCounter f).length) :
    ∃ buf', f.tryWrite cfg aead ⟨mode, some sc⟩ buf = (.err .incomplete, buf', ⟨mode, some sc⟩) := by
  have hh := writeHead_ok cfg f (some sc) he hc (by simp)
  obtain ⟨k, _, h⟩ := tryWrite_short cfg aead f ⟨mode, some sc⟩ hh buf hl
  exact ⟨_, h⟩

end Frame

end Verif
