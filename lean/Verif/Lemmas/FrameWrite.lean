import Verif.Lemmas.Frame

/-!
# Lemmas: writing frames
-/

namespace Verif
open Spec

namespace Frame

/-- Header and content of a writable frame. -/
theorem writeHead_ok {κ : Type} (cfg : Cfg) (f : Frame) (sc : Option (SecCtx κ))
    (he : Encodable f.header) (hc : ContentFromApi f.content)
    (hs : f.header.auxSec.isSome = true → sc.isSome = true) :
    WSpec (f.writeHead cfg sc) (.ok ())
      (headerOctets f.header false false false (auxAsWritten cfg (ctxCounter sc) f.header.auxSec)
        ++ contentOctets f.content) := by
  have hr : Header.auxResult f.header sc = .ok () := by
    unfold Header.auxResult
    cases h1 : f.header.auxSec <;> cases h2 : sc <;> simp_all
  have ha : Header.auxWritten cfg f.header sc = auxAsWritten cfg (ctxCounter sc) f.header.auxSec := by
    unfold Header.auxWritten
    cases h1 : f.header.auxSec <;> cases h2 : sc <;> simp_all [auxAsWritten, ctxCounter]
  have hw := Header.writes cfg f.header sc he
  rw [hr, ha] at hw
  exact WSpec.bind (WSpec.write hw) (WSpec.write (f.content.writes hc))

/-- A secured frame without context: the header is refused. -/
theorem writeHead_missing {κ : Type} (cfg : Cfg) (f : Frame) (he : Encodable f.header)
    (hs : f.header.auxSec.isSome = true) :
    WSpec (f.writeHead cfg (none : Option (SecCtx κ))) (.err (.badInput "MissingSecurityCtx"))
      (headerOctets f.header false false false []) := by
  have hr : Header.auxResult f.header (none : Option (SecCtx κ)) = .err (.badInput "MissingSecurityCtx") := by
    unfold Header.auxResult
    cases h1 : f.header.auxSec <;> simp_all
  have ha : Header.auxWritten cfg f.header (none : Option (SecCtx κ)) = [] := by
    unfold Header.auxWritten
    cases h1 : f.header.auxSec <;> simp_all
  have hw := Header.writes cfg f.header (none : Option (SecCtx κ)) he
  rw [hr, ha] at hw
  exact WSpec.bind_err (WSpec.write hw)

theorem writeHead_refused {κ : Type} (cfg : Cfg) (f : Frame) (sc : Option (SecCtx κ))
    (he : ¬ Encodable f.header) :
    WSpec (f.writeHead cfg sc) (.err (.badInput "DisallowedPanIdCompress"))
      (le 2 (frameControl f.header false false false) ++ [f.header.seq]) :=
  WSpec.bind_err (WSpec.write (Header.writes_refused cfg f.header sc he))

/-- Payload and footer, when security did not write the payload. -/
theorem writeTail_spec (f : Frame) (mode : FooterMode) :
    WSpec (f.writeTail mode false) (.ok ()) (f.payload ++ footerOctets mode f.footer) := by
  have hb := WSpec.write (Writes.bytes f.payload)
  unfold writeTail
  cases mode with
  | none => exact WSpec.bind hb (WSpec.pure ())
  | explicit => exact WSpec.bind hb (WSpec.write (Writes.bytes _))

/-- The end of `tryWrite`. -/
def finish {κ : Type} (f : Frame) (sec : Bool) (bytes : List UInt8) (offset : Nat) (ctx : SerDesCtx κ) :
    Out ByteErr Nat × List UInt8 × SerDesCtx κ :=
  match f.writeTail ctx.footerMode sec bytes offset with
  | (.ok (), bytes, offset) => (.ok offset, bytes, ctx)
  | (.err e, bytes, _) => (.err e, bytes, ctx)
  | (.panic, bytes, _) => (.panic, bytes, ctx)

/-- Everything after header and content. -/
def afterHead {κ : Type} (aead : Aead κ) (f : Frame) (ctx : SerDesCtx κ) (bytes : List UInt8)
    (offset : Nat) : Out ByteErr Nat × List UInt8 × SerDesCtx κ :=
  match ctx.securityCtx with
  | none => finish f false bytes offset ctx
  | some sc =>
    match secureFrame aead f sc ctx.footerMode (bytes.drop offset) with
    | (.ok len, sc, sub) =>
        finish f true (bytes.take offset ++ sub) (offset + len) { ctx with securityCtx := some sc }
    | (.err .securityNotEnabled, sc, sub) =>
        finish f false (bytes.take offset ++ sub) offset { ctx with securityCtx := some sc }
    | (.err e, sc, sub) =>
        (.err e.toByteErr, bytes.take offset ++ sub, { ctx with securityCtx := some sc })
    | (.panic, sc, sub) =>
        (.panic, bytes.take offset ++ sub, { ctx with securityCtx := some sc })

theorem tryWrite_eq {κ : Type} (cfg : Cfg) (aead : Aead κ) (f : Frame) (ctx : SerDesCtx κ)
    (bytes : List UInt8) :
    f.tryWrite cfg aead ctx bytes =
      match f.writeHead cfg ctx.securityCtx bytes 0 with
      | (.err e, bytes, _) => (.err e, bytes, ctx)
      | (.panic, bytes, _) => (.panic, bytes, ctx)
      | (.ok (), bytes, offset) => afterHead aead f ctx bytes offset := rfl

/-- After a header and content that fit. -/
theorem tryWrite_head {κ : Type} (cfg : Cfg) (aead : Aead κ) (f : Frame) (ctx : SerDesCtx κ)
    {enc : List UInt8} (hh : WSpec (f.writeHead cfg ctx.securityCtx) (.ok ()) enc) (buf : List UInt8)
    (hl : enc.length ≤ buf.length) :
    f.tryWrite cfg aead ctx buf = afterHead aead f ctx (enc ++ buf.drop enc.length) enc.length := by
  obtain ⟨off, h1, h2⟩ := (hh [] buf).1 hl
  have h2 := h2 ⟨(), rfl⟩
  simp only [List.nil_append, List.length_nil, Nat.zero_add] at h1 h2
  rw [tryWrite_eq, h1, h2]

/-- A header and content that do not fit. -/
theorem tryWrite_short {κ : Type} (cfg : Cfg) (aead : Aead κ) (f : Frame) (ctx : SerDesCtx κ)
    {enc : List UInt8} {r : Out ByteErr Unit} (hh : WSpec (f.writeHead cfg ctx.securityCtx) r enc)
    (buf : List UInt8) (hl : buf.length < enc.length) :
    ∃ k ≤ buf.length, f.tryWrite cfg aead ctx buf = (.err .incomplete, enc.take k ++ buf.drop k, ctx) := by
  obtain ⟨k, off, hk, h1⟩ := (hh [] buf).2 hl
  simp only [List.nil_append, List.length_nil] at h1
  refine ⟨k, hk, ?_⟩
  rw [tryWrite_eq, h1]

/-- A header that is refused. -/
theorem tryWrite_err {κ : Type} (cfg : Cfg) (aead : Aead κ) (f : Frame) (ctx : SerDesCtx κ)
    {enc : List UInt8} {e : ByteErr} (hh : WSpec (f.writeHead cfg ctx.securityCtx) (.err e) enc)
    (buf : List UInt8) (hl : enc.length ≤ buf.length) :
    f.tryWrite cfg aead ctx buf = (.err e, enc ++ buf.drop enc.length, ctx) := by
  obtain ⟨off, h1, _⟩ := (hh [] buf).1 hl
  simp only [List.nil_append, List.length_nil] at h1
  rw [tryWrite_eq, h1]

theorem finish_eq {κ : Type} (f : Frame) (sec : Bool) (ctx : SerDesCtx κ) (pre rest : List UInt8)
    {enc : List UInt8} (ht : WSpec (f.writeTail ctx.footerMode sec) (.ok ()) enc) :
    (enc.length ≤ rest.length → finish f sec (pre ++ rest) pre.length ctx
      = (.ok (pre.length + enc.length), pre ++ (enc ++ rest.drop enc.length), ctx)) ∧
    (rest.length < enc.length → ∃ k ≤ rest.length, finish f sec (pre ++ rest) pre.length ctx
      = (.err .incomplete, pre ++ (enc.take k ++ rest.drop k), ctx)) := by
  constructor
  · intro hl
    obtain ⟨off, h1, h2⟩ := (ht pre rest).1 hl
    have h2 := h2 ⟨(), rfl⟩
    unfold finish
    rw [h1, h2]
  · intro hl
    obtain ⟨k, off, hk, h1⟩ := (ht pre rest).2 hl
    refine ⟨k, hk, ?_⟩
    unfold finish
    rw [h1]

theorem secureFrame_unsecured {κ : Type} (aead : Aead κ) (f : Frame) (sc : SecCtx κ)
    (hs : f.header.auxSec = none) (buf : List UInt8) :
    secureFrame aead f sc .none buf = (.err .securityNotEnabled, sc, buf) := by
  have : f.header.hasSecurity = false := by simp [Header.hasSecurity, hs]
  simp [secureFrame, this]

theorem SerDesCtx.eta {κ : Type} (ctx : SerDesCtx κ) {sc : Option (SecCtx κ)}
    (h : ctx.securityCtx = sc) : { ctx with securityCtx := sc } = ctx := by
  cases ctx; subst h; rfl

/-- An unsecured frame after its header and content, unless both context and explicit footer. -/
theorem afterHead_plain {κ : Type} (aead : Aead κ) (f : Frame) (ctx : SerDesCtx κ)
    (hs : f.header.auxSec = none) (hm : ctx.securityCtx = none ∨ ctx.footerMode = .none)
    (pre rest : List UInt8) :
    afterHead aead f ctx (pre ++ rest) pre.length = finish f false (pre ++ rest) pre.length ctx := by
  unfold afterHead
  cases hc : ctx.securityCtx with
  | none => rfl
  | some sc =>
    have hm : ctx.footerMode = .none := by
      rcases hm with h | h
      · rw [hc] at h; cases h
      · exact h
    simp only [hm, List.drop_left, secureFrame_unsecured aead f sc hs, List.take_left]
    rw [← hm, SerDesCtx.eta ctx hc]

/-- Writing an unsecured frame is exactly writing its octets. -/
theorem tryWrite_plain {κ : Type} (cfg : Cfg) (aead : Aead κ) (f : Frame) (ctx : SerDesCtx κ)
    (hs : f.header.auxSec = none) (he : Encodable f.header) (ha : ContentFromApi f.content)
    (hm : ctx.securityCtx = none ∨ ctx.footerMode = .none) (buf : List UInt8) :
    ((plainFrameOctets ctx.footerMode f).length ≤ buf.length →
      f.tryWrite cfg aead ctx buf = (.ok (plainFrameOctets ctx.footerMode f).length,
        plainFrameOctets ctx.footerMode f ++ buf.drop (plainFrameOctets ctx.footerMode f).length, ctx)) ∧
    (buf.length < (plainFrameOctets ctx.footerMode f).length →
      ∃ k ≤ buf.length, f.tryWrite cfg aead ctx buf =
        (.err .incomplete, (plainFrameOctets ctx.footerMode f).take k ++ buf.drop k, ctx)) := by
  have hh := writeHead_ok cfg f ctx.securityCtx he ha (by simp [hs])
  rw [hs] at hh
  simp only [auxAsWritten] at hh
  have ht := writeTail_spec f ctx.footerMode
  have hp : plainFrameOctets ctx.footerMode f =
      (headerOctets f.header false false false [] ++ contentOctets f.content)
        ++ (f.payload ++ footerOctets ctx.footerMode f.footer) := by
    simp [plainFrameOctets]
  rw [hp]
  generalize headerOctets f.header false false false [] ++ contentOctets f.content = enc at hh
  generalize f.payload ++ footerOctets ctx.footerMode f.footer = tl at ht
  constructor
  · intro hl
    rw [List.length_append] at hl
    rw [tryWrite_head cfg aead f ctx hh buf (by omega), afterHead_plain aead f ctx hs hm,
      (finish_eq f false ctx enc (buf.drop enc.length) ht).1 (by simp; omega)]
    simp [List.drop_drop]
  · intro hl
    rw [List.length_append] at hl
    by_cases h1 : enc.length ≤ buf.length
    · obtain ⟨k, hk, hf⟩ := (finish_eq f false ctx enc (buf.drop enc.length) ht).2 (by simp; omega)
      refine ⟨enc.length + k, by simp at hk; omega, ?_⟩
      rw [tryWrite_head cfg aead f ctx hh buf h1, afterHead_plain aead f ctx hs hm, hf]
      have h2 : (enc ++ tl).take (enc.length + k) = enc ++ tl.take k := by
        rw [List.take_append, List.take_of_length_le (by omega)]; simp
      simp [List.drop_drop, h2]
    · obtain ⟨k, hk, hf⟩ := tryWrite_short cfg aead f ctx hh buf (by omega)
      refine ⟨k, hk, ?_⟩
      have : (enc ++ tl).take k = enc.take k := by
        rw [List.take_append_of_le_length]; omega
      rw [hf, this]

/-- A frame that was written had an acceptable header, and a context if it is secured. -/
theorem tryWrite_ok_head {κ : Type} {cfg : Cfg} {aead : Aead κ} {f : Frame} {ctx ctx' : SerDesCtx κ}
    {buf buf' : List UInt8} {n : Nat} (hw : f.tryWrite cfg aead ctx buf = (.ok n, buf', ctx')) :
    Encodable f.header ∧ (f.header.auxSec.isSome = true → ctx.securityCtx.isSome = true) := by
  have np : ∀ {e : ByteErr} {enc : List UInt8},
      WSpec (f.writeHead cfg ctx.securityCtx) (.err e) enc → False := by
    intro e enc h
    by_cases hl : enc.length ≤ buf.length
    · rw [tryWrite_err cfg aead f ctx h buf hl] at hw; simp at hw
    · obtain ⟨k, _, hk⟩ := tryWrite_short cfg aead f ctx h buf (by omega)
      rw [hk] at hw; simp at hw
  have he : Encodable f.header := by
    apply Classical.byContradiction
    intro he
    exact np (writeHead_refused cfg f ctx.securityCtx he)
  refine ⟨he, fun hs => ?_⟩
  cases hc : ctx.securityCtx with
  | some sc => rfl
  | none =>
    have := writeHead_missing (κ := κ) cfg f he hs
    rw [← hc] at this
    exact (np this).elim

end Frame

end Verif
