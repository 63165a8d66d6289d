import Verif.Model.Frame

/-!
# Specification: what a writer may do to a buffer
-/

namespace Verif.Spec

/-- A writer keeps the buffer's length whatever happens, never reports more than the buffer holds,
and on success leaves everything behind the reported octets as it was. -/
structure Contained (w : TryWrite) : Prop where
  length : ∀ buf, (w buf).2.length = buf.length
  behind : ∀ buf n, (w buf).1 = .ok n → n ≤ buf.length ∧ (w buf).2.drop n = buf.drop n

/-- A writer has the encoding `enc`: with room it succeeds, reports the length of `enc` and puts
exactly `enc` in front of what was there; without room it fails with `Incomplete`, leaving at most a
first part of `enc` in front of what was there. -/
structure Encodes (w : TryWrite) (enc : List UInt8) : Prop where
  fits : ∀ buf, enc.length ≤ buf.length → w buf = (.ok enc.length, enc ++ buf.drop enc.length)
  short : ∀ buf, buf.length < enc.length →
    ∃ k, k ≤ buf.length ∧ w buf = (.err .incomplete, enc.take k ++ buf.drop k)

/-- A writer puts down `enc` and then refuses with `e`; without room for `enc` it fails with
`Incomplete`, leaving at most a first part of `enc`. -/
structure Refuses (w : TryWrite) (enc : List UInt8) (e : ByteErr) : Prop where
  fits : ∀ buf, enc.length ≤ buf.length → w buf = (.err e, enc ++ buf.drop enc.length)
  short : ∀ buf, buf.length < enc.length →
    ∃ k, k ≤ buf.length ∧ w buf = (.err .incomplete, enc.take k ++ buf.drop k)

/-- A frame writer as a plain writer: result and buffer, forgetting the context. -/
def frameWriter {κ : Type} (cfg : Cfg) (aead : Aead κ) (f : Frame) (ctx : SerDesCtx κ) : TryWrite :=
  fun buf => let r := f.tryWrite cfg aead ctx buf; (r.1, r.2.1)

/-- What Rust's types guarantee of an in-place AEAD: the buffer is a slice, so its length cannot
change, and a tag has the length named by its type. -/
structure AeadTyped {κ : Type} (aead : Aead κ) : Prop where
  encrypt_length : ∀ t k n a b, (aead.encrypt t k n a b).2.length = b.length
  tag_length : ∀ t k n a b tag, t = 4 ∨ t = 8 ∨ t = 16 →
    (aead.encrypt t k n a b).1 = some tag → tag.length = t
  decrypt_length : ∀ t k n a b tag, (aead.decrypt t k n a b tag).2.length = b.length

end Verif.Spec
