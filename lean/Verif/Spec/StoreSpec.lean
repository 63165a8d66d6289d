import Verif.Model.Stores
import Verif.Spec.SecuritySpec
import Verif.Spec.WriterSpec
import Verif.Spec.FrameSpec

/-!
# Specification: writes cut short anywhere, also in the middle of a store

What stores do to a buffer; what can be found in buffer and context when a write is cut short; and what it means that a
buffer holds part of an encoding.
-/

namespace Verif.Spec

/-- A store carried out. -/
def put (s : Store) (buf : List UInt8) : List UInt8 :=
  buf.take s.pos ++ s.octets ++ buf.drop (s.pos + s.octets.length)

/-- Stores carried out one after the other. -/
def putAll (st : List Store) (buf : List UInt8) : List UInt8 := st.foldl (fun b s => put s b) buf

/-- A store cut short: any of its octets may be in place already, in whatever order they are copied. -/
structure Torn (s : Store) (buf buf' : List UInt8) : Prop where
  length : buf'.length = buf.length
  octet : ∀ i : Nat, buf'[i]? = buf[i]? ∨
    s.pos ≤ i ∧ i < s.pos + s.octets.length ∧ buf'[i]? = s.octets[i - s.pos]?

/-- Nothing changed but (perhaps) `len` octets from `pos` on. -/
structure Within (pos len : Nat) (buf buf' : List UInt8) : Prop where
  length : buf'.length = buf.length
  outside : ∀ i, i < pos ∨ pos + len ≤ i → buf'[i]? = buf[i]?

/-- Stores cut short: some are carried out, and one more perhaps in part. -/
def CutStores (st : List Store) (buf buf' : List UInt8) : Prop :=
  ∃ done, done <+: st ∧ (buf' = putAll done buf ∨ ∃ s, done ++ [s] <+: st ∧ Torn s (putAll done buf) buf')

/-- What can be found in the buffer and in the context's counter when a write is cut short at any moment (its end
included): between two steps, in the middle of a store, or while the cipher works in place on its part of the buffer,
which then may hold anything.  Key lookup and cipher may answer anything, but a tag has the length its type says. -/
inductive Found {κ : Type} : Writing κ → List UInt8 → UInt32 → List UInt8 → UInt32 → Prop
  | here (p b c) : Found p b c b c
  | tearing {s next b c b'} : Torn s b b' → Found (.store s next) b c b' c
  | ciphering {t k n pos len next b c b'} : Within pos len b b' → Found (.encrypt t k n pos len next) b c b' c
  | store {s next b c b' c'} : Found next (put s b) c b' c' → Found (.store s next) b c b' c'
  | setCounter {v next b c b' c'} : Found next b v b' c' → Found (.setCounter v next) b c b' c'
  | askKey {m kid a next b c b' c'} (answer : Option (UInt64 × κ)) : Found (next answer) b c b' c' →
      Found (.askKey m kid a next) b c b' c'
  | authenticate {t k n pos len next b c b' c'} (answer : Option (List UInt8)) :
      (∀ tag, answer = some tag → tag.length = t) → Found (next answer) b c b' c' →
      Found (.authenticate t k n pos len next) b c b' c'
  | encrypt {t k n pos len next b c b' c'} (answer : Option (List UInt8)) (b1 : List UInt8) :
      (∀ tag, answer = some tag → tag.length = t) → Within pos len b b1 → Found (next answer) b1 c b' c' →
      Found (.encrypt t k n pos len next) b c b' c'

/-- A write carried out to its end with a particular key lookup and cipher: result, buffer and counter. -/
def runWriting {κ : Type} (aead : Aead κ) (keys : KeyLookup κ) :
    Writing κ → List UInt8 → UInt32 → Out ByteErr Nat × List UInt8 × UInt32
  | .done r, b, c => (r, b, c)
  | .store s next, b, c => runWriting aead keys next (put s b) c
  | .setCounter v next, b, _ => runWriting aead keys next b v
  | .askKey m kid a next, b, c => runWriting aead keys (next (keys m kid a)) b c
  | .authenticate t k n pos len next, b, c =>
      runWriting aead keys (next (aead.encrypt t k n ((b.drop pos).take len) []).1) b c
  | .encrypt t k n pos len next, b, c =>
      let r := aead.encrypt t k n [] ((b.drop pos).take len)
      runWriting aead keys (next r.1) (b.take pos ++ r.2 ++ b.drop (pos + len)) c

/-- Of the octets `enc` the first `k` are in the buffer; from `k'` on the buffer is as it was; and every octet in between
is one or the other. -/
structure PartWritten (enc buf buf' : List UInt8) (k k' : Nat) : Prop where
  length : buf'.length = buf.length
  order : k ≤ k'
  inside : k' ≤ enc.length ∧ k' ≤ buf.length
  written : ∀ i, i < k → buf'[i]? = enc[i]?
  untouched : ∀ i, k' ≤ i → buf'[i]? = buf[i]?
  octet : ∀ i : Nat, buf'[i]? = buf[i]? ∨ buf'[i]? = enc[i]?

/-- The octets a frame has in the clear: header with the counter `c`, content, payload, footer; of a header without an
encoding, frame control and sequence number. -/
def clearOctets (cfg : Cfg) (c : UInt32) (mode : FooterMode) (f : Frame) : List UInt8 :=
  if f.header.panIdCompress = true ∧ (f.header.destination = none ∨ f.header.source = none) then
    le 2 (frameControl f.header false false false) ++ [f.header.seq]
  else securedHead cfg c f ++ f.payload ++ footerOctets mode f.footer

/-- The place where a cut left the buffer torn is a field of at most eight octets, or the payload's. -/
def SmallTear (head payload k k' : Nat) : Prop := k' ≤ k + 8 ∨ k = head ∧ k' = head + payload

/-- A writer that puts down (at most) the octets `enc` is the list of stores `t`, and wherever these are cut, the buffer
holds a first part of `enc` and behind it what was there before, with at most one field of up to eight octets torn in
between. -/
def CutsClean (w : TryWrite) (t : TryWriteS) (enc : List UInt8) : Prop :=
  ∀ buf, w buf = ((t buf.length).2, putAll (t buf.length).1 buf) ∧
    ∀ buf', CutStores (t buf.length).1 buf buf' → ∃ k k', PartWritten enc buf buf' k k' ∧ k' ≤ k + 8

/-- What may be found once the counter has moved from `c` to `c + 1` in a write of a secured data frame without explicit
footer: the header is in place, the payload too unless its encryption may have begun, and behind the place of the tag
nothing has changed. -/
structure Sealing (cfg : Cfg) (c : UInt32) (f : Frame) (mode : FooterMode) (aux : AuxHeader) (buf buf' : List UInt8)
    (c' : UInt32) : Prop where
  secured : SecuredData f aux
  level : aux.control.securityLevel ≠ .none
  mode : mode = .none
  counter : c ≠ maxCounter ∧ c' = c + 1
  room : (securedHead cfg c f).length + f.payload.length ≤ buf.length
  length : buf'.length = buf.length
  head : ∀ i, i < (securedHead cfg c f).length → buf'[i]? = (securedHead cfg c f)[i]?
  payload : ¬ EncMic aux.control.securityLevel → ∀ i, i < f.payload.length →
    buf'[(securedHead cfg c f).length + i]? = f.payload[i]?
  behind : ∀ i, (securedHead cfg c f).length + f.payload.length + tagLength aux.control.securityLevel ≤ i →
    buf'[i]? = buf[i]?

end Verif.Spec
