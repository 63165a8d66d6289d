import Verif.Lemmas.Steps
import Verif.Lemmas.FrameWrite
import Verif.Props.Steps

/-!
# C96 What a call that is cut short leaves in the caller's buffer
-/

namespace Verif
open Spec

/-! ## A claim about all points at which a call can stop -/

section
variable {κ σ α β : Type}

/-- `P` holds at every point at which the call can stop before its end. -/
inductive Along (P : Prog κ α → Prop) : Prog κ α → Prop
  | done (a) : Along P (.done a)
  | setCounter {w c next} (h : P (.setCounter w c next)) (hn : Along P next) : Along P (.setCounter w c next)
  | askKey {w m k a next} (h : P (.askKey w m k a next)) (hn : ∀ r, Along P (next r)) : Along P (.askKey w m k a next)
  | encrypt {w t k n a b next} (h : P (.encrypt w t k n a b next)) (hn : ∀ r, Along P (next r)) :
      Along P (.encrypt w t k n a b next)
  | lookupDevice {w m a next} (h : P (.lookupDevice w m a next)) (hn : ∀ r, Along P (next r)) :
      Along P (.lookupDevice w m a next)
  | decrypt {w t k n a b g next} (h : P (.decrypt w t k n a b g next)) (hn : ∀ r, Along P (next r)) :
      Along P (.decrypt w t k n a b g next)
  | storeDevice {w d next} (h : P (.storeDevice w d next)) (hn : Along P next) : Along P (.storeDevice w d next)

theorem Along.here {P : Prog κ α → Prop} {p : Prog κ α} (h : Along P p) : (∃ a, p = .done a) ∨ P p := by
  cases h with
  | done a => exact .inl ⟨a, rfl⟩
  | setCounter h | askKey h | encrypt h | lookupDevice h | decrypt h | storeDevice h => exact .inr h

theorem Along.step {P : Prog κ α → Prop} {lookup : DevLookup σ} {p q : Prog κ α} {m m' : Memory σ} {e}
    (h : Along P p) (s : Step lookup p m e q m') : Along P q := by
  cases s with
  | setCounter => cases h with | setCounter _ hn => exact hn
  | askKey => cases h with | askKey _ hn => exact hn _
  | encrypt => cases h with | encrypt _ hn => exact hn _
  | lookupDevice => cases h with | lookupDevice _ hn => exact hn _
  | decrypt => cases h with | decrypt _ hn => exact hn _
  | storeDevice => cases h with | storeDevice _ hn => exact hn

theorem Along.steps {P : Prog κ α → Prop} {lookup : DevLookup σ} {p q : Prog κ α} {m m' : Memory σ} {es}
    (h : Along P p) (s : Steps lookup p m es q m') : (∃ a, q = .done a) ∨ P q := by
  induction s with
  | none p m => exact h.here
  | more s _ ih => exact ih (h.step s)

theorem Along.bind {P : Prog κ α → Prop} {Q : Prog κ β → Prop} {p : Prog κ α} (front : List UInt8) (f : α → Prog κ β)
    (h : Along P p) (hf : ∀ a, Along Q (f a)) (hPQ : ∀ q, (∀ a, q ≠ .done a) → P q → Q (q.bind front f)) : Along Q (p.bind front f) := by
  induction h with
  | done a => exact hf a
  | setCounter h _ ih => exact .setCounter (hPQ _ (fun _ h => by cases h) h) ih
  | askKey h _ ih => exact .askKey (hPQ _ (fun _ h => by cases h) h) ih
  | encrypt h _ ih => exact .encrypt (hPQ _ (fun _ h => by cases h) h) ih
  | lookupDevice h _ ih => exact .lookupDevice (hPQ _ (fun _ h => by cases h) h) ih
  | decrypt h _ ih => exact .decrypt (hPQ _ (fun _ h => by cases h) h) ih
  | storeDevice h _ ih => exact .storeDevice (hPQ _ (fun _ h => by cases h) h) ih

theorem Along.mono {P Q : Prog κ α → Prop} (h : ∀ q, P q → Q q) {p : Prog κ α} (hp : Along P p) : Along Q p := by
  induction hp with
  | done a => exact .done a
  | setCounter h' _ ih => exact .setCounter (h _ h') ih
  | askKey h' _ ih => exact .askKey (h _ h') ih
  | encrypt h' _ ih => exact .encrypt (h _ h') ih
  | lookupDevice h' _ ih => exact .lookupDevice (h _ h') ih
  | decrypt h' _ ih => exact .decrypt (h _ h') ih
  | storeDevice h' _ ih => exact .storeDevice (h _ h') ih

theorem held_bind {α β : Type} {q : Prog κ (α × List UInt8)} (front : List UInt8)
    (f : α × List UInt8 → Prog κ (β × List UInt8)) (h : ∀ a, q ≠ .done a) :
    (q.bind front f).held = front ++ q.held := by
  cases q with
  | done a => exact absurd rfl (h a)
  | _ => rfl

end

/-! ## Writes -/

section
variable {κ : Type}

/-- The buffer holds `w`; and the cipher, if it is next, is handed the payload to authenticate or to encrypt, as the
level says. -/
structure WriteStop {α : Type} (level : SecurityLevel) (payload w : List UInt8) (q : Prog κ (α × List UInt8)) : Prop where
  held : q.held = w
  handed : ∀ w' t key nonce aad b next, q = .encrypt w' t key nonce aad b next →
    MicOnly level ∧ aad = payload ∧ b = [] ∨ EncMic level ∧ aad = [] ∧ b = payload

theorem along_done {α : Type} {P : Prog κ α → Prop} {p : Prog κ α} (h : ∃ a, p = .done a) : Along P p := by
  obtain ⟨a, rfl⟩ := h
  exact .done a

theorem doSecureP_along (key : κ) (nonce : List UInt8) (secL : SecurityLevel) (t : Nat) (mic encmic : SecurityLevel)
    (hmic : MicOnly mic) (henc : EncMic encmic) (payload rest : List UInt8) :
    Along (WriteStop secL payload (payload ++ rest))
      (doSecureP key nonce secL t mic encmic (payload ++ rest) payload.length) := by
  have hf : ∀ (tag : Option (List UInt8)) (b : List UInt8), ∃ a : Out SecErr Nat × List UInt8,
      (match tag with
      | some tag =>
        match W.write (tryWriteBytes tag) b payload.length with
        | (.ok (), buffer, offset) => (.done (.ok offset, buffer) : Prog κ (Out SecErr Nat × List UInt8))
        | (.err e, buffer, _) => .done (.err (.writeError e), buffer)
        | (.panic, buffer, _) => .done (.panic, buffer)
      | none => .done (.err .transformationError, b) : Prog κ (Out SecErr Nat × List UInt8)) = .done a := by
    intro tag b
    cases tag with
    | none => exact ⟨_, rfl⟩
    | some tag =>
      dsimp only
      rcases W.write (tryWriteBytes tag) b payload.length with ⟨_ | _ | _, _, _⟩ <;> exact ⟨_, rfl⟩
  unfold doSecureP
  dsimp only
  rw [List.take_left]
  split
  · rename_i h
    refine .encrypt ⟨rfl, fun _ _ _ _ _ _ _ h' => ?_⟩ fun r => along_done (hf _ _)
    injection h' with _ _ _ _ h1 h2 _
    exact .inl ⟨h ▸ hmic, h1.symm, h2.symm⟩
  split
  · rename_i h
    refine .encrypt ⟨rfl, fun _ _ _ _ _ _ _ h' => ?_⟩ fun r => along_done (hf _ _)
    injection h' with _ _ _ _ h1 h2 _
    exact .inr ⟨h ▸ henc, h1.symm, h2.symm⟩
  · exact .done _

/-- Where `secure_frame` can stop. -/
theorem secureFrameP_along (f : Frame) (euid : UInt64) (c : UInt32) (mode : FooterMode) (buffer : List UInt8) :
    Along (fun q => mode = .none ∧ f.header.frameType = .data ∧ c ≠ maxCounter ∧ f.payload.length ≤ buffer.length ∧
        ∃ aux, f.header.auxSec = some aux ∧ aux.control.securityLevel ≠ .none ∧
          WriteStop aux.control.securityLevel f.payload (f.payload ++ buffer.drop f.payload.length) q)
      (secureFrameP (κ := κ) f euid c mode buffer) := by
  unfold secureFrameP
  cases mode with
  | explicit => exact .done _
  | none =>
    dsimp only
    split
    rotate_left
    · exact .done _
    split
    · exact .done _
    rename_i hdata
    have hdata : f.header.frameType = .data := Classical.not_not.1 hdata
    rcases ha : f.header.auxSec with _ | aux
    · exact .done _
    dsimp only
    split
    · exact .done _
    by_cases hlen : f.payload.length ≤ buffer.length
    rotate_left
    · obtain ⟨k, off, _, h1⟩ := (WSpec.write (Writes.bytes f.payload) [] buffer).2 (by omega)
      simp only [List.nil_append, List.length_nil] at h1
      rw [h1]
      exact .done _
    obtain ⟨off, h1, h2⟩ := (WSpec.write (Writes.bytes f.payload) [] buffer).1 hlen
    have h2 := h2 ⟨(), rfl⟩
    simp only [List.nil_append, List.length_nil, Nat.zero_add] at h1 h2
    rw [h1, h2]
    dsimp only
    split
    · exact .done _
    rename_i hl
    split
    · exact .done _
    rename_i hc
    have lift : ∀ {q : Prog κ (Out SecErr Nat × List UInt8)},
        WriteStop aux.control.securityLevel f.payload (f.payload ++ buffer.drop f.payload.length) q →
        (FooterMode.none = .none ∧ f.header.frameType = .data ∧ c ≠ maxCounter ∧ f.payload.length ≤ buffer.length ∧
        ∃ aux', some aux = some aux' ∧ aux'.control.securityLevel ≠ .none ∧
          WriteStop aux'.control.securityLevel f.payload (f.payload ++ buffer.drop f.payload.length) q) :=
      fun h => ⟨rfl, hdata, hc, hlen, aux, rfl, hl, h⟩
    refine Along.mono (fun q hq => lift hq) ?_
    refine .setCounter ⟨rfl, fun _ _ _ _ _ _ _ h => by cases h⟩ (.askKey ⟨rfl, fun _ _ _ _ _ _ _ h => by cases h⟩ fun r => ?_)
    rcases r with _ | ⟨_, key⟩
    · exact .done _
    dsimp only
    generalize aux.control.securityLevel = l at hl ⊢
    cases l
    · exact absurd rfl hl
    case enc => exact .done _
    all_goals exact doSecureP_along key _ _ _ _ _ (by trivial) (by trivial) _ _

/-- **C96** A write that is cut short — by a reset, or a panic in the key lookup or the cipher — before its end: the
buffer holds header, content and the payload in clear, and behind them what was there before; if it is cut short in
the cipher, that is what the cipher began with, and it was handed the payload to authenticate only, or to encrypt in
place, as the level says: then nothing outside the payload's place can have changed. -/
theorem C96_cut_write {σ : Type} {lookup : DevLookup σ} (cfg : Cfg) (euid : UInt64) (call : WriteCall)
    (hcontent : ContentFromApi call.frame.content) (m m' : Memory σ) (es : List Effect)
    (rest : Prog κ (Out ByteErr Nat × List UInt8)) (h : Steps lookup (writeProg cfg euid m call) m es rest m')
    (hcut : ∀ a, rest ≠ .done a) :
    ∃ aux head, SecuredData call.frame aux ∧ aux.control.securityLevel ≠ .none ∧ call.mode = .none ∧
      head = securedHead cfg m.counter call.frame ∧ head.length + call.frame.payload.length ≤ call.buf.length ∧
      rest.held = head ++ call.frame.payload ++ call.buf.drop (head.length + call.frame.payload.length) ∧
      ∀ w t key nonce aad b next, rest = .encrypt w t key nonce aad b next →
        MicOnly aux.control.securityLevel ∧ aad = call.frame.payload ∧ b = [] ∨
        EncMic aux.control.securityLevel ∧ aad = [] ∧ b = call.frame.payload := by
  obtain ⟨f, mode, buf⟩ := call
  dsimp only at hcontent ⊢
  suffices hal : Along (fun q : Prog κ (Out ByteErr Nat × List UInt8) =>
      ∃ aux head, SecuredData f aux ∧ aux.control.securityLevel ≠ .none ∧ mode = .none ∧
      head = securedHead cfg m.counter f ∧ head.length + f.payload.length ≤ buf.length ∧
      WriteStop aux.control.securityLevel f.payload
        (head ++ f.payload ++ buf.drop (head.length + f.payload.length)) q) (writeProg cfg euid m ⟨f, mode, buf⟩) by
    rcases hal.steps h with ⟨a, ha⟩ | ⟨aux, head, h1, h2, h3, h4, h5, h6⟩
    · exact absurd ha (hcut a)
    · exact ⟨aux, head, h1, h2, h3, h4, h5, h6.held, h6.handed⟩
  have hfin : ∀ (s : Bool) (b : List UInt8) (o : Nat), ∃ a : Out ByteErr Nat × List UInt8,
      (match f.writeTail mode s b o with
      | (.ok (), bytes, offset) => (.done (.ok offset, bytes) : Prog κ (Out ByteErr Nat × List UInt8))
      | (.err e, bytes, _) => .done (.err e, bytes)
      | (.panic, bytes, _) => .done (.panic, bytes) : Prog κ (Out ByteErr Nat × List UInt8)) = .done a := by
    intro s b o
    rcases f.writeTail mode s b o with ⟨_ | _ | _, _, _⟩ <;> exact ⟨_, rfl⟩
  unfold writeProg Frame.tryWriteP
  dsimp only
  by_cases henc : Encodable f.header
  rotate_left
  · have hw := Frame.writeHead_refused cfg f (some (⟨euid, m.counter, fun _ _ _ => none⟩ : SecCtx κ)) henc
    rcases Nat.lt_or_ge buf.length (le 2 (frameControl f.header false false false) ++ [f.header.seq]).length with hl | hl
    · obtain ⟨k, off, _, h1⟩ := (hw [] buf).2 hl
      simp only [List.nil_append, List.length_nil] at h1
      rw [h1]
      exact .done _
    · obtain ⟨off, h1, _⟩ := (hw [] buf).1 hl
      simp only [List.nil_append, List.length_nil] at h1
      rw [h1]
      exact .done _
  have hw := Frame.writeHead_ok cfg f (some (⟨euid, m.counter, fun _ _ _ => none⟩ : SecCtx κ)) henc hcontent (fun _ => rfl)
  change WSpec _ _ (securedHead cfg m.counter f) at hw
  generalize hhead : securedHead cfg m.counter f = head at hw ⊢
  rcases Nat.lt_or_ge buf.length head.length with hl | hl
  · obtain ⟨k, off, _, h1⟩ := (hw [] buf).2 hl
    simp only [List.nil_append, List.length_nil] at h1
    rw [h1]
    exact .done _
  obtain ⟨off, h1, h2⟩ := (hw [] buf).1 hl
  have h2 := h2 ⟨(), rfl⟩
  simp only [List.nil_append, List.length_nil, Nat.zero_add] at h1 h2
  rw [h1, h2]
  dsimp only
  rw [List.drop_left, List.take_left]
  refine (secureFrameP_along f euid m.counter mode (buf.drop head.length)).bind _ _ ?_ ?_
  · rintro ⟨n | e | _, sub⟩
    · exact along_done (hfin _ _ _)
    · cases e <;> first
        | exact .done _
        | exact along_done (hfin _ _ _)
    · exact .done _
  · rintro q hq0 ⟨hmode, hdata, hc, hlen, aux, ha, hl', hstop⟩
    rw [List.length_drop] at hlen
    refine ⟨aux, head, ⟨henc, hcontent, ha, hdata⟩, hl', hmode, rfl, by omega, ?_, ?_⟩
    · rw [held_bind _ _ hq0, hstop.held, List.drop_drop, List.append_assoc]
    · intro w t key nonce aad b next hq
      cases q with
      | done a => exact absurd rfl (hq0 a)
      | encrypt =>
        simp only [Prog.bind, Prog.encrypt.injEq] at hq
        obtain ⟨-, rfl, rfl, rfl, rfl, rfl, -⟩ := hq
        exact hstop.handed _ _ _ _ _ _ _ rfl
      | _ => cases hq

end

/-! ## Receptions -/

section
variable {κ : Type}

/-- Up to the decryption the buffer holds what was received; the cipher is handed what is between header and tag, to
authenticate or to decrypt, as the level says, and the tag; behind it only what is there can have changed, and nothing
at levels without encryption. -/
structure ReadStop {α : Type} (level : SecurityLevel) (front back : List UInt8) (q : Prog κ (α × List UInt8)) : Prop where
  before : (∀ w d next, q ≠ .storeDevice w d next) → q.held = front ++ back
  handed : ∀ w t key nonce aad b tag next, q = .decrypt w t key nonce aad b tag next →
    back = aad ++ b ++ tag ∧ tag.length = tagLength level ∧ (MicOnly level ∧ b = [] ∨ EncMic level ∧ aad = [])
  after : ∀ w d next, q = .storeDevice w d next →
    MicOnly level ∧ w = front ++ back ∨
    EncMic level ∧ ∃ body tag text, back = body ++ tag ∧ tag.length = tagLength level ∧ w = front ++ text ++ tag
  last : ∀ w d next, q = .storeDevice w d next → ∃ a, next = .done (a, w)

theorem doUnsecureP_along (cfg : Cfg) (key : κ) (nonce : List UInt8) (fc : UInt32) (secL : SecurityLevel) (t : Nat)
    (mic encmic : SecurityLevel) (hmic : MicOnly mic) (henc : EncMic encmic) (ht : tagLength secL = t)
    (d : DeviceDescriptor) (buffer : List UInt8) :
    Along (ReadStop secL [] buffer) (doUnsecureP cfg key nonce fc secL t mic encmic d buffer) := by
  unfold doUnsecureP
  dsimp only
  rcases (usub cfg buffer.length secL.micOctetSize : Out SecErr Nat) with start | e | _
  rotate_left
  · exact .done _
  · exact .done _
  dsimp only
  split
  · exact .done _
  split
  · exact .done _
  rename_i htag
  have htag := Classical.not_not.1 htag
  split
  · rename_i h
    refine .decrypt ⟨fun _ => rfl, fun _ _ _ _ _ _ _ _ h' => ?_, fun _ _ _ h => (by cases h), fun _ _ _ h => (by cases h)⟩ fun r => ?_
    · injection h' with _ _ _ _ h1 h2 h3 _
      subst h1 h2 h3
      exact ⟨by simp, by rw [htag, ht], .inl ⟨h ▸ hmic, rfl⟩⟩
    · split
      · rcases u32Succ cfg fc with fc' | e | _
        · exact .storeDevice ⟨fun h => absurd rfl (h _ _ _), fun _ _ _ _ _ _ _ _ h => (by cases h),
            fun _ _ _ h' => .inl ⟨h ▸ hmic, by injection h' with h1; exact h1.symm⟩,
            fun _ _ _ h' => by injection h' with h0 _ h1; exact ⟨_, h0 ▸ h1.symm⟩⟩ (.done _)
        · exact .done _
        · exact .done _
      · exact .done _
  split
  · rename_i h
    refine .decrypt ⟨fun _ => rfl, fun _ _ _ _ _ _ _ _ h' => ?_, fun _ _ _ h => (by cases h), fun _ _ _ h => (by cases h)⟩ fun r => ?_
    · injection h' with _ _ _ _ h1 h2 h3 _
      subst h1 h2 h3
      exact ⟨by simp, by rw [htag, ht], .inr ⟨h ▸ henc, rfl⟩⟩
    · split
      · rcases u32Succ cfg fc with fc' | e | _
        · refine .storeDevice ⟨fun h => absurd rfl (h _ _ _), fun _ _ _ _ _ _ _ _ h => (by cases h),
            fun _ _ _ h' => .inr ⟨h ▸ henc, buffer.take start, buffer.drop start, r.2, by simp, by rw [htag, ht], ?_⟩,
            fun _ _ _ h' => by injection h' with h0 _ h1; exact ⟨_, h0 ▸ h1.symm⟩⟩ (.done _)
          injection h' with h1
          exact h1.symm
        · exact .done _
        · exact .done _
      · exact .done _
  · exact .done _

/-- Where `unsecure_frame` can stop. -/
theorem unsecureFrameP_along (cfg : Cfg) (h : Header) (buffer : List UInt8) (mode : FooterMode) :
    Along (fun q => mode = .none ∧ h.frameType = .data ∧ ∃ aux, h.auxSec = some aux ∧
        ReadStop aux.control.securityLevel [] buffer q)
      (unsecureFrameP (κ := κ) cfg h buffer mode) := by
  unfold unsecureFrameP
  cases mode with
  | explicit => exact .done _
  | none =>
    dsimp only
    split
    rotate_left
    · exact .done _
    split
    · exact .done _
    rename_i hdata
    have hdata : h.frameType = .data := Classical.not_not.1 hdata
    split
    · exact .done _
    rcases ha : h.auxSec with _ | aux
    · exact .done _
    dsimp only
    split
    · exact .done _
    rename_i hl
    refine Along.mono (P := ReadStop aux.control.securityLevel [] buffer) (fun q hq => ⟨rfl, hdata, aux, rfl, hq⟩) ?_
    refine .askKey ⟨fun _ => rfl, fun _ _ _ _ _ _ _ _ h => (by cases h), fun _ _ _ h => (by cases h), fun _ _ _ h => (by cases h)⟩ fun r => ?_
    rcases r with _ | ⟨eui, key⟩
    · exact .done _
    dsimp only
    rcases h.source with _ | src
    · exact .done _
    refine .lookupDevice ⟨fun _ => rfl, fun _ _ _ _ _ _ _ _ h => (by cases h), fun _ _ _ h => (by cases h), fun _ _ _ h => (by cases h)⟩ fun d => ?_
    rcases d with _ | d
    · exact .done _
    dsimp only
    split
    · exact .done _
    generalize aux.control.securityLevel = l at hl ⊢
    cases l
    · exact absurd rfl hl
    case enc => exact .done _
    all_goals exact doUnsecureP_along cfg key _ _ _ _ _ _ (by trivial) (by trivial) rfl d buffer

/-- Where a reception can stop. -/
theorem readProg_along (cfg : Cfg) (mode : FooterMode) (buf : List UInt8) :
    Along (fun q : Prog κ (Out SecErr (Frame × Nat) × List UInt8) =>
      ∃ header n aux back, Header.tryRead cfg buf = .ok (header, n) ∧ header.frameType = .data ∧
      header.auxSec = some aux ∧ mode = .none ∧ buf = buf.take n ++ back ∧
      ReadStop aux.control.securityLevel (buf.take n) back q) (readProg cfg mode buf) := by
  unfold readProg Frame.tryReadAndUnsecureP
  rcases hr : Frame.readHead cfg buf 0 with ⟨⟨header, content⟩, offset⟩ | e | _
  rotate_left
  · exact .done _
  · exact .done _
  dsimp only
  split
  rotate_left
  · exact .done _
  rw [if_pos rfl]
  obtain ⟨n, k, hd, rfl⟩ := Frame.readHead_ok.1 hr
  refine (unsecureFrameP_along cfg header (buf.drop (n + k)) mode).bind _ _ ?_ ?_
  · rintro ⟨n | e | _, sub⟩
    · exact .done _
    · cases e <;> exact .done _
    · exact .done _
  · rintro q hq0 ⟨hmode, hdata, aux, ha, hstop⟩
    have hk : k = 0 := by
      have := hd.2
      unfold FrameContent.tryRead at this
      rw [hdata] at this
      change Out.ok (FrameContent.data, 0) = _ at this
      cases this
      rfl
    subst hk
    refine ⟨header, n, aux, buf.drop n, hd.1, hdata, ha, hmode, by simp, fun hn => ?_, ?_, ?_, ?_⟩
    · rw [held_bind _ _ hq0, hstop.before fun w d next hq => ?_]
      · rfl
      · subst hq
        exact hn _ _ _ rfl
    · intro w t key nonce aad b tag next hq
      cases q with
      | done a => exact absurd rfl (hq0 a)
      | decrypt =>
        simp only [Prog.bind, Prog.decrypt.injEq] at hq
        obtain ⟨-, rfl, rfl, rfl, rfl, rfl, rfl, -⟩ := hq
        exact hstop.handed _ _ _ _ _ _ _ _ rfl
      | _ => cases hq
    · intro w d next hq
      cases q with
      | done a => exact absurd rfl (hq0 a)
      | storeDevice =>
        simp only [Prog.bind, Prog.storeDevice.injEq] at hq
        obtain ⟨rfl, rfl, -⟩ := hq
        rcases hstop.after _ _ _ rfl with ⟨h1, h2⟩ | ⟨h1, body, tag, text, h2, h3, h4⟩
        · exact .inl ⟨h1, by rw [h2]; rfl⟩
        · exact .inr ⟨h1, body, tag, text, h2, h3, by rw [h4]; simp⟩
      | _ => cases hq
    · intro w d next hq
      cases q with
      | done a => exact absurd rfl (hq0 a)
      | storeDevice =>
        simp only [Prog.bind, Prog.storeDevice.injEq] at hq
        obtain ⟨rfl, -, rfl⟩ := hq
        obtain ⟨a, rfl⟩ := hstop.last _ _ _ rfl
        rcases a with n | e | _
        · exact ⟨_, rfl⟩
        · cases e <;> exact ⟨_, rfl⟩
        · exact ⟨_, rfl⟩
      | _ => cases hq


/-- **C96** A reception that is cut short — by a reset, or a panic in the key lookup, the device lookup or the
cipher — before its end: up to the decryption the buffer holds every octet as received; the cipher is handed what is
between header and tag, to authenticate only or to decrypt in place, as the level says; and between the decryption and
the store of the counter all octets but those are as received, at levels without encryption all of them, and the
buffer is the one the call will leave. -/
theorem C96_cut_read {σ : Type} {lookup : DevLookup σ} (cfg : Cfg) (mode : FooterMode) (buf : List UInt8)
    (m m' : Memory σ) (es : List Effect) (rest : Prog κ (Out SecErr (Frame × Nat) × List UInt8))
    (h : Steps lookup (readProg cfg mode buf) m es rest m') (hcut : ∀ a, rest ≠ .done a) :
    ∃ header n aux back, Header.tryRead cfg buf = .ok (header, n) ∧ header.frameType = .data ∧
      header.auxSec = some aux ∧ mode = .none ∧ buf = buf.take n ++ back ∧
      ((∀ w d next, rest ≠ .storeDevice w d next) → rest.held = buf) ∧
      (∀ w t key nonce aad b tag next, rest = .decrypt w t key nonce aad b tag next →
        back = aad ++ b ++ tag ∧ tag.length = tagLength aux.control.securityLevel ∧
        (MicOnly aux.control.securityLevel ∧ b = [] ∨ EncMic aux.control.securityLevel ∧ aad = [])) ∧
      (∀ w d next, rest = .storeDevice w d next →
        MicOnly aux.control.securityLevel ∧ rest.held = buf ∨
        EncMic aux.control.securityLevel ∧ ∃ body tag text, back = body ++ tag ∧
          tag.length = tagLength aux.control.securityLevel ∧ rest.held = buf.take n ++ text ++ tag) ∧
      (∀ w d next, rest = .storeDevice w d next → ∃ a, next = .done (a, rest.held)) := by
  rcases (readProg_along cfg mode buf).steps h with ⟨a, ha⟩ | ⟨header, n, aux, back, h1, h2, h3, h4, h5, h6⟩
  · exact absurd ha (hcut a)
  · refine ⟨header, n, aux, back, h1, h2, h3, h4, h5, fun hn => ?_, h6.handed, fun w d next hq => ?_, fun w d next hq => ?_⟩
    · rw [h6.before hn, ← h5]
    · have := h6.after w d next hq
      subst hq
      rw [← h5] at this
      exact this
    · have := h6.last w d next hq
      subst hq
      exact this

/-- After the store the call is at its end. -/
theorem stored_last {σ α : Type} {lookup : DevLookup σ} {p q : Prog κ α} {m m' : Memory σ} {es}
    (h : Along (fun q => ∀ w d next, q = .storeDevice w d next → ∃ a, next = .done a) p)
    (s : Steps lookup p m es q m') (d : DeviceDescriptor) (hd : .stored d ∈ es) : ∃ a, q = .done a := by
  induction s with
  | none p m => cases hd
  | more s t ih =>
    rcases List.mem_cons.1 hd with he | hd
    · subst he
      cases s with
      | storeDevice w _ next m =>
        rcases h.here with ⟨a, ha⟩ | h
        · cases ha
        · obtain ⟨a, rfl⟩ := h _ _ _ rfl
          obtain ⟨-, rfl, -⟩ := Steps.of_done t
          exact ⟨a, rfl⟩
    · exact ih (h.step s) hd

/-- **C96** A reception that is cut short before the decryption, or in it before it has changed anything, can be done
again from what is in the buffer: it and all receptions after it show what they would have shown. -/
theorem C96_retry {σ ι : Type} {lookup : DevLookup σ} (table : DeviceTable ι lookup) (cfg : Cfg) (aead : Aead κ)
    (mode : FooterMode) (buf : List UInt8) (m m' : Memory σ) (es : List Effect)
    (rest : Prog κ (Out SecErr (Frame × Nat) × List UInt8))
    (h : Steps lookup (readProg cfg mode buf) m es rest m') (hcut : ∀ a, rest ≠ .done a)
    (hstore : ∀ w d next, rest ≠ .storeDevice w d next) (ctx : SerDesCtx κ)
    (calls : List (ReadCall κ)) :
    shown cfg aead lookup m'.dev (⟨rest.held, ctx⟩ :: calls) = shown cfg aead lookup m.dev (⟨buf, ctx⟩ :: calls) := by
  obtain ⟨header, n, aux, back, -, -, -, -, -, hb, -⟩ := C96_cut_read cfg mode buf m m' es rest h hcut
  rw [hb hstore]
  refine C82_cut_leaves_no_trace table mode buf m m' es rest h (fun d hd => ?_) aead _
  obtain ⟨a, ha⟩ := stored_last ((readProg_along cfg mode buf).mono
    fun q ⟨_, _, _, _, _, _, _, _, _, hq⟩ w d next h => let ⟨a, ha⟩ := hq.last w d next h; ⟨_, ha⟩) h d hd
  exact hcut a ha

end

/-! ## Witness -/

/-- The call has not come to its end. -/
def unfinished {κ α : Type} : Prog κ α → Bool
  | .done _ => false
  | _ => true

/-- Witness for C96: the sample write cut before the cipher: the buffer holds the payload
`de f0` in clear; the sample reception cut before the decryption: the buffer is as received; cut right before the
store (with a cipher that inverts): only the payload has changed. -/
example :
    let write := (sampleCutWrite 2 sampleMemory).2.1
    let read := (sampleCutRead 2 sampleMemory).2.1
    let store := (cutAfter ⟨sampleAead.encrypt, fun _ _ _ _ part _ => (true, part.map (255 - ·))⟩ sampleSender.keyProvider
      sampleLookup 3 (readProg sampleCfg .none sampleReceived) sampleMemory).2.1
    ContentFromApi sampleSecured.content ∧
    unfinished write = true ∧ write.held = securedHead sampleCfg 0x01020304 sampleSecured ++ [0xde, 0xf0] ++ List.replicate 13 0 ∧
    unfinished read = true ∧ read.held = sampleReceived ∧
    unfinished store = true ∧ store.held = sampleReceived.take 25 ++ [0x21, 0x0f] ++ sampleReceived.drop 27 := by
  refine ⟨trivial, by decide +kernel, by decide +kernel, by decide +kernel, by decide +kernel, by decide +kernel, by decide +kernel⟩

end Verif
