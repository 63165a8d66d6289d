import Verif.Spec.TalkSpec
import Verif.Props.Held

/-!
# C100 What a call says to the application
-/

namespace Verif
open Spec

/-! ## A claim about all conversations of a call -/

section
variable {κ α β : Type}

/-- `P` holds of every conversation of the call that goes on after `es`, with the result if the call has one. -/
inductive Trail (P : List (Exchange κ) → Option α → Prop) : List (Exchange κ) → Prog κ α → Prop
  | done {es a} (h : P es (some a)) : Trail P es (.done a)
  | setCounter {es w c next} (h : P es none) (hn : Trail P (es ++ [.counter c]) next) : Trail P es (.setCounter w c next)
  | askKey {es w m k a next} (h : P es none) (hn : ∀ r, Trail P (es ++ [.key m k a r]) (next r)) :
      Trail P es (.askKey w m k a next)
  | encrypt {es w t k n a b next} (h : P es none) (hn : ∀ r, Trail P (es ++ [.encrypt t k n a b r]) (next r)) :
      Trail P es (.encrypt w t k n a b next)
  | lookupDevice {es w m a next} (h : P es none) (hn : ∀ r, Trail P (es ++ [.device m a r]) (next r)) :
      Trail P es (.lookupDevice w m a next)
  | decrypt {es w t k n a b g next} (h : P es none) (hn : ∀ r, Trail P (es ++ [.decrypt t k n a b g r]) (next r)) :
      Trail P es (.decrypt w t k n a b g next)
  | storeDevice {es w d next} (h : P es none) (hn : Trail P (es ++ [.store d]) next) : Trail P es (.storeDevice w d next)

theorem trail_done {P : List (Exchange κ) → Option α → Prop} {es} {p : Prog κ α} (h : ∃ a, p = .done a)
    (hP : ∀ a, P es (some a)) : Trail P es p := by
  obtain ⟨a, rfl⟩ := h
  exact .done (hP a)

/-- The result of a program at its end. -/
def resultOf : Prog κ α → Option α
  | .done a => some a
  | _ => none

theorem Trail.here {P : List (Exchange κ) → Option α → Prop} {es} {p : Prog κ α} (h : Trail P es p) :
    P es (resultOf p) := by
  cases h with
  | done h | setCounter h | askKey h | encrypt h | lookupDevice h | decrypt h | storeDevice h => exact h

theorem Trail.talk {P : List (Exchange κ) → Option α → Prop} {es es'} {p q : Prog κ α} (h : Trail P es p)
    (t : Talk p es' q) : P (es ++ es') (resultOf q) := by
  induction t generalizing es with
  | nothing p => rw [List.append_nil]; exact h.here
  | counter t ih => cases h with | setCounter _ hn => have := ih hn; rwa [List.append_assoc] at this
  | key r t ih => cases h with | askKey _ hn => have := ih (hn r); rwa [List.append_assoc] at this
  | encrypt r t ih => cases h with | encrypt _ hn => have := ih (hn r); rwa [List.append_assoc] at this
  | device r t ih => cases h with | lookupDevice _ hn => have := ih (hn r); rwa [List.append_assoc] at this
  | decrypt r t ih => cases h with | decrypt _ hn => have := ih (hn r); rwa [List.append_assoc] at this
  | store t ih => cases h with | storeDevice _ hn => have := ih hn; rwa [List.append_assoc] at this

theorem Trail.bind {P : List (Exchange κ) → Option α → Prop} {Q : List (Exchange κ) → Option β → Prop} {es}
    {p : Prog κ α} (front : List UInt8) (f : α → Prog κ β) (h : Trail P es p)
    (hf : ∀ es a, P es (some a) → Trail Q es (f a)) (hPQ : ∀ es, P es none → Q es none) :
    Trail Q es (p.bind front f) := by
  induction h with
  | done h => exact hf _ _ h
  | setCounter h _ ih => exact .setCounter (hPQ _ h) ih
  | askKey h _ ih => exact .askKey (hPQ _ h) ih
  | encrypt h _ ih => exact .encrypt (hPQ _ h) ih
  | lookupDevice h _ ih => exact .lookupDevice (hPQ _ h) ih
  | decrypt h _ ih => exact .decrypt (hPQ _ h) ih
  | storeDevice h _ ih => exact .storeDevice (hPQ _ h) ih

theorem Trail.mono {P Q : List (Exchange κ) → Option α → Prop} (hPQ : ∀ es r, P es r → Q es r) {es}
    {p : Prog κ α} (h : Trail P es p) : Trail Q es p := by
  induction h with
  | done h => exact .done (hPQ _ _ h)
  | setCounter h _ ih => exact .setCounter (hPQ _ _ h) ih
  | askKey h _ ih => exact .askKey (hPQ _ _ h) ih
  | encrypt h _ ih => exact .encrypt (hPQ _ _ h) ih
  | lookupDevice h _ ih => exact .lookupDevice (hPQ _ _ h) ih
  | decrypt h _ ih => exact .decrypt (hPQ _ _ h) ih
  | storeDevice h _ ih => exact .storeDevice (hPQ _ _ h) ih

end

/-! ## Writes -/

section
variable {κ : Type}

/-- What may have been said when `secure_frame` stops or returns. -/
def SecureTalk (euid : UInt64) (c : UInt32) (f : Frame) (mode : FooterMode) (es : List (Exchange κ))
    (r : Option (Out SecErr Nat × List UInt8)) : Prop :=
  (es = [] ∨ ∃ aux, f.header.auxSec = some aux ∧ f.header.frameType = .data ∧ aux.control.securityLevel ≠ .none ∧
    mode = .none ∧ c ≠ maxCounter ∧ WriteTalk euid c f aux es) ∧
  ∀ a, r = some a → (a.1 = .err .securityNotEnabled → f.header.auxSec = none) ∧
    ∀ n, a.1 = .ok n → ∀ aux, f.header.auxSec = some aux → aux.control.securityLevel ≠ .none →
    ∃ owner key aad text tag text', Split aux.control.securityLevel f.payload aad text ∧
      es = [.counter (c + 1), .key .dst aux.keyIdentifier f.header.destination (some (owner, key)),
        .encrypt (tagLength aux.control.securityLevel) key (nonceOctets euid c aux.control.securityLevel) aad text
          (some tag, text')]

theorem doSecureP_trail (euid : UInt64) (c : UInt32) (f : Frame) (aux : AuxHeader) (owner : UInt64) (key : κ)
    (t : Nat) (mic encmic : SecurityLevel) (hmic : MicOnly mic) (henc : EncMic encmic)
    (ht : tagLength aux.control.securityLevel = t)
    (rest : List UInt8) (ha : f.header.auxSec = some aux) (hd : f.header.frameType = .data)
    (hl : aux.control.securityLevel ≠ .none) (hc : c ≠ maxCounter) :
    Trail (SecureTalk euid c f .none)
      [.counter (c + 1), .key .dst aux.keyIdentifier f.header.destination (some (owner, key))]
      (doSecureP key (nonceOctets euid c aux.control.securityLevel) aux.control.securityLevel t mic encmic
        (f.payload ++ rest) f.payload.length) := by
  subst ht
  have hf : ∀ (aad text : List UInt8) (_ : Split aux.control.securityLevel f.payload aad text)
      (r : Option (List UInt8) × List UInt8) (b : List UInt8),
      Trail (SecureTalk euid c f .none)
        [.counter (c + 1), .key .dst aux.keyIdentifier f.header.destination (some (owner, key)),
          .encrypt (tagLength aux.control.securityLevel) key (nonceOctets euid c aux.control.securityLevel) aad text r]
        (match r.1 with
        | some tag =>
          match W.write (tryWriteBytes tag) b f.payload.length with
          | (.ok (), buffer, offset) => (.done (.ok offset, buffer) : Prog κ (Out SecErr Nat × List UInt8))
          | (.err e, buffer, _) => .done (.err (.writeError e), buffer)
          | (.panic, buffer, _) => .done (.panic, buffer)
        | none => .done (.err .transformationError, b) : Prog κ (Out SecErr Nat × List UInt8)) := by
    intro aad text hs r b
    have h1 := WriteTalk.sealed (euid := euid) (c := c) (f := f) (aux := aux) owner key aad text r hs
    rcases r with ⟨_ | tag, text'⟩
    · exact .done ⟨.inr ⟨aux, ha, hd, hl, rfl, hc, h1⟩,
        fun a h => by cases h; exact ⟨fun h => (by cases h), fun _ h => by cases h⟩⟩
    · dsimp only
      rcases W.write (tryWriteBytes tag) b f.payload.length with ⟨_ | _ | _, _, _⟩
      · refine .done ⟨.inr ⟨aux, ha, hd, hl, rfl, hc, h1⟩, fun a h => ?_⟩
        cases h
        refine ⟨fun h => (by cases h), fun _ _ aux' ha' _ => ?_⟩
        cases ha.symm.trans ha'
        exact ⟨owner, key, aad, text, tag, text', hs, rfl⟩
      · exact .done ⟨.inr ⟨aux, ha, hd, hl, rfl, hc, h1⟩,
          fun a h => by cases h; exact ⟨fun h => (by cases h), fun _ h => by cases h⟩⟩
      · exact .done ⟨.inr ⟨aux, ha, hd, hl, rfl, hc, h1⟩,
          fun a h => by cases h; exact ⟨fun h => (by cases h), fun _ h => by cases h⟩⟩
  have hask : SecureTalk (κ := κ) euid c f .none
      [.counter (c + 1), .key .dst aux.keyIdentifier f.header.destination (some (owner, key))] none :=
    ⟨.inr ⟨aux, ha, hd, hl, rfl, hc, .asked _⟩, fun _ h => by cases h⟩
  unfold doSecureP
  dsimp only
  rw [List.take_left]
  split
  · rename_i h
    exact .encrypt hask fun r => hf _ _ (.inl ⟨h ▸ hmic, rfl, rfl⟩) r _
  split
  · rename_i h
    exact .encrypt hask fun r => hf _ _ (.inr ⟨h ▸ henc, rfl, rfl⟩) r _
  · exact .done ⟨hask.1, fun a h => by cases h; exact ⟨fun h => (by cases h), fun _ h => by cases h⟩⟩

theorem secureFrameP_trail (f : Frame) (euid : UInt64) (c : UInt32) (mode : FooterMode) (buffer : List UInt8) :
    Trail (SecureTalk euid c f mode) [] (secureFrameP (κ := κ) f euid c mode buffer) := by
  have hp : ∀ (m : FooterMode) (b : List UInt8), Trail (SecureTalk euid c f m) []
      (.done (.panic, b) : Prog κ (Out SecErr Nat × List UInt8)) := fun m b =>
    .done ⟨.inl rfl, fun a h => by cases h; exact ⟨fun h => (by cases h), fun _ h => by cases h⟩⟩
  have he : ∀ (e : SecErr) (b : List UInt8), e ≠ .securityNotEnabled → Trail (SecureTalk euid c f .none) []
      (.done (.err e, b) : Prog κ (Out SecErr Nat × List UInt8)) := fun e b hne =>
    .done ⟨.inl rfl, fun a h => by cases h; exact ⟨fun h => (by cases h; exact absurd rfl hne), fun _ h => by cases h⟩⟩
  unfold secureFrameP
  cases mode with
  | explicit => exact hp _ _
  | none =>
    dsimp only
    split
    rotate_left
    · rename_i hs
      refine .done ⟨.inl rfl, fun a h => ?_⟩
      cases h
      refine ⟨fun _ => ?_, fun _ h => by cases h⟩
      unfold Header.hasSecurity at hs
      simpa using hs
    split
    · exact he _ _ (by decide)
    rename_i hdata
    have hdata : f.header.frameType = .data := Classical.not_not.1 hdata
    rcases ha : f.header.auxSec with _ | aux
    · exact he _ _ (by decide)
    dsimp only
    split
    · exact he _ _ (by decide)
    by_cases hlen : f.payload.length ≤ buffer.length
    rotate_left
    · obtain ⟨k, off, _, h1⟩ := (WSpec.write (Writes.bytes f.payload) [] buffer).2 (by omega)
      simp only [List.nil_append, List.length_nil] at h1
      rw [h1]
      exact he _ _ (by simp)
    obtain ⟨off, h1, h2⟩ := (WSpec.write (Writes.bytes f.payload) [] buffer).1 hlen
    have h2 := h2 ⟨(), rfl⟩
    simp only [List.nil_append, List.length_nil, Nat.zero_add] at h1 h2
    rw [h1, h2]
    dsimp only
    split
    · rename_i hl
      refine .done ⟨.inl rfl, fun a h => ?_⟩
      cases h
      refine ⟨fun h => (by cases h), fun _ _ aux' ha' hl' => ?_⟩
      cases ha.symm.trans ha'
      exact absurd hl hl'
    rename_i hl
    split
    · exact he _ _ (by decide)
    rename_i hc
    refine .setCounter ⟨.inl rfl, fun _ h => by cases h⟩ ?_
    refine .askKey ⟨.inr ⟨aux, ha, hdata, hl, rfl, hc, .counted⟩, fun _ h => by cases h⟩ fun r => ?_
    change Trail _ [.counter (c + 1), .key .dst aux.keyIdentifier f.header.destination r] _
    rcases r with _ | ⟨owner, key⟩
    · exact .done ⟨.inr ⟨aux, ha, hdata, hl, rfl, hc, .asked _⟩,
        fun a h => by cases h; exact ⟨fun h => (by cases h), fun _ h => by cases h⟩⟩
    dsimp only
    rw [calculateNonce_eq]
    have key1 := fun (t : Nat) (mic encmic : SecurityLevel) (hmic : MicOnly mic) (henc : EncMic encmic)
        (ht : tagLength aux.control.securityLevel = t) =>
      doSecureP_trail euid c f aux owner key t mic encmic hmic henc ht
        (buffer.drop f.payload.length) ha hdata hl hc
    split <;> rename_i hll
    · exact absurd hll hl
    · exact .done ⟨.inr ⟨aux, ha, hdata, hl, rfl, hc, .asked _⟩,
        fun a h => by cases h; exact ⟨fun h => (by cases h), fun _ h => by cases h⟩⟩
    all_goals exact key1 _ _ _ (by trivial) (by trivial) (by rw [hll]; rfl)

/-- What may have been said when a write stops or returns. -/
theorem writeProg_trail {σ : Type} (cfg : Cfg) (euid : UInt64) (m : Memory σ) (call : WriteCall) :
    Trail (fun es r =>
        (es = [] ∨ ∃ aux, call.frame.header.auxSec = some aux ∧ call.frame.header.frameType = .data ∧
          aux.control.securityLevel ≠ .none ∧ call.mode = .none ∧ m.counter ≠ maxCounter ∧
          WriteTalk euid m.counter call.frame aux es) ∧
        ∀ n out, r = some (.ok n, out) → ∀ aux, call.frame.header.auxSec = some aux →
          aux.control.securityLevel ≠ .none →
          ∃ owner key aad text tag text', Split aux.control.securityLevel call.frame.payload aad text ∧
            es = [.counter (m.counter + 1),
              .key .dst aux.keyIdentifier call.frame.header.destination (some (owner, key)),
              .encrypt (tagLength aux.control.securityLevel) key
                (nonceOctets euid m.counter aux.control.securityLevel) aad text (some tag, text')])
      [] (writeProg (κ := κ) cfg euid m call) := by
  obtain ⟨f, mode, buf⟩ := call
  have hfin : ∀ (s : Bool) (b : List UInt8) (o : Nat), ∃ a : Out ByteErr Nat × List UInt8,
      (match f.writeTail mode s b o with
      | (.ok (), bytes, offset) => (.done (.ok offset, bytes) : Prog κ (Out ByteErr Nat × List UInt8))
      | (.err e, bytes, _) => .done (.err e, bytes)
      | (.panic, bytes, _) => .done (.panic, bytes) : Prog κ (Out ByteErr Nat × List UInt8)) = .done a := by
    intro s b o
    rcases f.writeTail mode s b o with ⟨_ | _ | _, _, _⟩ <;> exact ⟨_, rfl⟩
  unfold writeProg Frame.tryWriteP
  dsimp only
  rcases f.writeHead cfg (some (⟨euid, m.counter, fun _ _ _ => none⟩ : SecCtx κ)) buf 0 with ⟨_ | _ | _, b, o⟩
  rotate_left
  · exact .done ⟨.inl rfl, fun _ _ h => by cases h⟩
  · exact .done ⟨.inl rfl, fun _ _ h => by cases h⟩
  dsimp only
  refine (secureFrameP_trail f euid m.counter mode (b.drop o)).bind _ _ ?_ ?_
  · rintro es ⟨n | e | _, sub⟩ ⟨h1, h2⟩
    · exact trail_done (hfin true _ _) fun a => ⟨h1, fun _ _ _ aux => (h2 _ rfl).2 n rfl aux⟩
    · cases e <;> first
        | exact .done ⟨h1, fun _ _ h => by cases h⟩
        | skip
      refine trail_done (hfin false _ _) fun a => ⟨h1, fun _ _ _ aux h => ?_⟩
      cases ((h2 _ rfl).1 rfl).symm.trans h
    · exact .done ⟨h1, fun _ _ h => by cases h⟩
  · exact fun es h => ⟨h.1, fun _ _ h => by cases h⟩

/-- **C100** What a write says to the application, up to any point and whatever it is answered: nothing at all; or — the
frame being a data frame with an auxiliary header of a level other than `None`, and the counter not used up — it stores
the next counter, asks for the key for this frame's key identifier and destination, and has the payload encrypted under
that key with the nonce of the old counter; in this order, each once. -/
theorem C100_write {σ : Type} (cfg : Cfg) (euid : UInt64) (m : Memory σ) (call : WriteCall) (es : List (Exchange κ))
    (rest : Prog κ (Out ByteErr Nat × List UInt8)) (h : Talk (writeProg cfg euid m call) es rest) :
    es = [] ∨ ∃ aux, call.frame.header.auxSec = some aux ∧ call.frame.header.frameType = .data ∧
      aux.control.securityLevel ≠ .none ∧ call.mode = .none ∧ m.counter ≠ maxCounter ∧
      WriteTalk euid m.counter call.frame aux es :=
  ((writeProg_trail cfg euid m call).talk h).1

/-- **C100** A write of a frame to be secured that reports success has said all of it: the key lookup gave a key and the
cipher a tag. -/
theorem C100_written {σ : Type} (cfg : Cfg) (euid : UInt64) (m : Memory σ) (call : WriteCall) (es : List (Exchange κ))
    (n : Nat) (out : List UInt8) (h : Talk (writeProg cfg euid m call) es (.done (.ok n, out))) (aux : AuxHeader)
    (ha : call.frame.header.auxSec = some aux) (hl : aux.control.securityLevel ≠ .none) :
    ∃ owner key aad text tag text', Split aux.control.securityLevel call.frame.payload aad text ∧
      es = [.counter (m.counter + 1), .key .dst aux.keyIdentifier call.frame.header.destination (some (owner, key)),
        .encrypt (tagLength aux.control.securityLevel) key (nonceOctets euid m.counter aux.control.securityLevel)
          aad text (some tag, text')] :=
  ((writeProg_trail cfg euid m call).talk h).2 n out rfl aux ha hl

end

/-! ## Receptions -/

section
variable {κ : Type}

/-- What may have been said when `unsecure_frame` stops or returns. -/
def UnsecureTalk (cfg : Cfg) (h : Header) (mode : FooterMode) (body : List UInt8) (es : List (Exchange κ))
    (r : Option (Out SecErr Nat × List UInt8)) : Prop :=
  (es = [] ∨ ∃ aux, h.auxSec = some aux ∧ h.frameType = .data ∧ h.version ≠ .ieee802154_2003 ∧
    aux.control.securityLevel ≠ .none ∧ mode = .none ∧ ReadTalk cfg h aux body es) ∧
  ∀ a, r = some a → (∃ n, a.1 = .ok n) ∨ a.1 = .err .securityNotEnabled →
    ∃ d, .store d ∈ es

theorem doUnsecureP_trail (cfg : Cfg) (h : Header) (aux : AuxHeader) (body : List UInt8) (owner : UInt64) (key : κ)
    (src : Address) (d : DeviceDescriptor) (t : Nat) (mic encmic : SecurityLevel) (hmic : MicOnly mic)
    (henc : EncMic encmic) (ht : tagLength aux.control.securityLevel = t) (ha : h.auxSec = some aux)
    (hd : h.frameType = .data) (hv : h.version ≠ .ieee802154_2003) (hl : aux.control.securityLevel ≠ .none)
    (hs : h.source = some src) (fresh : d.frameCounter ≤ aux.frameCounter) (left : d.frameCounter ≠ maxCounter) :
    Trail (UnsecureTalk cfg h .none body)
      [.key .src aux.keyIdentifier (some src) (some (owner, key)), .device .src src (some d)]
      (doUnsecureP cfg key (nonceOctets owner aux.frameCounter aux.control.securityLevel) aux.frameCounter
        aux.control.securityLevel t mic encmic d body) := by
  subst ht
  have hlook : ∀ r : Option (Out SecErr Nat × List UInt8),
      (∀ a, r = some a → (∀ n, a.1 ≠ .ok n) ∧ a.1 ≠ .err .securityNotEnabled) →
      UnsecureTalk (κ := κ) cfg h .none body
        [.key .src aux.keyIdentifier (some src) (some (owner, key)), .device .src src (some d)] r :=
    fun r hr => ⟨.inr ⟨aux, ha, hd, hv, hl, rfl, .looked _ _ _ _ hs⟩, fun a h h' => by
      rcases h' with ⟨n, h'⟩ | h'
      · exact absurd h' ((hr a h).1 n)
      · exact absurd h' (hr a h).2⟩
  have hpanic : ∀ (b : List UInt8), ∀ a, some ((.panic : Out SecErr Nat), b) = some a →
      (∀ n, a.1 ≠ .ok n) ∧ a.1 ≠ .err .securityNotEnabled :=
    fun b a h => by cases h; exact ⟨fun _ h => (by cases h), fun h => by cases h⟩
  have hfin : ∀ (octets aad text tag : List UInt8) (_ : body = octets ++ tag)
      (_ : tag.length = tagLength aux.control.securityLevel) (_ : Split aux.control.securityLevel octets aad text)
      (r : Bool × List UInt8) (b : List UInt8) (tl : Nat),
      Trail (UnsecureTalk cfg h .none body)
        [.key .src aux.keyIdentifier (some src) (some (owner, key)), .device .src src (some d),
          .decrypt (tagLength aux.control.securityLevel) key
            (nonceOctets owner aux.frameCounter aux.control.securityLevel) aad text tag r]
        (if r.1 then
          match u32Succ cfg aux.frameCounter with
          | .ok fc' => .storeDevice b { d with frameCounter := fc' } (.done (.ok tl, b))
          | .err e => .done (.err e, b)
          | .panic => .done (.panic, b)
        else (.done (.err .transformationError, b) : Prog κ (Out SecErr Nat × List UInt8))) := by
    intro octets aad text tag hb htag hsplit r b tl
    have hopen : ∀ q : Option (Out SecErr Nat × List UInt8),
        (∀ a, q = some a → (∀ n, a.1 ≠ .ok n) ∧ a.1 ≠ .err .securityNotEnabled) →
        UnsecureTalk (κ := κ) cfg h .none body
          [.key .src aux.keyIdentifier (some src) (some (owner, key)), .device .src src (some d),
            .decrypt (tagLength aux.control.securityLevel) key
              (nonceOctets owner aux.frameCounter aux.control.securityLevel) aad text tag r] q :=
      fun q hq => ⟨.inr ⟨aux, ha, hd, hv, hl, rfl, .opened _ _ _ _ octets _ _ _ _ hs fresh left hb htag hsplit⟩,
        fun a h h' => by
          rcases h' with ⟨n, h'⟩ | h'
          · exact absurd h' ((hq a h).1 n)
          · exact absurd h' (hq a h).2⟩
    split
    rotate_left
    · exact .done (hopen _ fun a h => by cases h; exact ⟨fun _ h => (by cases h), fun h => by cases h⟩)
    rename_i hr
    obtain ⟨v, out⟩ := r
    cases hr
    simp only [u32Succ]
    split
    · rename_i h'
      split at h'
      · cases h'
      · rename_i hmax
        cases h'
        refine .storeDevice (hopen _ fun _ h => by cases h) (.done ⟨.inr ⟨aux, ha, hd, hv, hl, rfl, ?_⟩, fun _ _ _ => ?_⟩)
        · exact .stored owner key src d octets aad text tag out hs fresh left hb htag hsplit
            fun ho hm => hmax ⟨hm, ho⟩
        · exact ⟨{ d with frameCounter := aux.frameCounter + 1 }, by simp⟩
    · rename_i h'
      split at h' <;> cases h'
    · exact .done (hopen _ (hpanic _))
  unfold doUnsecureP
  dsimp only
  rcases hu : (usub cfg body.length aux.control.securityLevel.micOctetSize : Out SecErr Nat) with start | e | _
  rotate_left
  · exfalso
    unfold usub at hu
    split at hu
    · cases hu
    · split at hu <;> cases hu
  · exact .done (hlook _ (hpanic _))
  dsimp only
  split
  · exact .done (hlook _ (hpanic _))
  split
  · exact .done (hlook _ (hpanic _))
  rename_i htag
  have htag := Classical.not_not.1 htag
  split
  · rename_i h'
    exact .decrypt (hlook _ fun _ h => by cases h) fun r =>
      hfin (body.take start) _ _ _ (by simp) htag (.inl ⟨h' ▸ hmic, rfl, rfl⟩) r _ _
  split
  · rename_i h'
    exact .decrypt (hlook _ fun _ h => by cases h) fun r =>
      hfin (body.take start) _ _ _ (by simp) htag (.inr ⟨h' ▸ henc, rfl, rfl⟩) r _ _
  · exact .done (hlook _ (hpanic _))

theorem unsecureFrameP_trail (cfg : Cfg) (h : Header) (hsec : h.hasSecurity = true) (buffer : List UInt8)
    (mode : FooterMode) :
    Trail (UnsecureTalk cfg h mode buffer) [] (unsecureFrameP (κ := κ) cfg h buffer mode) := by
  have he : ∀ (m : FooterMode) (es : List (Exchange κ)) (e : SecErr) (b : List UInt8), e ≠ .securityNotEnabled →
      (es = [] ∨ ∃ aux, h.auxSec = some aux ∧ h.frameType = .data ∧ h.version ≠ .ieee802154_2003 ∧
        aux.control.securityLevel ≠ .none ∧ m = .none ∧ ReadTalk cfg h aux buffer es) →
      Trail (UnsecureTalk cfg h m buffer) es (.done (.err e, b) : Prog κ (Out SecErr Nat × List UInt8)) :=
    fun m es e b hne h0 => .done ⟨h0, fun a h h' => by
      cases h
      rcases h' with ⟨n, h'⟩ | h'
      · cases h'
      · cases h'; exact absurd rfl hne⟩
  unfold unsecureFrameP
  cases mode with
  | explicit => exact .done ⟨.inl rfl, fun a h h' => by
      cases h
      rcases h' with ⟨n, h'⟩ | h' <;> cases h'⟩
  | none =>
    dsimp only
    rw [if_pos hsec]
    split
    · exact he _ _ _ _ (by decide) (.inl rfl)
    rename_i hdata
    have hdata : h.frameType = .data := Classical.not_not.1 hdata
    split
    · exact he _ _ _ _ (by decide) (.inl rfl)
    rename_i hv
    rcases ha : h.auxSec with _ | aux
    · exact he _ _ _ _ (by decide) (.inl rfl)
    dsimp only
    split
    · exact he _ _ _ _ (by decide) (.inl rfl)
    rename_i hl
    refine .askKey ⟨.inl rfl, fun _ h => by cases h⟩ fun r => ?_
    change Trail _ [.key .src aux.keyIdentifier h.source r] _
    rcases r with _ | ⟨owner, key⟩
    · exact he _ _ _ _ (by decide) (.inr ⟨aux, ha, hdata, hv, hl, rfl, .asked _⟩)
    dsimp only
    split
    · rename_i hs
      exact he _ _ _ _ (by decide) (.inr ⟨aux, ha, hdata, hv, hl, rfl, .asked _⟩)
    rename_i src hs
    rw [hs]
    refine .lookupDevice ⟨.inr ⟨aux, ha, hdata, hv, hl, rfl, hs ▸ .asked _⟩, fun _ h => by cases h⟩ fun r => ?_
    change Trail _ [.key .src aux.keyIdentifier (some src) (some (owner, key)), .device .src src r] _
    have hlook : ReadTalk cfg h aux buffer
        [.key .src aux.keyIdentifier (some src) (some (owner, key)), .device .src src r] := .looked _ _ _ _ hs
    rcases r with _ | d
    · exact he _ _ _ _ (by decide) (.inr ⟨aux, ha, hdata, hv, hl, rfl, hlook⟩)
    dsimp only
    split
    · exact he _ _ _ _ (by decide) (.inr ⟨aux, ha, hdata, hv, hl, rfl, hlook⟩)
    rename_i hc
    have hd : d.frameCounter ≠ maxCounter := fun h => hc (.inl h)
    have hf : d.frameCounter ≤ aux.frameCounter := UInt32.not_lt.1 fun h => hc (.inr h)
    rw [calculateNonce_eq]
    split <;> rename_i hll
    · exact absurd hll hl
    · exact he _ _ _ _ (by decide) (.inr ⟨aux, ha, hdata, hv, hl, rfl, hlook⟩)
    all_goals
      refine doUnsecureP_trail cfg h aux buffer owner key src d _ _ _ ?_ ?_ ?_ ha hdata hv hl hs hf hd
      · trivial
      · trivial
      · rw [hll]; rfl

/-- What may have been said when a reception stops or returns. -/
theorem readProg_trail (cfg : Cfg) (mode : FooterMode) (buf : List UInt8) :
    Trail (fun es r =>
        (es = [] ∨ ∃ header n aux, Header.tryRead cfg buf = .ok (header, n) ∧ header.auxSec = some aux ∧
          header.frameType = .data ∧ header.version ≠ .ieee802154_2003 ∧ aux.control.securityLevel ≠ .none ∧
          mode = .none ∧ ReadTalk cfg header aux (buf.drop n) es) ∧
        ∀ f k out, r = some (.ok (f, k), out) → Secured f.header → ∃ d, .store d ∈ es)
      [] (readProg (κ := κ) cfg mode buf) := by
  unfold readProg Frame.tryReadAndUnsecureP
  rcases hr : Frame.readHead cfg buf 0 with ⟨⟨header, content⟩, offset⟩ | e | _
  rotate_left
  · exact .done ⟨.inl rfl, fun _ _ _ h => by cases h⟩
  · exact .done ⟨.inl rfl, fun _ _ _ h => by cases h⟩
  have hfin : ∀ (t : Nat) (b : List UInt8) (f : Frame) (k : Nat),
      (Frame.readPayload cfg header content t b offset).mapErr SecErr.ofByteErr = .ok (f, k) → f.header = header := by
    intro t b f k h
    apply readPayload_header cfg header content t b offset f k
    rcases hr : Frame.readPayload cfg header content t b offset with x | e | _
    · rw [hr] at h; cases h; rfl
    · rw [hr] at h; cases h
    · rw [hr] at h; cases h
  dsimp only
  split
  rotate_left
  · rename_i hs
    refine .done ⟨.inl rfl, fun f k out h hsec => ?_⟩
    simp only [Option.some.injEq, Prod.mk.injEq] at h
    rw [Secured, hfin _ _ _ _ h.1] at hsec
    exact absurd hsec hs
  rename_i hs
  rw [if_pos rfl]
  obtain ⟨n, k, hd, rfl⟩ := Frame.readHead_ok.1 hr
  have hconv : ∀ es : List (Exchange κ),
      (es = [] ∨ ∃ aux, header.auxSec = some aux ∧ header.frameType = .data ∧ header.version ≠ .ieee802154_2003 ∧
        aux.control.securityLevel ≠ .none ∧ mode = .none ∧ ReadTalk cfg header aux (buf.drop (n + k)) es) →
      (es = [] ∨ ∃ header n aux, Header.tryRead cfg buf = .ok (header, n) ∧ header.auxSec = some aux ∧
          header.frameType = .data ∧ header.version ≠ .ieee802154_2003 ∧ aux.control.securityLevel ≠ .none ∧
          mode = .none ∧ ReadTalk cfg header aux (buf.drop n) es) := by
    rintro es (h | ⟨aux, h1, h2, h3, h4, h5, h6⟩)
    · exact .inl h
    · have hk : k = 0 := by
        have := hd.2
        unfold FrameContent.tryRead at this
        rw [h2] at this
        change Out.ok (FrameContent.data, 0) = _ at this
        cases this
        rfl
      subst hk
      exact .inr ⟨header, n, aux, hd.1, h1, h2, h3, h4, h5, h6⟩
  refine (unsecureFrameP_trail cfg header hs (buf.drop (n + k)) mode).bind _ _ ?_ ?_
  · rintro es ⟨n | e | _, sub⟩ ⟨h1, h2⟩
    · exact .done ⟨hconv _ h1, fun _ _ _ _ _ => h2 _ rfl (.inl ⟨_, rfl⟩)⟩
    · cases e <;> first
        | exact .done ⟨hconv _ h1, fun _ _ _ h => by cases h⟩
        | exact .done ⟨hconv _ h1, fun _ _ _ _ _ => h2 _ rfl (.inr rfl)⟩
    · exact .done ⟨hconv _ h1, fun _ _ _ h => by cases h⟩
  · exact fun es h => ⟨hconv _ h.1, fun _ _ _ h => by cases h⟩

/-- **C100** What a reception says to the application, up to any point and whatever it is answered: nothing at all; or —
what was received being a data frame not of the 2003 version, with an auxiliary header of a level other than `None` — it
asks for the key for the frame's key identifier and source, then for the device of that source, then, if the frame's
counter is not below the device's and that is not used up, has what is between header and tag checked under that key with
the nonce of the key's owner and the frame's counter, then, only if the tag is right, stores the next counter; in this
order, each once.  So no key, no source, no device or an old counter cost no work of the cipher. -/
theorem C100_read (cfg : Cfg) (mode : FooterMode) (buf : List UInt8) (es : List (Exchange κ))
    (rest : Prog κ (Out SecErr (Frame × Nat) × List UInt8)) (h : Talk (readProg cfg mode buf) es rest) :
    es = [] ∨ ∃ header n aux, Header.tryRead cfg buf = .ok (header, n) ∧ header.auxSec = some aux ∧
      header.frameType = .data ∧ header.version ≠ .ieee802154_2003 ∧ aux.control.securityLevel ≠ .none ∧
      mode = .none ∧ ReadTalk cfg header aux (buf.drop n) es :=
  ((readProg_trail cfg mode buf).talk h).1

/-- **C100** A reception that gives its caller a secured frame has said all of it, and its last word was the store. -/
theorem C100_delivered (cfg : Cfg) (mode : FooterMode) (buf : List UInt8) (es : List (Exchange κ)) (f : Frame) (k : Nat)
    (out : List UInt8) (h : Talk (readProg cfg mode buf) es (.done (.ok (f, k), out))) (hsec : Secured f.header) :
    ∃ question₁ question₂ question₃ d, es = [question₁, question₂, question₃, .store d] := by
  obtain ⟨h1, h2⟩ := (readProg_trail cfg mode buf).talk h
  obtain ⟨d, hd⟩ := h2 f k out rfl hsec
  rcases h1 with h1 | ⟨_, _, _, _, _, _, _, _, _, h1⟩
  · rw [h1] at hd; cases hd
  · rw [List.nil_append] at hd h1
    cases h1 with
    | asked | looked | opened => simp at hd
    | stored => exact ⟨_, _, _, _, rfl⟩

end

/-! ## The calls of the crate -/

section
variable {κ σ α : Type} (aead : Aead κ) (keys : KeyLookup κ) (lookup : DevLookup σ)

/-- A run to the end is a conversation with truthful answers. -/
theorem runToEnd_talk (p : Prog κ α) (m : Memory σ) :
    ∃ es, Talk p es (.done (runToEnd aead keys lookup p m).1) ∧ Truthful aead keys lookup m es := by
  induction p generalizing m with
  | done a => exact ⟨[], .nothing _, trivial⟩
  | setCounter w c next ih => obtain ⟨es, h1, h2⟩ := ih _; exact ⟨_, .counter h1, h2⟩
  | askKey w mode kid addr next ih => obtain ⟨es, h1, h2⟩ := ih _ _; exact ⟨_, .key _ h1, rfl, h2⟩
  | encrypt w t k n a b next ih => obtain ⟨es, h1, h2⟩ := ih _ _; exact ⟨_, .encrypt _ h1, rfl, h2⟩
  | lookupDevice w mode addr next ih => obtain ⟨es, h1, h2⟩ := ih _ _; exact ⟨_, .device _ h1, rfl, h2⟩
  | decrypt w t k n a b g next ih => obtain ⟨es, h1, h2⟩ := ih _ _; exact ⟨_, .decrypt _ h1, rfl, h2⟩
  | storeDevice w d next ih => obtain ⟨es, h1, h2⟩ := ih _; exact ⟨_, .store h1, h2⟩

/-- **C100** The write function of the crate has such a conversation with the lookup and cipher it is given: it ends
with the result and octets of the call, and the answers in it are theirs. -/
theorem C100_write_call (cfg : Cfg) (sc : SecCtx κ) (call : WriteCall) (dev : σ) :
    let r := call.frame.tryWrite cfg aead ⟨call.mode, some sc⟩ call.buf
    ∃ es, Talk (writeProg cfg sc.euid (⟨sc.frameCounter, dev, none⟩ : Memory σ) call) es (.done (r.1, r.2.1)) ∧
      Truthful aead sc.keyProvider lookup ⟨sc.frameCounter, dev, none⟩ es := by
  have h := (C81_write_refines (cfg := cfg) (aead := aead) (lookup := lookup) sc call ⟨sc.frameCounter, dev, none⟩ rfl).1
  dsimp only
  rw [h]
  exact runToEnd_talk aead sc.keyProvider lookup _ _

/-- **C100** So has the read function. -/
theorem C100_read_call (cfg : Cfg) (sc : SecCtx κ) (mode : FooterMode) (buf : List UInt8) (dev : σ) :
    let r := Frame.tryReadAndUnsecure cfg aead buf ⟨mode, some sc⟩ lookup dev
    ∃ es, Talk (readProg cfg mode buf) es (.done (r.1, r.2.1)) ∧
      Truthful aead sc.keyProvider lookup ⟨sc.frameCounter, dev, none⟩ es := by
  have h := (C82_read_refines (cfg := cfg) (aead := aead) (lookup := lookup) sc mode buf ⟨sc.frameCounter, dev, none⟩).1
  dsimp only at h ⊢
  rw [h]
  exact runToEnd_talk aead sc.keyProvider lookup _ _

end

end Verif
