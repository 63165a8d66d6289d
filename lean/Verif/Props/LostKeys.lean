import Verif.Spec.LostSpec
import Verif.Props.RealCipher

/-!
# C105 Networks in which some keys are lost
-/

namespace Verif

open Spec Rfc3610

section
variable {L H σ : Type}

/-! ## The network without the lost keys -/

/-- The context, with no key wherever it has a lost one. -/
def heldCtx (sc : SecCtx (L ⊕ H)) : SecCtx H :=
  ⟨sc.euid, sc.frameCounter, fun mode id addr =>
    match sc.keyProvider mode id addr with
    | some (eui, .inr k) => some (eui, k)
    | _ => none⟩

def heldCallCtx (ctx : SerDesCtx (L ⊕ H)) : SerDesCtx H := ⟨ctx.footerMode, ctx.securityCtx.map heldCtx⟩

def heldSender (s : Sender (L ⊕ H)) : Sender H := ⟨s.cfg, heldCtx s.context, s.calls⟩

def heldOffer (a : Offer (L ⊕ H) σ) : Offer H σ := ⟨a.cfg, heldCallCtx a.ctx, a.lookup, a.device, a.slice⟩

/-- The frame would be written under a lost key. -/
def LostWrite (sc : SecCtx (L ⊕ H)) (f : Frame) : Prop :=
  ∃ aux eui k, f.header.auxSec = some aux ∧ sc.keyProvider .dst aux.keyIdentifier f.header.destination = some (eui, .inl k)

/-- The frame would be read under a lost key. -/
def LostRead (sc : SecCtx (L ⊕ H)) (h : Header) : Prop :=
  ∃ aux eui k, h.auxSec = some aux ∧ sc.keyProvider .src aux.keyIdentifier h.source = some (eui, .inl k)

theorem secureFrame_context (aead aead' : Aead (L ⊕ H)) (f : Frame) (sc : SecCtx (L ⊕ H)) (mode : FooterMode) (b : List UInt8) :
    (secureFrame aead f sc mode b).2.1 = (secureFrame aead' f sc mode b).2.1 := by
  unfold secureFrame
  cases mode with
  | explicit => rfl
  | none =>
    dsimp only
    split
    rotate_left
    · rfl
    split
    · rfl
    split
    · rfl
    split
    · rfl
    split
    · rfl
    · rfl
    split
    · rfl
    split
    · rfl
    split
    · rfl
    split <;> rfl

theorem secureFrame_heldContext (aead : Aead (L ⊕ H)) (aead' : Aead H) (f : Frame) (sc : SecCtx (L ⊕ H)) (mode : FooterMode)
    (b : List UInt8) : (secureFrame aead' f (heldCtx sc) mode b).2.1 = heldCtx (secureFrame aead f sc mode b).2.1 := by
  unfold secureFrame
  cases mode with
  | explicit => rfl
  | none =>
    dsimp only
    split
    rotate_left
    · rfl
    split
    · rfl
    split
    · rfl
    split
    · rfl
    split
    · rfl
    · rfl
    split
    · rfl
    have hc : (heldCtx sc).frameCounter = sc.frameCounter := rfl
    rw [hc]
    split
    · rfl
    simp only [heldCtx]
    generalize sc.keyProvider .dst _ f.header.destination = found
    rcases found with _ | ⟨eui, k | k⟩
    · rfl
    · dsimp only; split <;> rfl
    · dsimp only; split <;> rfl

theorem secureFrame_lost (known : BlockCipher L) (e e' : BlockCipher H) (f : Frame) (sc : SecCtx (L ⊕ H)) (mode : FooterMode)
    (b : List UInt8) (h : LostWrite sc f) :
    secureFrame (Ccm.aead (both known e)) f sc mode b = secureFrame (Ccm.aead (both known e')) f sc mode b := by
  obtain ⟨aux, eui, k, h1, h2⟩ := h
  unfold secureFrame
  simp only [h1, h2]
  rfl

theorem secureFrame_held (known : BlockCipher L) (e : BlockCipher H) (f : Frame) (sc : SecCtx (L ⊕ H)) (mode : FooterMode)
    (b : List UInt8) (h : ¬ LostWrite sc f) :
    (secureFrame (Ccm.aead (both known e)) f sc mode b).1 = (secureFrame (Ccm.aead e) f (heldCtx sc) mode b).1 ∧
    (secureFrame (Ccm.aead (both known e)) f sc mode b).2.2 = (secureFrame (Ccm.aead e) f (heldCtx sc) mode b).2.2 := by
  rw [← and_comm]
  unfold LostWrite at h
  unfold secureFrame
  cases mode with
  | explicit => exact ⟨rfl, rfl⟩
  | none =>
    dsimp only
    split
    rotate_left
    · exact ⟨rfl, rfl⟩
    split
    · exact ⟨rfl, rfl⟩
    split
    · exact ⟨rfl, rfl⟩
    split
    · exact ⟨rfl, rfl⟩
    split
    · exact ⟨rfl, rfl⟩
    · exact ⟨rfl, rfl⟩
    split
    · exact ⟨rfl, rfl⟩
    have hc : (heldCtx sc).frameCounter = sc.frameCounter := rfl
    rw [hc]
    split
    · exact ⟨rfl, rfl⟩
    simp only [heldCtx]
    rename_i aux haux _ _ _ _ _ _ _
    have hn := fun eui k => not_exists.1 (not_exists.1 (not_exists.1 h aux) eui) k
    generalize sc.keyProvider .dst _ f.header.destination = found at hn ⊢
    rcases found with _ | ⟨eui, k | k⟩
    · exact ⟨rfl, rfl⟩
    · exact absurd ⟨haux, rfl⟩ (hn eui k)
    · dsimp only
      split <;> exact ⟨rfl, rfl⟩

theorem unsecureFrame_lost (known : BlockCipher L) (e e' : BlockCipher H) (cfg : Cfg) (h : Header) (b : List UInt8)
    (sc : SecCtx (L ⊕ H)) (mode : FooterMode) (lookup : DevLookup σ) (dev : σ) (hl : LostRead sc h) :
    unsecureFrame cfg (Ccm.aead (both known e)) h b sc mode lookup dev =
      unsecureFrame cfg (Ccm.aead (both known e')) h b sc mode lookup dev := by
  obtain ⟨aux, eui, k, h1, h2⟩ := hl
  have hd : ∀ (e : BlockCipher H) nonce fc l t m em, doUnsecure cfg (Ccm.aead (both known e)) (.inl k) nonce fc l t m em b =
      doUnsecure cfg (Ccm.aead known) k nonce fc l t m em b := fun _ _ _ _ _ _ _ => rfl
  unfold unsecureFrame
  simp only [h1, h2, hd]

theorem unsecureFrame_held (known : BlockCipher L) (e : BlockCipher H) (cfg : Cfg) (h : Header) (b : List UInt8) (sc : SecCtx (L ⊕ H))
    (mode : FooterMode) (lookup : DevLookup σ) (dev : σ) (hl : ¬ LostRead sc h) :
    (unsecureFrame cfg (Ccm.aead e) h b (heldCtx sc) mode lookup dev).1 =
      (unsecureFrame cfg (Ccm.aead (both known e)) h b sc mode lookup dev).1 ∧
    (unsecureFrame cfg (Ccm.aead e) h b (heldCtx sc) mode lookup dev).2.1 =
      (unsecureFrame cfg (Ccm.aead (both known e)) h b sc mode lookup dev).2.1 ∧
    (unsecureFrame cfg (Ccm.aead e) h b (heldCtx sc) mode lookup dev).2.2.2 =
      (unsecureFrame cfg (Ccm.aead (both known e)) h b sc mode lookup dev).2.2.2 := by
  suffices hs : ∀ r, unsecureFrame cfg (Ccm.aead (both known e)) h b sc mode lookup dev = r →
      unsecureFrame cfg (Ccm.aead e) h b (heldCtx sc) mode lookup dev = (r.1, r.2.1, heldCtx sc, r.2.2.2) by
    rw [hs _ rfl]
    exact ⟨rfl, rfl, rfl⟩
  rintro r rfl
  unfold LostRead at hl
  unfold unsecureFrame
  cases mode with
  | explicit => rfl
  | none =>
    dsimp only
    split
    rotate_left
    · rfl
    split
    · rfl
    split
    · rfl
    split
    · rfl
    split
    · rfl
    simp only [heldCtx]
    rename_i aux haux _
    have hn := fun eui k => not_exists.1 (not_exists.1 (not_exists.1 hl aux) eui) k
    generalize sc.keyProvider .src _ h.source = found at hn ⊢
    rcases found with _ | ⟨eui, k | k⟩
    · rfl
    · exact absurd ⟨haux, rfl⟩ (hn eui k)
    have hd : ∀ nonce fc l t m em, doUnsecure cfg (Ccm.aead (both known e)) (.inr k) nonce fc l t m em b =
        doUnsecure cfg (Ccm.aead e) k nonce fc l t m em b := fun _ _ _ _ _ _ => rfl
    dsimp only
    simp only [hd]
    split
    · rfl
    split
    · rfl
    split
    · rfl
    split
    · rfl
    · rfl
    all_goals (split <;> rfl)

theorem header_held (cfg : Cfg) (h : Header) (sc : Option (SecCtx (L ⊕ H))) :
    h.tryWrite cfg (sc.map heldCtx) = h.tryWrite cfg sc := by
  cases sc <;> rfl

/-- What becomes of a write after the securing. -/
def afterSecuring {κ : Type} (f : Frame) (mode : FooterMode) (b : List UInt8) (o : Nat) (r : Out SecErr Nat × SecCtx κ × List UInt8) :
    Out ByteErr Nat × List UInt8 :=
  let finish (securityEnabled : Bool) (bytes : List UInt8) (offset : Nat) : Out ByteErr Nat × List UInt8 :=
    match f.writeTail mode securityEnabled bytes offset with
    | (.ok (), bytes, offset) => (.ok offset, bytes)
    | (.err e, bytes, _) => (.err e, bytes)
    | (.panic, bytes, _) => (.panic, bytes)
  match r with
  | (.ok len, _, sub) => finish true (b.take o ++ sub) (o + len)
  | (.err .securityNotEnabled, _, sub) => finish false (b.take o ++ sub) o
  | (.err e, _, sub) => (.err e.toByteErr, b.take o ++ sub)
  | (.panic, _, sub) => (.panic, b.take o ++ sub)

theorem afterSecuring_congr {κ κ' : Type} (f : Frame) (mode : FooterMode) (b : List UInt8) (o : Nat)
    {r : Out SecErr Nat × SecCtx κ × List UInt8} {r' : Out SecErr Nat × SecCtx κ' × List UInt8} (h1 : r.1 = r'.1) (h2 : r.2.2 = r'.2.2) :
    afterSecuring f mode b o r = afterSecuring f mode b o r' := by
  rcases r with ⟨a, sc, sub⟩
  rcases r' with ⟨a', sc', sub'⟩
  dsimp only at h1 h2
  subst h1
  subst h2
  rcases a with n | er | _
  · rfl
  · cases er <;> rfl
  · rfl

theorem tryWrite_after {κ : Type} (aead : Aead κ) (cfg : Cfg) (f : Frame) (mode : FooterMode) (sc : SecCtx κ) (buf : List UInt8) :
    f.tryWrite cfg aead ⟨mode, some sc⟩ buf =
      match f.writeHead cfg (some sc) buf 0 with
      | (.err e, b, _) => (.err e, b, ⟨mode, some sc⟩)
      | (.panic, b, _) => (.panic, b, ⟨mode, some sc⟩)
      | (.ok (), b, o) =>
        ((afterSecuring f mode b o (secureFrame aead f sc mode (b.drop o))).1,
          (afterSecuring f mode b o (secureFrame aead f sc mode (b.drop o))).2,
          ⟨mode, some (secureFrame aead f sc mode (b.drop o)).2.1⟩) := by
  unfold Frame.tryWrite afterSecuring
  dsimp only
  rcases f.writeHead cfg (some sc) buf 0 with ⟨_ | _ | _, b, o⟩
  rotate_left
  · rfl
  · rfl
  dsimp only
  generalize secureFrame aead f sc mode (b.drop o) = r
  rcases r with ⟨n | er | _, s1, sub⟩
  · dsimp only
    rcases f.writeTail mode true (b.take o ++ sub) (o + n) with ⟨_ | _ | _, _, _⟩ <;> rfl
  · cases er <;> first | rfl |
      (dsimp only; rcases f.writeTail mode false (b.take o ++ sub) o with ⟨_ | _ | _, _, _⟩ <;> rfl)
  · rfl

theorem writeHead_held (cfg : Cfg) (f : Frame) (sc : SecCtx (L ⊕ H)) : f.writeHead cfg (some (heldCtx sc)) = f.writeHead cfg (some sc) := by
  unfold Frame.writeHead; rw [← header_held (sc := some sc)]; rfl

theorem tryWrite_context (aead aead' : Aead (L ⊕ H)) (cfg : Cfg) (f : Frame) (mode : FooterMode) (sc : SecCtx (L ⊕ H)) (buf : List UInt8) :
    (f.tryWrite cfg aead ⟨mode, some sc⟩ buf).2.2 = (f.tryWrite cfg aead' ⟨mode, some sc⟩ buf).2.2 := by
  rw [tryWrite_after, tryWrite_after]
  rcases f.writeHead cfg (some sc) buf 0 with ⟨_ | _ | _, b, o⟩
  · dsimp only; rw [secureFrame_context aead aead']
  · rfl
  · rfl

theorem tryWrite_heldContext (aead : Aead (L ⊕ H)) (aead' : Aead H) (cfg : Cfg) (f : Frame) (mode : FooterMode) (sc : SecCtx (L ⊕ H))
    (buf : List UInt8) :
    (f.tryWrite cfg aead' ⟨mode, some (heldCtx sc)⟩ buf).2.2 = heldCallCtx (f.tryWrite cfg aead ⟨mode, some sc⟩ buf).2.2 := by
  rw [tryWrite_after, tryWrite_after, writeHead_held]
  rcases f.writeHead cfg (some sc) buf 0 with ⟨_ | _ | _, b, o⟩
  · dsimp only; rw [secureFrame_heldContext aead aead']; rfl
  · rfl
  · rfl

theorem tryWrite_lost (known : BlockCipher L) (e e' : BlockCipher H) (cfg : Cfg) (f : Frame) (mode : FooterMode) (sc : SecCtx (L ⊕ H))
    (buf : List UInt8) (h : LostWrite sc f) :
    f.tryWrite cfg (Ccm.aead (both known e)) ⟨mode, some sc⟩ buf = f.tryWrite cfg (Ccm.aead (both known e')) ⟨mode, some sc⟩ buf := by
  rw [tryWrite_after, tryWrite_after]
  simp only [secureFrame_lost known e e' f sc mode _ h]

theorem tryWrite_held (known : BlockCipher L) (e : BlockCipher H) (cfg : Cfg) (f : Frame) (mode : FooterMode) (sc : SecCtx (L ⊕ H))
    (buf : List UInt8) (h : ¬ LostWrite sc f) :
    (f.tryWrite cfg (Ccm.aead e) ⟨mode, some (heldCtx sc)⟩ buf).1 = (f.tryWrite cfg (Ccm.aead (both known e)) ⟨mode, some sc⟩ buf).1 ∧
    (f.tryWrite cfg (Ccm.aead e) ⟨mode, some (heldCtx sc)⟩ buf).2.1 = (f.tryWrite cfg (Ccm.aead (both known e)) ⟨mode, some sc⟩ buf).2.1 := by
  rw [tryWrite_after, tryWrite_after, writeHead_held]
  rcases f.writeHead cfg (some sc) buf 0 with ⟨_ | _ | _, b, o⟩
  · obtain ⟨h1, h2⟩ := secureFrame_held known e f sc mode (b.drop o) h
    dsimp only
    rw [afterSecuring_congr f mode b o h1 h2]
    exact ⟨rfl, rfl⟩
  · exact ⟨rfl, rfl⟩
  · exact ⟨rfl, rfl⟩

/-! ## Histories -/

theorem contextAfter_same (aead aead' : Aead (L ⊕ H)) (cfg : Cfg) (calls : List WriteCall) : ∀ sc,
    contextAfter cfg aead sc calls = contextAfter cfg aead' sc calls := by
  induction calls with
  | nil => intro sc; rfl
  | cons c calls ih =>
    intro sc
    unfold contextAfter at *
    rw [List.foldl_cons, List.foldl_cons, ← ih]
    congr 1
    unfold contextAfterCall
    rw [tryWrite_context aead aead']

theorem contextAfter_held (aead : Aead (L ⊕ H)) (aead' : Aead H) (cfg : Cfg) (calls : List WriteCall) : ∀ sc,
    contextAfter cfg aead' (heldCtx sc) calls = heldCtx (contextAfter cfg aead sc calls) := by
  induction calls with
  | nil => intro sc; rfl
  | cons c calls ih =>
    intro sc
    unfold contextAfter at *
    rw [List.foldl_cons, List.foldl_cons, ← ih]
    congr 1
    unfold contextAfterCall
    rw [tryWrite_heldContext aead aead']
    generalize (c.frame.tryWrite cfg aead ⟨c.mode, some sc⟩ c.buf).2.2 = x
    rcases x with ⟨_, _ | x⟩ <;> rfl

theorem contextAfter_keys {κ : Type} (e : BlockCipher κ) (cfg : Cfg) (calls : List WriteCall) (sc : SecCtx κ) :
    (contextAfter cfg (Ccm.aead e) sc calls).keyProvider = sc.keyProvider :=
  (C31_counter_monotone cfg (Ccm.aead e) (C50_ccm_laws e).toAeadTyped calls sc).2.2.2

theorem onAir_lost (known : BlockCipher L) (e e' : BlockCipher H) (cfg : Cfg) (sc : SecCtx (L ⊕ H)) (calls : List WriteCall) (p : Nat)
    {c : WriteCall} (hc : calls[p]? = some c) (h : LostWrite sc c.frame) :
    onAir cfg (Ccm.aead (both known e)) sc calls p = onAir cfg (Ccm.aead (both known e')) sc calls p := by
  unfold onAir
  rw [hc]
  dsimp only
  rw [contextAfter_same (Ccm.aead (both known e)) (Ccm.aead (both known e')), tryWrite_lost known e e']
  unfold LostWrite
  rw [contextAfter_keys]
  exact h

theorem onAir_held (known : BlockCipher L) (e : BlockCipher H) (cfg : Cfg) (sc : SecCtx (L ⊕ H)) (calls : List WriteCall) (p : Nat)
    {c : WriteCall} (hc : calls[p]? = some c) (h : ¬ LostWrite sc c.frame) :
    onAir cfg (Ccm.aead e) (heldCtx sc) calls p = onAir cfg (Ccm.aead (both known e)) sc calls p := by
  unfold onAir
  rw [hc]
  dsimp only
  rw [contextAfter_held (Ccm.aead (both known e)) (Ccm.aead e)]
  have := tryWrite_held known e cfg c.frame c.mode (contextAfter cfg (Ccm.aead (both known e)) sc (calls.take p)) c.buf (by
    unfold LostWrite
    rw [contextAfter_keys]
    exact h)
  generalize c.frame.tryWrite cfg (Ccm.aead e) ⟨c.mode, some (heldCtx (contextAfter cfg (Ccm.aead (both known e)) sc (calls.take p)))⟩ c.buf = r at this
  generalize c.frame.tryWrite cfg (Ccm.aead (both known e)) ⟨c.mode, some (contextAfter cfg (Ccm.aead (both known e)) sc (calls.take p))⟩ c.buf = r' at this
  rcases r with ⟨a, b, x⟩
  rcases r' with ⟨a', b', x'⟩
  obtain ⟨h1, h2⟩ := this
  dsimp only at h1 h2
  subst h1
  subst h2
  rcases a with _ | _ | _ <;> rfl

/-- The slice would be read under a lost key. -/
def LostOffer (a : Offer (L ⊕ H) σ) : Prop :=
  ∃ sc h c o, a.ctx.securityCtx = some sc ∧ Frame.readHead a.cfg a.slice 0 = .ok ((h, c), o) ∧ LostRead sc h

theorem answer_lost (known : BlockCipher L) (e e' : BlockCipher H) (a : Offer (L ⊕ H) σ) (h : LostOffer a) :
    answer (both known e) a = answer (both known e') a := by
  obtain ⟨sc, hd, c, o, h1, h2, h3⟩ := h
  unfold answer Frame.tryReadAndUnsecure
  simp only [h2, h1, unsecureFrame_lost known e e' a.cfg hd _ sc _ _ _ h3]

theorem answer_held (known : BlockCipher L) (e : BlockCipher H) (a : Offer (L ⊕ H) σ) (h : ¬ LostOffer a) :
    answer (both known e) a =
      ((answer e (heldOffer a)).1, (answer e (heldOffer a)).2.1, a.ctx, (answer e (heldOffer a)).2.2.2) := by
  suffices hs : (answer (both known e) a).1 = (answer e (heldOffer a)).1 ∧
      (answer (both known e) a).2.1 = (answer e (heldOffer a)).2.1 ∧
      (answer (both known e) a).2.2.2 = (answer e (heldOffer a)).2.2.2 by
    refine Prod.ext hs.1 (Prod.ext hs.2.1 (Prod.ext ?_ hs.2.2))
    exact answer_context (both known e) a
  obtain ⟨cfg, ⟨mode, sc⟩, lookup, dev, slice⟩ := a
  unfold LostOffer at h
  unfold answer heldOffer heldCallCtx Frame.tryReadAndUnsecure
  dsimp only at h ⊢
  cases hr : Frame.readHead cfg slice 0 with
  | err e => exact ⟨rfl, rfl, rfl⟩
  | panic => exact ⟨rfl, rfl, rfl⟩
  | ok x =>
    obtain ⟨⟨header, content⟩, offset⟩ := x
    dsimp only
    split
    rotate_left
    · exact ⟨rfl, rfl, rfl⟩
    cases sc with
    | none => exact ⟨rfl, rfl, rfl⟩
    | some sc =>
      dsimp only [Option.map]
      have := unsecureFrame_held known e cfg header (slice.drop offset) sc mode lookup dev
        (fun hl => h ⟨sc, header, content, offset, rfl, hr, hl⟩)
      generalize unsecureFrame cfg (Ccm.aead e) header (slice.drop offset) (heldCtx sc) mode lookup dev = r at this
      generalize unsecureFrame cfg (Ccm.aead (both known e)) header (slice.drop offset) sc mode lookup dev = r' at this
      rcases r with ⟨a1, a2, a3, a4⟩
      rcases r' with ⟨b1, b2, b3, b4⟩
      obtain ⟨g1, g2, g3⟩ := this
      dsimp only at g1 g2 g3
      subst g1
      subst g2
      subst g3
      rcases a1 with n | er | _
      · exact ⟨rfl, rfl, rfl⟩
      · cases er <;> exact ⟨rfl, rfl, rfl⟩
      · exact ⟨rfl, rfl, rfl⟩

/-! ## Plays -/

theorem wrote_held (net : List (Sender (L ⊕ H))) (i : Nat) (call : WriteCall) :
    wrote (net.map heldSender) i call = (wrote net i call).map heldSender := by
  unfold wrote
  apply List.ext_getElem?
  intro k
  simp only [List.getElem?_modify, List.getElem?_map]
  cases net[k]? with
  | none => simp
  | some s => by_cases h : i = k <;> simp [h, heldSender]

theorem writesOf_held (net : List (Sender (L ⊕ H))) (i : Nat) : writesOf (net.map heldSender) i = writesOf net i := by
  unfold writesOf
  rw [List.getElem?_map]
  cases net[i]? <;> rfl

/-- Device `i` would write the frame under a lost key. -/
def LostMove (net : List (Sender (L ⊕ H))) (i : Nat) (call : WriteCall) : Prop :=
  ∃ s, net[i]? = some s ∧ LostWrite s.context call.frame

theorem observed_lost (known : BlockCipher L) (e e' : BlockCipher H) (net : List (Sender (L ⊕ H))) (i : Nat) (call : WriteCall)
    (h : LostMove net i call) :
    observed (both known e) (wrote net i call) i (writesOf net i) = observed (both known e') (wrote net i call) i (writesOf net i) := by
  obtain ⟨s, h1, h2⟩ := h
  unfold observed wrote writesOf
  rw [List.getElem?_modify, h1]
  simp only [if_pos rfl]
  exact onAir_lost known e e' s.cfg s.context (s.calls ++ [call]) _ (by simp) h2

theorem observed_held (known : BlockCipher L) (e : BlockCipher H) (net : List (Sender (L ⊕ H))) (i : Nat) (call : WriteCall)
    (h : ¬ LostMove net i call) :
    observed e (wrote (net.map heldSender) i call) i (writesOf (net.map heldSender) i) =
      observed (both known e) (wrote net i call) i (writesOf net i) := by
  rw [wrote_held, writesOf_held]
  unfold observed
  rw [List.getElem?_map]
  unfold wrote writesOf
  rw [List.getElem?_modify]
  cases hi : net[i]? with
  | none => simp
  | some s =>
    simp only [if_pos rfl]
    exact onAir_held known e s.cfg s.context (s.calls ++ [call]) _ (by simp) (fun hl => h ⟨s, hi, hl⟩)

open Classical in
/-- One more step of the play with all keys, when `seen` was seen of it without the lost ones. -/
noncomputable def rebuildStep (known : BlockCipher L) (A : Attacker (L ⊕ H) σ) (now : Play (L ⊕ H) σ) (seen : Sight H σ) :
    Play (L ⊕ H) σ :=
  match A now.log with
  | none => now
  | some (.write i call) =>
    ⟨wrote now.net i call, now.log ++ [.sent i call
      (if LostMove now.net i call then
        observed (both known unimplementedCipher) (wrote now.net i call) i (writesOf now.net i)
      else match seen with
        | .sent _ _ o => o
        | .answered _ _ => none)]⟩
  | some (.offer a) =>
    ⟨now.net, now.log ++ [.answered a
      (if LostOffer a then answer (both known unimplementedCipher) a
      else match seen with
        | .sent _ _ _ => answer (both known unimplementedCipher) a
        | .answered _ x => (x.1, x.2.1, a.ctx, x.2.2.2))]⟩

/-- The play with all keys, out of what is seen of it without the lost ones. -/
noncomputable def rebuild (known : BlockCipher L) (start : List (Sender (L ⊕ H))) (A : Attacker (L ⊕ H) σ) (log : List (Sight H σ)) :
    Play (L ⊕ H) σ := log.foldl (rebuildStep known A) ⟨start, []⟩

open Classical in
/-- The attacker who plays without the lost keys as `A` does with them. -/
noncomputable def heldAttacker (known : BlockCipher L) (start : List (Sender (L ⊕ H))) (A : Attacker (L ⊕ H) σ) : Attacker H σ := fun log =>
  if sentCount (rebuild known start A log).log = sentCount log ∧ answerCount (rebuild known start A log).log = answerCount log then
    match A (rebuild known start A log).log with
    | none => none
    | some (.write i call) => some (.write i call)
    | some (.offer a) => some (.offer (heldOffer a))
  else none

variable {start : List (Sender (L ⊕ H))} {A : Attacker (L ⊕ H) σ} {q v limit : Nat}

theorem heldAttacker_limited (known : BlockCipher L) (hA : Limited A q v limit) : Limited (heldAttacker known start A) q v limit := by
  constructor
  · intro log i call h
    unfold heldAttacker at h
    split at h
    · rename_i hc
      split at h
      · cases h
      · rename_i i' call' hm
        simp only [Option.some.injEq, Move.write.injEq] at h
        obtain ⟨rfl, rfl⟩ := h
        have := hA.writes _ _ _ hm
        rw [hc.1] at this
        exact this
      · cases h
    · cases h
  · intro log a h
    unfold heldAttacker at h
    split at h
    · rename_i hc
      split at h
      · cases h
      · cases h
      · rename_i a' hm
        simp only [Option.some.injEq, Move.offer.injEq] at h
        subst h
        have := hA.offers _ _ hm
        rw [hc.2] at this
        exact this
    · cases h

theorem held_fresh (hs : Fresh start) : Fresh (start.map heldSender) := by
  constructor
  · rw [List.pairwise_map]
    exact hs.1
  · intro s hm
    obtain ⟨s', h1, rfl⟩ := List.mem_map.1 hm
    exact hs.2 s' h1

theorem heldAttacker_at (known : BlockCipher L) {log : List (Sight H σ)} {now : Play (L ⊕ H) σ} (h1 : rebuild known start A log = now)
    (h2 : sentCount log = sentCount now.log) (h3 : answerCount log = answerCount now.log) :
    heldAttacker known start A log = match A now.log with
      | none => none
      | some (.write i call) => some (.write i call)
      | some (.offer a) => some (.offer (heldOffer a)) := by
  unfold heldAttacker
  rw [h1, if_pos ⟨h2.symm, h3.symm⟩]

/-- Without the lost keys all goes as with them. -/
theorem held_play (known : BlockCipher L) (e : BlockCipher H) (n : Nat) :
    rebuild known start A (play e (start.map heldSender) (heldAttacker known start A) n).log = play (both known e) start A n ∧
    sentCount (play e (start.map heldSender) (heldAttacker known start A) n).log = sentCount (play (both known e) start A n).log ∧
    answerCount (play e (start.map heldSender) (heldAttacker known start A) n).log = answerCount (play (both known e) start A n).log ∧
    (play e (start.map heldSender) (heldAttacker known start A) n).net = (play (both known e) start A n).net.map heldSender := by
  induction n with
  | zero => exact ⟨rfl, rfl, rfl, rfl⟩
  | succ n ih =>
    obtain ⟨h1, h2, h3, h4⟩ := ih
    have hmove : heldAttacker known start A (play e (start.map heldSender) (heldAttacker known start A) n).log =
        match A (play (both known e) start A n).log with
        | none => none
        | some (.write i call) => some (.write i call)
        | some (.offer a) => some (.offer (heldOffer a)) := heldAttacker_at known h1 h2 h3
    have happ : ∀ log (x : Sight H σ), rebuild known start A (log ++ [x]) = rebuildStep known A (rebuild known start A log) x := by
      intro log x
      unfold rebuild
      rw [List.foldl_append]
      rfl
    cases hm : A (play (both known e) start A n).log with
    | none =>
      rw [hm] at hmove
      rw [play_stays _ hm 1, play_stays _ hmove 1]
      exact ⟨h1, h2, h3, h4⟩
    | some move =>
      rw [hm] at hmove
      cases move with
      | write i call =>
        rw [play_write hm, play_write hmove]
        refine ⟨?_, ?_, ?_, ?_⟩
        · rw [happ, h1]
          unfold rebuildStep
          rw [hm]
          dsimp only
          rw [h4]
          congr 3
          split
          · rename_i hl
            exact congrArg (Sight.sent i call) (observed_lost known _ e _ i call hl)
          · rename_i hl
            exact congrArg (Sight.sent i call) (observed_held known e _ i call hl)
        · simp only [sentCount, List.countP_append] at h2 ⊢
          rw [h2]
          rfl
        · simp only [answerCount, List.countP_append] at h3 ⊢
          rw [h3]
          rfl
        · dsimp only
          rw [h4, wrote_held]
      | offer a =>
        rw [play_offer hm, play_offer hmove]
        refine ⟨?_, ?_, ?_, h4⟩
        · rw [happ, h1]
          unfold rebuildStep
          rw [hm]
          dsimp only
          congr 3
          split
          · rename_i hl
            exact congrArg (Sight.answered a) (answer_lost known _ e a hl)
          · rename_i hl
            exact congrArg (Sight.answered a) (answer_held known e a hl).symm
        · simp only [sentCount, List.countP_append] at h2 ⊢
          rw [h2]
          rfl
        · simp only [answerCount, List.countP_append] at h3 ⊢
          rw [h3]
          rfl

/-! ## Hits -/

theorem sent_of_held (known : BlockCipher L) (e : BlockCipher H) {net : List (Sender (L ⊕ H))} {key : H} {level : SecurityLevel}
    {nonce payload : List UInt8} (h : Sent e (net.map heldSender) key level nonce payload) :
    Sent (both known e) net (.inr key) level nonce payload := by
  obtain ⟨s', hs', p, h1, call, aux, eui, h2, h3, h4, h5, h6, h7, h8⟩ := h
  obtain ⟨s, hs, rfl⟩ := List.mem_map.1 hs'
  have hk : s.context.keyProvider .dst aux.keyIdentifier call.frame.header.destination = some (eui, .inr key) := by
    have : (match s.context.keyProvider .dst aux.keyIdentifier call.frame.header.destination with
      | some (eui, .inr k) => some (eui, k)
      | _ => none) = some (eui, key) := h6
    split at this
    · rename_i hx
      simp only [Option.some.injEq, Prod.mk.injEq] at this
      rw [hx, this.1, this.2]
    · cases this
  have hn : ¬ LostWrite s.context call.frame := by
    rintro ⟨aux', eui', k, g1, g2⟩
    rw [h3] at g1
    cases g1
    rw [hk] at g2
    cases g2
  refine ⟨s, hs, p, ?_, call, aux, eui, h2, h3, h4, h5, hk, ?_, h8⟩
  · rw [← onAir_held known e s.cfg s.context s.calls p h2 hn]
    exact h1
  · rw [h7]
    show nonceOctets (heldCtx s.context).euid _ _ = _
    rw [show contextAfter (heldSender s).cfg (Ccm.aead e) (heldSender s).context ((heldSender s).calls.take p) = _ from
      contextAfter_held (Ccm.aead (both known e)) (Ccm.aead e) s.cfg (s.calls.take p) s.context]
    rfl

/-- A hit under a held key is one without the lost keys. -/
theorem hit_held (known : BlockCipher L) (e : BlockCipher H) (n : Nat) (g : Guess (L ⊕ H)) (key : H)
    (h1 : offerGuess (A (play (both known e) start A n).log) = some g) (h2 : g.Hits (both known e) (play (both known e) start A n).net 4)
    (hk : g.key = .inr key) : HitAt e (start.map heldSender) (heldAttacker known start A) 4 n := by
  obtain ⟨p1, p2, p3, p4⟩ := held_play (start := start) (A := A) known e n
  cases hm : A (play (both known e) start A n).log with
  | none => rw [hm] at h1; cases h1
  | some move =>
    rw [hm] at h1
    cases move with
    | write i call => cases h1
    | offer a =>
      have hmove : heldAttacker known start A (play e (start.map heldSender) (heldAttacker known start A) n).log =
          some (.offer (heldOffer a)) := by
        rw [heldAttacker_at known p1 p2 p3, hm]
      have hg : headerGuess (heldOffer a).cfg (heldOffer a).ctx (heldOffer a).slice =
          some ⟨key, g.level, g.eui, g.counter, g.body, g.tag⟩ := by
        have h1' : headerGuess a.cfg a.ctx a.slice = some g := h1
        obtain ⟨cfg, ⟨mode, sc⟩, lookup, dev, slice⟩ := a
        unfold headerGuess at h1' ⊢
        unfold heldOffer heldCallCtx
        dsimp only at h1' ⊢
        cases sc with
        | none => cases h1'
        | some sc =>
          dsimp only [Option.map] at h1' ⊢
          generalize Header.tryRead cfg slice = hr at h1' ⊢
          rcases hr with ⟨hd, k⟩ | _ | _
          · dsimp only at h1' ⊢
            generalize hd.auxSec = ha at h1' ⊢
            generalize hd.source = hs at h1' ⊢
            rcases ha with _ | aux
            · cases h1'
            rcases hs with _ | src
            · cases h1'
            dsimp only [heldCtx] at h1' ⊢
            generalize sc.keyProvider .src aux.keyIdentifier (some src) = found at h1' ⊢
            rcases found with _ | ⟨eui, k | k⟩
            · cases h1'
            · obtain rfl := Option.some.inj h1'
              cases hk
            · obtain rfl := Option.some.inj h1'
              cases hk
              rfl
          · cases h1'
          · cases h1'
      refine ⟨⟨key, g.level, g.eui, g.counter, g.body, g.tag⟩, ?_, ?_⟩
      · rw [hmove]; exact hg
      · obtain ⟨gk, gl, ge, gc, gb, gt⟩ := g
        dsimp only at hk
        subst hk
        refine ⟨h2.level, h2.long, h2.tag, fun hsent => h2.unsent ?_⟩
        rw [p4] at hsent
        exact sent_of_held known e hsent

theorem trouble_hits {ι ρ : Type} [DecidableEq ι] {stations : ρ → Station (L ⊕ H) σ ι} {relies : ρ → Nat → Prop}
    (hs : Fresh start) (hA : Limited A q v limit) (hm : MadeToReliers A start stations relies) (known : BlockCipher L) (e : BlockCipher H)
    (h : HeldTrouble (both known e) start A stations relies) :
    ∃ n, HitAt e (start.map heldSender) (heldAttacker known start A) 4 n := by
  rcases h with ⟨n, a, f, k, rc, x, key, ha, h1, h2, h3, h4, hk, h5⟩ | ⟨n, hn⟩
  · obtain ⟨g, g1, g2⟩ := forged_hits (both known e) 4 a ⟨f, k, rc, x, h1, h2, h3, h4, tag_four h4.level, h5⟩
    refine ⟨n, hit_held known e n g key (by rw [ha]; exact g1) g2 ?_⟩
    have hkey := h4.key
    unfold headerGuess at g1
    rw [h4.source] at hkey
    simp only [h3, h4.read, h4.aux, h4.source, hkey, Option.some.injEq] at g1
    rw [← g1]
    exact hk
  · apply Classical.byContradiction
    intro hno
    apply hn
    intro r d s hr hds
    have hsub := play_sub (start := start) (A := A) (both known e) 0 n
    rw [Nat.zero_add] at hsub
    obtain ⟨sender, hd⟩ : ∃ sender, start[d]? = some sender := by
      have hlen : start.length = (play (both known e) start A n).net.length := hsub.1.symm
      have hlt := (List.getElem?_eq_some_iff.1 hds).1
      rw [← hlen] at hlt
      exact ⟨_, List.getElem?_eq_getElem hlt⟩
    have hctx : s.context = sender.context := (hsub.2 d sender s hd hds).2.1
    obtain ⟨hm, hheld⟩ := hm r d sender hr hd
    rw [(play_channel _ _ _ _ _ _ hm (both known e) n).1]
    apply C68_channel s.cfg _ (Ccm.aead (both known e)) (C50_ccm_laws (both known e))
    apply noForgery_of_no_hit_for (play_fleet hs hA (both known e) n) (both known e) s (List.mem_of_getElem? hds) _ _ _ _ 4
    · intro c hc
      obtain ⟨t, a, ht, ha, hmine, rfl⟩ := play_calls _ (both known e) n c hc
      rw [hctx]
      exact (hm _ _ ha hmine).2.2.2
    · intro c _ h n aux _ _ hau
      exact tag_four hau
    · rintro c hc g hg ⟨rc, id, src, k1, k2, k3⟩ hh
      obtain ⟨t, a, ht, ha, hmine, rfl⟩ := play_calls _ (both known e) n c hc
      obtain ⟨key, hkey⟩ := hheld _ _ ha hmine rc id src _ _ k1 k2 k3
      apply hno
      refine ⟨t, hit_held known e t g key ?_ ⟨hh.level, hh.long, hh.tag, fun hsent => hh.unsent ?_⟩ hkey⟩
      · have hcfg := (hm _ _ ha hmine).1
        rw [ha]
        show headerGuess a.cfg a.ctx a.slice = some g
        rw [hcfg]
        exact hg
      · have := play_sub (start := start) (A := A) (both known e) t (n - t)
        rw [show t + (n - t) = n by omega] at this
        exact sent_mono this hsent

/-- **C105** Lost keys do not endanger the others.  Some keys are lost: the attacker knows, or has even chosen, what the
cipher does under them (`known` is any function, and he is chosen after it).  The chance that he ever gets a frame
accepted under a held key that nobody has sent, or has anything go wrong in what any receiver delivers as coming from
a device for which it holds only held keys, is no greater than without any loss. -/
theorem C105_lost_keys [Finite H] {ι ρ : Type} [DecidableEq ι] (known : BlockCipher L) (start : List (Sender (L ⊕ H)))
    (hs : Fresh start) (stations : ρ → Station (L ⊕ H) σ ι) (relies : ρ → Nat → Prop) (A : Attacker (L ⊕ H) σ)
    (q v limit : Nat) (hA : Limited A q v limit) (hm : MadeToReliers A start stations relies) (hl : limit < 65280) :
    ChanceAtMost (fun e : BlockCipher H => HeldTrouble (both known e) start A stations relies)
      (v * (2 ^ 96 + 4 * (9 * q + (limit + 33) / 16) ^ 2)) (2 ^ 128) :=
  chance_mono (fun e h => trouble_hits hs hA hm known e h)
    (play_hits (M := 4) (held_fresh hs) (heldAttacker_limited known hA) hl (by decide) (fun _ _ _ _ _ aux _ _ h => tag_four h))

/-- What goes wrong with the held keys shows in the play without the lost ones. -/
theorem heldTrouble_settled {ι ρ : Type} [DecidableEq ι] {stations : ρ → Station (L ⊕ H) σ ι} {relies : ρ → Nat → Prop}
    (hs : Fresh start) (hA : Limited A q v limit) (known : BlockCipher L) (e e' : BlockCipher H)
    (h : ∀ t, t ≤ q + v → play e' (start.map heldSender) (heldAttacker known start A) t =
      play e (start.map heldSender) (heldAttacker known start A) t)
    (hP : HeldTrouble (both known e) start A stations relies) : HeldTrouble (both known e') start A stations relies := by
  have hreal : ∀ t, t ≤ q + v → play (both known e') start A t = play (both known e) start A t := by
    intro t ht
    rw [← (held_play known e' t).1, ← (held_play known e t).1, h t ht]
  rcases hP with ⟨n, a, f, k, rc, x, key, ha, h1, h2, h3, h4, hk, h5⟩ | ⟨n, hn⟩
  · have hn := forges_early hs hA ha
    have h0 := hreal n (by omega)
    have h6 := hreal (n + 1) hn
    have ha' : A (play (both known e') start A n).log = some (.offer a) := by rw [h0]; exact ha
    have hans : answer (both known e') a = answer (both known e) a := by
      have g := congrArg Play.log h6
      rw [play_offer ha', play_offer ha, h0] at g
      have := List.append_cancel_left g
      simp only [List.cons.injEq, Sight.answered.injEq, true_and, and_true] at this
      exact this
    refine .inl ⟨n, a, f, k, rc, x, key, ha', by rw [hans]; exact h1, h2, h3, h4, hk, fun hsent => h5 ?_⟩
    rw [h0] at hsent
    obtain ⟨s, hs', p, hsend⟩ := hsent
    exact ⟨s, hs', p, sends_indep s.cfg (both known e) (both known e') s.context s.calls
      ((play_fleet hs hA (both known e) n).api s hs') p _ _ _ _ hsend⟩
  · refine .inr ⟨n, fun hr => hn ?_⟩
    have hsame : play (both known e') start A n = play (both known e) start A n := by
      by_cases hn : n ≤ q + v
      · exact hreal n hn
      · rw [play_over hs hA (both known e) n (by omega), play_over hs hA (both known e') n (by omega)]
        exact hreal _ (Nat.le_refl _)
    intro r d s hrel hds
    have := hr r d s hrel (by rw [hsame]; exact hds)
    rwa [hsame, sentBy_indep s.cfg (both known e) (both known e') s.calls s.context
      ((play_fleet hs hA (both known e) n).api s (List.mem_of_getElem? hds))] at this

/-- **C105** The same when the cipher is a permutation under every held key. -/
theorem C105_lost_keys_permutation [Finite H] {ι ρ : Type} [DecidableEq ι] (known : BlockCipher L) (start : List (Sender (L ⊕ H)))
    (hs : Fresh start) (stations : ρ → Station (L ⊕ H) σ ι) (relies : ρ → Nat → Prop) (A : Attacker (L ⊕ H) σ)
    (q v limit : Nat) (hA : Limited A q v limit) (hm : MadeToReliers A start stations relies) (hl : limit < 65280) :
    PermChanceAtMost (fun e : BlockCipher H => HeldTrouble (both known e) start A stations relies)
      (2 * (v * (2 ^ 96 + 4 * (9 * q + (limit + 33) / 16) ^ 2)))
      (2 ^ 129 - (18 * q + 2 * v * ((limit + 33) / 16)) ^ 2) :=
  perm_chance (play_settles (held_fresh hs) (heldAttacker_limited known hA) hl (q + v)
      (fun e e' h hP => heldTrouble_settled hs hA known e e' h hP)) _
    (play_size (held_fresh hs) (heldAttacker_limited known hA) hl (q + v))
    (C105_lost_keys known start hs stations relies A q v limit hA hm hl)

/-- **C105** And with a real block cipher whose held keys are drawn at random, when the lost keys may have any values:
the chance is at most that bound plus how well one computation, that asks for few block encryptions under held keys,
tells the block cipher from a random function, or permutation. -/
theorem C105_lost_real_keys [Finite H] {ι ρ K : Type} [DecidableEq ι] [Finite K] (cipher : BlockCipher K) (lost : L → K)
    (start : List (Sender (L ⊕ H)))
    (hs : Fresh start) (stations : ρ → Station (L ⊕ H) σ ι) (relies : ρ → Nat → Prop) (A : Attacker (L ⊕ H) σ)
    (q v limit : Nat) (hA : Limited A q v limit) (hm : MadeToReliers A start stations relies) (hl : limit < 65280) :
    ∃ quiz : Quiz H Prop, quiz.AtMost (blockCalls q v limit) ∧
      (∀ e, quiz.result e ↔ HeldTrouble (both (randomKeys L cipher lost) e) start A stations relies) ∧
      chance (fun held : H → K => HeldTrouble (randomKeys (L ⊕ H) cipher (Sum.elim lost held)) start A stations relies) ≤
        advantage quiz (randomKeys H cipher) (anyFunction H) + forgeryBound q v limit ∧
      (blockCalls q v limit ^ 2 < 2 ^ 129 →
        chance (fun held : H → K => HeldTrouble (randomKeys (L ⊕ H) cipher (Sum.elim lost held)) start A stations relies) ≤
          advantage quiz (randomKeys H cipher) (anyPermutation H) +
            forgeryBoundPermutation q v limit (blockCalls q v limit)) := by
  generalize hk : randomKeys L cipher lost = known
  have hboth : ∀ held : H → K, randomKeys (L ⊕ H) cipher (Sum.elim lost held) = both known (randomKeys H cipher held) := by
    intro held
    subst hk
    funext key
    cases key <;> rfl
  simp only [hboth]
  have hs' := held_fresh hs
  have hA' := heldAttacker_limited (start := start) known hA
  obtain ⟨prog, hcost, hprog⟩ := C104_attack_as_computation hs' hA' hl
  have hres : ∀ e, (prog.map fun pl => ∃ e', play e' (start.map heldSender) (heldAttacker known start A) (q + v) = pl ∧
      HeldTrouble (both known e') start A stations relies).result e ↔ HeldTrouble (both known e) start A stations relies := by
    intro e
    rw [Quiz.result_map, hprog e (q + v) (Nat.le_refl _)]
    constructor
    · rintro ⟨e', h1, h2⟩
      exact heldTrouble_settled hs hA known e' e (fun t ht => play_same h1.symm t ht) h2
    · intro h
      exact ⟨e, rfl, h⟩
  refine ⟨_, hcost.map _, hres, ?_⟩
  generalize (prog.map fun pl => ∃ e', play e' (start.map heldSender) (heldAttacker known start A) (q + v) = pl ∧
      HeldTrouble (both known e') start A stations relies) = quiz at hres
  have hfun : (fun e => quiz.result e) = fun e => HeldTrouble (both known e) start A stations relies :=
    funext fun e => propext (hres e)
  have hreal : chance (fun held : H → K => HeldTrouble (both known (randomKeys H cipher held)) start A stations relies) ≤
      chance (fun held => quiz.result (randomKeys H cipher held)) :=
    chance_le fun keys h => (hres _).2 h
  refine ⟨hreal.trans (through_quiz quiz _ _ _ ?_), fun hb => hreal.trans (through_quiz quiz _ _ _ ?_)⟩
  · have h := C105_lost_keys known start hs stations relies A q v limit hA hm hl
    rw [← hfun] at h
    have := chance_function_le (by decide) h
    refine this.trans (le_of_eq ?_)
    unfold forgeryBound
    push_cast
    rfl
  · have h := C105_lost_keys_permutation known start hs stations relies A q v limit hA hm hl
    rw [← hfun] at h
    unfold blockCalls at hb
    have := chance_permutation_le (by omega) h
    refine this.trans (le_of_eq ?_)
    unfold forgeryBoundPermutation blockCalls
    rw [Nat.cast_sub (Nat.le_of_lt hb)]
    push_cast
    rfl

/-! ## Secrecy -/

/-- Where a trial with all keys is. -/
structure Rebuilt (L H σ : Type) where
  left : List (Sender (L ⊕ H))
  log : List (Glimpse (L ⊕ H) σ)

open Classical in
/-- One more step of the trial with all keys, when `seen` was seen of it without the lost ones. -/
noncomputable def retryStep (known : BlockCipher L) (B : Tester (L ⊕ H) σ) (now : Rebuilt L H σ) (seen : Glimpse H σ) : Rebuilt L H σ :=
  match B now.log with
  | none => now
  | some (.write i l _) =>
    ⟨wrote now.left i l, now.log ++ [.sent
      (if LostMove now.left i l then
        observed (both known unimplementedCipher) (wrote now.left i l) i (writesOf now.left i)
      else match seen with
        | .sent o => o
        | .answered _ => none)]⟩
  | some (.offer a) =>
    ⟨now.left, now.log ++ [.answered
      (if LostOffer a then visible (answer (both known unimplementedCipher) a)
      else match seen with
        | .sent _ => visible (answer (both known unimplementedCipher) a)
        | .answered x => (x.1, a.ctx, x.2.2))]⟩

/-- The trial with all keys, out of what is seen of it without the lost ones. -/
noncomputable def retry (known : BlockCipher L) (start : List (Sender (L ⊕ H))) (B : Tester (L ⊕ H) σ) (log : List (Glimpse H σ)) :
    Rebuilt L H σ := log.foldl (retryStep known B) ⟨start, []⟩

def sentSeen {κ : Type} (log : List (Glimpse κ σ)) : Nat := log.countP fun | .sent _ => true | .answered _ => false
def answersSeen {κ : Type} (log : List (Glimpse κ σ)) : Nat := log.countP fun | .sent _ => false | .answered _ => true

open Classical in
/-- The tester who plays without the lost keys as `B` does with them. -/
noncomputable def heldTester (known : BlockCipher L) (start : List (Sender (L ⊕ H))) (B : Tester (L ⊕ H) σ) : Tester H σ := fun log =>
  if sentSeen (retry known start B log).log = sentSeen log ∧ answersSeen (retry known start B log).log = answersSeen log then
    match B (retry known start B log).log with
    | none => none
    | some (.write i l r) => some (.write i l r)
    | some (.offer a) => some (.offer (heldOffer a))
  else none

variable {B : Tester (L ⊕ H) σ} {M : Nat}

theorem heldTester_at (known : BlockCipher L) {log : List (Glimpse H σ)} {now : List (Glimpse (L ⊕ H) σ)}
    (h1 : (retry known start B log).log = now) (h2 : sentSeen log = sentSeen now) (h3 : answersSeen log = answersSeen now) :
    heldTester known start B log = match B now with
      | none => none
      | some (.write i l r) => some (.write i l r)
      | some (.offer a) => some (.offer (heldOffer a)) := by
  unfold heldTester
  rw [h1, if_pos ⟨h2.symm, h3.symm⟩]

theorem heldTester_fair (known : BlockCipher L) (hB : Fair B q v limit M) : Fair (heldTester known start B) q v limit M := by
  constructor
  · intro log i l r h
    unfold heldTester at h
    split at h
    · rename_i hc
      split at h
      · cases h
      · rename_i hm
        simp only [Option.some.injEq, Choice.write.injEq] at h
        obtain ⟨rfl, rfl, rfl⟩ := h
        obtain ⟨g1, g2⟩ := hB.writes _ _ _ _ hm
        refine ⟨lt_of_eq_of_lt ?_ g1, g2⟩
        refine Eq.trans ?_ (hc.1.symm.trans ?_) <;>
        · unfold sentSeen; congr 1; funext x; cases x <;> rfl
      · cases h
    · cases h
  · intro log a h
    unfold heldTester at h
    split at h
    · rename_i hc
      split at h
      · cases h
      · cases h
      · rename_i a' hm
        simp only [Option.some.injEq, Choice.offer.injEq] at h
        subst h
        obtain ⟨g1, g2, g3⟩ := hB.offers _ _ hm
        refine ⟨lt_of_eq_of_lt ?_ g1, g2, g3⟩
        refine Eq.trans ?_ (hc.2.symm.trans ?_) <;>
        · unfold answersSeen; congr 1; funext x; cases x <;> rfl
    · cases h

theorem observed_alike (d : BlockCipher (L ⊕ H)) {net net' : List (Sender (L ⊕ H))} (hn : Fleet net) (h : AlikeFleets net net') (i : Nat)
    (call : WriteCall) :
    observed d (wrote net i call) i (writesOf net i) = observed d (wrote net' i call) i (writesOf net' i) := by
  rw [writesOf_alike h]
  unfold observed wrote writesOf
  rw [List.getElem?_modify, List.getElem?_modify]
  rcases alike_net_get h i with ⟨g1, g2⟩ | ⟨t, t', g1, g2, h1, h2, h3⟩
  · rw [g1, g2]
  · rw [g1, g2]
    simp only
    show onAir t.cfg (Ccm.aead d) t.context (t.calls ++ [call]) t.calls.length =
      onAir t'.cfg (Ccm.aead d) t'.context (t'.calls ++ [call]) t.calls.length
    rw [h1, h2]
    unfold onAir
    rw [List.getElem?_append_right (Nat.le_refl _), List.getElem?_append_right (by rw [h3.1]), h3.1, Nat.sub_self]
    simp only [List.getElem?_cons_zero]
    rw [List.take_append_of_le_length (Nat.le_refl _), List.take_append_of_le_length (by rw [h3.1])]
    rw [alike_context t.cfg d d t.context t.calls t'.calls (hn.api t (List.mem_of_getElem? g1)) h3 t.calls.length]

theorem lostMove_sub {net net' : List (Sender (L ⊕ H))} (h : AlikeFleets net net') (i : Nat) {l r : WriteCall} (ha : Alike l r) :
    LostMove net i l ↔ LostMove net' i r := by
  have hh : r.frame.header = l.frame.header := ha.2.2.1
  unfold LostMove LostWrite
  rw [hh]
  rcases alike_net_get h i with ⟨g1, g2⟩ | ⟨t, t', g1, g2, h1, h2, h3⟩
  · rw [g1, g2]
  · rw [g1, g2]
    simp only [Option.some.injEq, exists_eq_left', h2]

/-- The step that comes of a choice. -/
def playsAt {κ : Type} (right : Bool) : Option (Choice κ σ) → Option (Move κ σ)
  | none => none
  | some (.write i l r) => some (.write i (if right then r else l))
  | some (.offer a) => some (.offer a)

theorem plays_at {κ : Type} (right : Bool) (B : Tester κ σ) {log : List (Sight κ σ)} {c : Option (Choice κ σ)}
    (h : B (log.map glimpse) = c) : plays right B log = playsAt right c := by
  unfold plays
  rw [h]
  rcases c with _ | _ | _ <;> rfl

/-- Without the lost keys all goes as with them. -/
theorem held_trial (known : BlockCipher L) (hs : Fresh start) (hB : Fair B q v limit M) (hsame : SameUnderLost start B) (right : Bool)
    (e : BlockCipher H) (n : Nat) :
    (retry known start B (glimpses e (start.map heldSender) right (heldTester known start B) n)).log =
      glimpses (both known e) start right B n ∧
    sentSeen (glimpses e (start.map heldSender) right (heldTester known start B) n) = sentSeen (glimpses (both known e) start right B n) ∧
    answersSeen (glimpses e (start.map heldSender) right (heldTester known start B) n) =
      answersSeen (glimpses (both known e) start right B n) ∧
    (play e (start.map heldSender) (plays right (heldTester known start B)) n).net =
      (play (both known e) start (plays right B) n).net.map heldSender ∧
    Fleet (retry known start B (glimpses e (start.map heldSender) right (heldTester known start B) n)).left ∧
    SubNet start (retry known start B (glimpses e (start.map heldSender) right (heldTester known start B) n)).left ∧
    AlikeFleets (retry known start B (glimpses e (start.map heldSender) right (heldTester known start B) n)).left
      (play (both known e) start (plays right B) n).net := by
  induction n with
  | zero => exact ⟨rfl, rfl, rfl, rfl, fresh_fleet hs, SubNet.refl _, alike_fleets_refl _⟩
  | succ n ih =>
    obtain ⟨h1, h2, h3, h4, h5, h6, h7⟩ := ih
    have hmove := heldTester_at known h1 h2 h3
    have happ : ∀ log (x : Glimpse H σ), retry known start B (log ++ [x]) = retryStep known B (retry known start B log) x := by
      intro log x
      unfold retry
      rw [List.foldl_append]
      rfl
    unfold glimpses at h1 h2 h3 h5 h6 h7 hmove ⊢
    cases hm : B ((play (both known e) start (plays right B) n).log.map glimpse) with
    | none =>
      rw [hm] at hmove
      have p1 : plays right B (play (both known e) start (plays right B) n).log = none := plays_at right B hm
      have p2 : plays right (heldTester known start B)
          (play e (start.map heldSender) (plays right (heldTester known start B)) n).log = none := plays_at right _ hmove
      rw [play_stays _ p1 1, play_stays _ p2 1]
      exact ⟨h1, h2, h3, h4, h5, h6, h7⟩
    | some move =>
      rw [hm] at hmove
      cases move with
      | write i l r =>
        have hw := hB.writes _ _ _ _ hm
        have p1 : plays right B (play (both known e) start (plays right B) n).log = some (.write i (if right then r else l)) := plays_at right B hm
        have p2 : plays right (heldTester known start B)
            (play e (start.map heldSender) (plays right (heldTester known start B)) n).log = some (.write i (if right then r else l)) := plays_at right _ hmove
        have hal : Alike l (if right then r else l) := by
          cases right
          · exact alike_refl l
          · exact hw.2.2
        rw [play_write p1, play_write p2]
        simp only [List.map_append, List.map_cons, List.map_nil, happ]
        unfold retryStep
        rw [h1, hm]
        dsimp only
        refine ⟨?_, ?_, ?_, ?_, ?_, ?_, ?_⟩
        · congr 2
          apply congrArg Glimpse.sent
          rw [h4]
          split
          · rename_i hl
            have hlr : (if right then r else l) = l := by
              obtain ⟨s, g1, aux, eui, k, g2, g3⟩ := hl
              obtain ⟨s0, g4⟩ : ∃ s0, start[i]? = some s0 := by
                have hlt := (List.getElem?_eq_some_iff.1 g1).1
                rw [h6.1] at hlt
                exact ⟨_, List.getElem?_eq_getElem hlt⟩
              have g5 := (h6.2 i s0 s g4 g1).2.1
              have := hsame _ i l r s0 aux eui k hm g4 g2 (by rw [← g5]; exact g3)
              rw [this]
              simp
            rw [hlr]
            rw [observed_alike _ h5 h7 i l]
            exact observed_lost known _ e _ i l ((lostMove_sub h7 i (alike_refl l)).1 hl)
          · rename_i hl
            exact observed_held known e _ i _ (fun hl' => hl ((lostMove_sub h7 i hal).2 hl'))
        · simp only [sentSeen, List.countP_append] at h2 ⊢
          rw [h2]
          rfl
        · simp only [answersSeen, List.countP_append] at h3 ⊢
          rw [h3]
          rfl
        · rw [h4, wrote_held]
        · exact fleet_wrote h5 _ _ hw.2.1
        · exact h6.trans (SubNet.wrote _ _ _)
        · exact alike_wrote h7 i hal
      | offer a =>
        have p1 : plays right B (play (both known e) start (plays right B) n).log = some (.offer a) := plays_at right B hm
        have p2 : plays right (heldTester known start B)
            (play e (start.map heldSender) (plays right (heldTester known start B)) n).log = some (.offer (heldOffer a)) := plays_at right _ hmove
        rw [play_offer p1, play_offer p2]
        simp only [List.map_append, List.map_cons, List.map_nil, happ]
        unfold retryStep
        rw [h1, hm]
        dsimp only
        refine ⟨?_, ?_, ?_, h4, h5, h6, h7⟩
        · congr 2
          apply congrArg Glimpse.answered
          split
          · rename_i hl
            rw [answer_lost known _ e a hl]
          · rename_i hl
            rw [answer_held known e a hl]
            rfl
        · simp only [sentSeen, List.countP_append] at h2 ⊢
          rw [h2]
          rfl
        · simp only [answersSeen, List.countP_append] at h3 ⊢
          rw [h3]
          rfl

/-- **C105** And what is encrypted under held keys stays secret: whatever a tester who knows, or has chosen, what the
cipher does under the lost keys concludes, he concludes with almost the same chance whichever of the two payloads of each of
his choices the devices were given, as long as the two are the same where a lost key is used; as if no key had been
lost. -/
theorem C105_lost_keys_secrecy [Finite H] (known : BlockCipher L) (start : List (Sender (L ⊕ H))) (hs : Fresh start)
    (B : Tester (L ⊕ H) σ) (q v limit : Nat) (hB : Fair B q v limit 0) (hsame : SameUnderLost start B) (hl : limit < 65280) (n : Nat)
    (D : List (Glimpse (L ⊕ H) σ) → Prop) :
    ApartAtMost (fun e : BlockCipher H => D (glimpses (both known e) start false B n))
      (fun e => D (glimpses (both known e) start true B n))
      (324 * q ^ 2 + 2 * (v * (2 ^ 96 + 4 * (9 * q + (limit + 33) / 16) ^ 2))) (2 ^ 128) := by
  have := C93_adaptive_secrecy (start.map heldSender) (held_fresh hs) (heldTester known start B) q v limit (heldTester_fair known hB) hl n
    (fun log => D (retry known start B log).log)
  simp only [(held_trial known hs hB hsame _ _ n).1] at this
  exact this

/-- **C105** The same when the cipher is a permutation under every held key. -/
theorem C105_lost_keys_secrecy_permutation [Finite H] (known : BlockCipher L) (start : List (Sender (L ⊕ H))) (hs : Fresh start)
    (B : Tester (L ⊕ H) σ) (q v limit : Nat) (hB : Fair B q v limit 0) (hsame : SameUnderLost start B) (hl : limit < 65280) (n : Nat)
    (D : List (Glimpse (L ⊕ H) σ) → Prop) :
    PermApartAtMost (fun e : BlockCipher H => D (glimpses (both known e) start false B n))
      (fun e => D (glimpses (both known e) start true B n))
      (2 * (324 * q ^ 2 + 2 * (v * (2 ^ 96 + 4 * (9 * q + (limit + 33) / 16) ^ 2))) +
        (18 * q + 2 * v * ((limit + 33) / 16)) ^ 2)
      (2 ^ 129 - (18 * q + 2 * v * ((limit + 33) / 16)) ^ 2) := by
  have := C94_permutation_secrecy (start.map heldSender) (held_fresh hs) (heldTester known start B) q v limit (heldTester_fair known hB) hl n
    (fun log => D (retry known start B log).log)
  simp only [(held_trial known hs hB hsame _ _ n).1] at this
  exact this

/-- **C105** And with a real block cipher whose held keys are drawn at random, when the lost keys may have any
values. -/
theorem C105_lost_real_keys_secrecy [Finite H] {K : Type} [Finite K] (cipher : BlockCipher K) (lost : L → K)
    (start : List (Sender (L ⊕ H))) (hs : Fresh start)
    (B : Tester (L ⊕ H) σ) (q v limit : Nat) (hB : Fair B q v limit 0) (hsame : SameUnderLost start B) (hl : limit < 65280) (n : Nat)
    (D : List (Glimpse (L ⊕ H) σ) → Prop) :
    ∃ quiz : Bool → Quiz H Prop, (∀ right, (quiz right).AtMost (blockCalls q v limit)) ∧
      (∀ right e, (quiz right).result e ↔ D (glimpses (both (randomKeys L cipher lost) e) start right B n)) ∧
      |chance (fun held : H → K => D (glimpses (randomKeys (L ⊕ H) cipher (Sum.elim lost held)) start false B n)) -
          chance (fun held : H → K => D (glimpses (randomKeys (L ⊕ H) cipher (Sum.elim lost held)) start true B n))| ≤
        advantage (quiz false) (randomKeys H cipher) (anyFunction H) +
          advantage (quiz true) (randomKeys H cipher) (anyFunction H) + secrecyBound q v limit ∧
      (blockCalls q v limit ^ 2 < 2 ^ 129 →
        |chance (fun held : H → K => D (glimpses (randomKeys (L ⊕ H) cipher (Sum.elim lost held)) start false B n)) -
            chance (fun held : H → K => D (glimpses (randomKeys (L ⊕ H) cipher (Sum.elim lost held)) start true B n))| ≤
          advantage (quiz false) (randomKeys H cipher) (anyPermutation H) +
            advantage (quiz true) (randomKeys H cipher) (anyPermutation H) +
            secrecyBoundPermutation q v limit (blockCalls q v limit)) := by
  generalize hk : randomKeys L cipher lost = known
  have hboth : ∀ held : H → K, randomKeys (L ⊕ H) cipher (Sum.elim lost held) = both known (randomKeys H cipher held) := by
    intro held
    subst hk
    funext key
    cases key <;> rfl
  obtain ⟨quiz, h1, h2, h3⟩ := C104_real_secrecy (start.map heldSender) (held_fresh hs) (heldTester known start B) q v limit
    (heldTester_fair known hB) hl n (fun log => D (retry known start B log).log)
  have h3 := h3 K cipher
  have hg : ∀ keys right, realGlimpses cipher keys (start.map heldSender) right (heldTester known start B) n =
      glimpses (randomKeys H cipher keys) (start.map heldSender) right (heldTester known start B) n := by
    intro keys right
    unfold realGlimpses glimpses
    rw [C104_real_play]
  simp only [hg, (held_trial known hs hB hsame _ _ n).1] at h2 h3
  simp only [hboth]
  exact ⟨quiz, h1, h2, h3⟩

end
end Verif
