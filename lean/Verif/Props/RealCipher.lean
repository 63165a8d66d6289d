import Verif.Lemmas.Quiz
import Verif.Props.Everyone
import Verif.Props.Steps

/-!
# C104 Networks with a real block cipher
-/

namespace Verif

open Spec Rfc3610

section
variable {κ K σ : Type}

/-! ## Keys by name -/

theorem secureFrame_with (keys : κ → K) (aead : Aead K) (f : Frame) (sc : SecCtx κ) (mode : FooterMode) (b : List UInt8) :
    secureFrame aead f (contextWith keys sc) mode b =
      ((secureFrame (aeadWith keys aead) f sc mode b).1, contextWith keys (secureFrame (aeadWith keys aead) f sc mode b).2.1,
        (secureFrame (aeadWith keys aead) f sc mode b).2.2) := by
  unfold secureFrame
  cases mode with
  | explicit => rfl
  | none =>
    dsimp only
    split
    rotate_left
    · rfl
    split
    · rfl
    split
    · rfl
    split
    · rfl
    split
    · rfl
    · rfl
    split
    · rfl
    have hc : (contextWith keys sc).frameCounter = sc.frameCounter := rfl
    rw [hc]
    split
    · rfl
    simp only [contextWith]
    rename_i aux _ _ _ _ _ _ _ _
    generalize sc.keyProvider .dst _ f.header.destination = found
    rcases found with _ | ⟨eui, key⟩
    · rfl
    · dsimp only [Option.map]
      split <;> rfl

theorem unsecureFrame_with (keys : κ → K) (aead : Aead K) (cfg : Cfg) (h : Header) (b : List UInt8) (sc : SecCtx κ)
    (mode : FooterMode) (lookup : DevLookup σ) (dev : σ) :
    unsecureFrame cfg aead h b (contextWith keys sc) mode lookup dev =
      ((unsecureFrame cfg (aeadWith keys aead) h b sc mode lookup dev).1,
        (unsecureFrame cfg (aeadWith keys aead) h b sc mode lookup dev).2.1,
        contextWith keys (unsecureFrame cfg (aeadWith keys aead) h b sc mode lookup dev).2.2.1,
        (unsecureFrame cfg (aeadWith keys aead) h b sc mode lookup dev).2.2.2) := by
  unfold unsecureFrame
  cases mode with
  | explicit => rfl
  | none =>
    dsimp only
    split
    rotate_left
    · rfl
    split
    · rfl
    split
    · rfl
    split
    · rfl
    split
    · rfl
    simp only [contextWith]
    generalize sc.keyProvider .src _ h.source = found
    rcases found with _ | ⟨eui, key⟩
    · rfl
    dsimp only [Option.map]
    split
    · rfl
    split
    · rfl
    split
    · rfl
    have hd : ∀ nonce fc l t m em, doUnsecure cfg aead (keys key) nonce fc l t m em b =
        doUnsecure cfg (aeadWith keys aead) key nonce fc l t m em b := fun _ _ _ _ _ _ => rfl
    simp only [hd]
    split
    · rfl
    · rfl
    all_goals (split <;> rfl)

theorem header_with (keys : κ → K) (cfg : Cfg) (h : Header) (sc : Option (SecCtx κ)) :
    h.tryWrite cfg (sc.map (contextWith keys)) = h.tryWrite cfg sc := by
  cases sc <;> rfl

/-- **C104** A write depends on its keys only through what the cipher does with them: with keys in place of their
names, and the cipher that looks the keys up, it gives the same result, octets and counter. -/
theorem C104_write_by_name (keys : κ → K) (aead : Aead K) (cfg : Cfg) (f : Frame) (ctx : SerDesCtx κ) (buf : List UInt8) :
    f.tryWrite cfg aead (callContextWith keys ctx) buf =
      ((f.tryWrite cfg (aeadWith keys aead) ctx buf).1, (f.tryWrite cfg (aeadWith keys aead) ctx buf).2.1,
        callContextWith keys (f.tryWrite cfg (aeadWith keys aead) ctx buf).2.2) := by
  obtain ⟨mode, sc⟩ := ctx
  unfold Frame.tryWrite callContextWith
  have hw : f.writeHead cfg (sc.map (contextWith keys)) = f.writeHead cfg sc := by
    unfold Frame.writeHead; rw [header_with]
  dsimp only
  rw [hw]
  rcases f.writeHead cfg sc buf 0 with ⟨_ | _ | _, b, o⟩
  rotate_left
  · rfl
  · rfl
  dsimp only
  cases sc with
  | none => dsimp only [Option.map]; split <;> rfl
  | some sc =>
    dsimp only [Option.map]
    rw [secureFrame_with]
    generalize secureFrame (aeadWith keys aead) f sc mode (b.drop o) = r
    rcases r with ⟨n | e | _, sc', sub⟩
    · dsimp only; split <;> rfl
    · cases e <;> dsimp only <;> first | rfl | (split <;> rfl)
    · rfl

/-- **C104** And so does a reception. -/
theorem C104_read_by_name (keys : κ → K) (aead : Aead K) (cfg : Cfg) (buf : List UInt8) (ctx : SerDesCtx κ)
    (lookup : DevLookup σ) (dev : σ) :
    Frame.tryReadAndUnsecure cfg aead buf (callContextWith keys ctx) lookup dev =
      ((Frame.tryReadAndUnsecure cfg (aeadWith keys aead) buf ctx lookup dev).1,
        (Frame.tryReadAndUnsecure cfg (aeadWith keys aead) buf ctx lookup dev).2.1,
        callContextWith keys (Frame.tryReadAndUnsecure cfg (aeadWith keys aead) buf ctx lookup dev).2.2.1,
        (Frame.tryReadAndUnsecure cfg (aeadWith keys aead) buf ctx lookup dev).2.2.2) := by
  obtain ⟨mode, sc⟩ := ctx
  unfold Frame.tryReadAndUnsecure callContextWith
  rcases Frame.readHead cfg buf 0 with ⟨⟨header, content⟩, offset⟩ | e | _
  rotate_left
  · rfl
  · rfl
  dsimp only
  split
  rotate_left
  · rfl
  cases sc with
  | none => rfl
  | some sc =>
    dsimp only [Option.map]
    rw [unsecureFrame_with]
    generalize unsecureFrame cfg (aeadWith keys aead) header (buf.drop offset) sc mode lookup dev = r
    rcases r with ⟨n | e | _, sub, sc', dev'⟩
    · rfl
    · cases e <;> rfl
    · rfl

/-- The named cipher of a cipher and keys. -/
theorem aead_named (keys : κ → K) (E : BlockCipher K) : aeadWith keys (Ccm.aead E) = Ccm.aead (randomKeys κ E keys) := rfl

theorem contextAfter_with (keys : κ → K) (E : BlockCipher K) (cfg : Cfg) (calls : List WriteCall) : ∀ sc : SecCtx κ,
    contextAfter cfg (Ccm.aead E) (contextWith keys sc) calls =
      contextWith keys (contextAfter cfg (Ccm.aead (randomKeys κ E keys)) sc calls) := by
  induction calls with
  | nil => intro sc; rfl
  | cons c calls ih =>
    intro sc
    have h : contextAfterCall cfg (Ccm.aead E) (contextWith keys sc) c =
        contextWith keys (contextAfterCall cfg (Ccm.aead (randomKeys κ E keys)) sc c) := by
      unfold contextAfterCall
      have := C104_write_by_name keys (Ccm.aead E) cfg c.frame ⟨c.mode, some sc⟩ c.buf
      rw [aead_named] at this
      rw [show (⟨c.mode, some (contextWith keys sc)⟩ : SerDesCtx K) = callContextWith keys ⟨c.mode, some sc⟩ from rfl, this]
      dsimp only
      generalize (c.frame.tryWrite cfg (Ccm.aead (randomKeys κ E keys)) ⟨c.mode, some sc⟩ c.buf).2.2 = x
      rcases x with ⟨_, _ | x⟩ <;> rfl
    unfold contextAfter at *
    rw [List.foldl_cons, List.foldl_cons, h, ih]

theorem onAir_with (keys : κ → K) (E : BlockCipher K) (cfg : Cfg) (sc : SecCtx κ) (calls : List WriteCall) (p : Nat) :
    onAir cfg (Ccm.aead E) (contextWith keys sc) calls p = onAir cfg (Ccm.aead (randomKeys κ E keys)) sc calls p := by
  unfold onAir
  split
  · rfl
  · rename_i c hc
    rw [contextAfter_with]
    generalize contextAfter cfg (Ccm.aead (randomKeys κ E keys)) sc (calls.take p) = sc'
    have := C104_write_by_name keys (Ccm.aead E) cfg c.frame ⟨c.mode, some sc'⟩ c.buf
    rw [aead_named] at this
    rw [show (⟨c.mode, some (contextWith keys sc')⟩ : SerDesCtx K) = callContextWith keys ⟨c.mode, some sc'⟩ from rfl, this]
    generalize c.frame.tryWrite cfg (Ccm.aead (randomKeys κ E keys)) ⟨c.mode, some sc'⟩ c.buf = r
    rcases r with ⟨_ | _ | _, _, _⟩ <;> rfl

theorem observed_with (keys : κ → K) (E : BlockCipher K) (net : List (Sender κ)) (i p : Nat) :
    observed E (net.map (senderWith keys)) i p = observed (randomKeys κ E keys) net i p := by
  unfold observed
  rw [List.getElem?_map]
  cases net[i]? with
  | none => rfl
  | some s => exact onAir_with keys E s.cfg s.context s.calls p

theorem answer_with (keys : κ → K) (E : BlockCipher K) (a : Offer κ σ) :
    answer E (offerWith keys a) =
      ((answer (randomKeys κ E keys) a).1, (answer (randomKeys κ E keys) a).2.1,
        callContextWith keys (answer (randomKeys κ E keys) a).2.2.1, (answer (randomKeys κ E keys) a).2.2.2) :=
  C104_read_by_name keys (Ccm.aead E) a.cfg a.slice a.ctx a.lookup a.device

theorem answer_context (e : BlockCipher κ) (a : Offer κ σ) : (answer e a).2.2.1 = a.ctx := by
  rcases a with ⟨cfg, ⟨mode, _ | sc⟩, lookup, dev, slice⟩
  · exact congrArg Prod.fst (C82_without_context cfg (Ccm.aead e) lookup mode slice dev).2
  · have := tryReadP_run (Ccm.aead e) lookup cfg mode sc slice ⟨0, dev, none⟩
    unfold answer
    dsimp only at this ⊢
    rw [this]

/-- **C104** In a network with real keys all goes as in one in which keys are names, with the cipher that looks the
keys up. -/
theorem C104_real_play (E : BlockCipher K) (keys : κ → K) (start : List (Sender κ)) (A : Attacker κ σ) (n : Nat) :
    realPlay E keys start A n = play (randomKeys κ E keys) start A n := by
  induction n with
  | zero => rfl
  | succ n ih =>
    unfold realPlay play
    rw [ih]
    dsimp only
    cases h : A (play (randomKeys κ E keys) start A n).log with
    | none => rfl
    | some move =>
      cases move with
      | write i call => dsimp only; rw [observed_with]
      | offer a =>
        dsimp only
        rw [answer_with]
        dsimp only
        rw [← answer_context (randomKeys κ E keys) a]

theorem sentBy_with (keys : κ → K) (E : BlockCipher K) (cfg : Cfg) (calls : List WriteCall) : ∀ sc : SecCtx κ,
    sentBy cfg (Ccm.aead E) (contextWith keys sc) calls = sentBy cfg (Ccm.aead (randomKeys κ E keys)) sc calls := by
  induction calls with
  | nil => intro sc; rfl
  | cons c calls ih =>
    intro sc
    have h1 := contextAfter_with keys E cfg [c] sc
    have h2 : sentByCall cfg (Ccm.aead E) (contextWith keys sc) c = sentByCall cfg (Ccm.aead (randomKeys κ E keys)) sc c := by
      unfold sentByCall
      have := C104_write_by_name keys (Ccm.aead E) cfg c.frame ⟨c.mode, some sc⟩ c.buf
      rw [aead_named] at this
      rw [show (⟨c.mode, some (contextWith keys sc)⟩ : SerDesCtx K) = callContextWith keys ⟨c.mode, some sc⟩ from rfl, this]
      rfl
    unfold sentBy
    rw [h2, ← ih]
    exact congrArg (fun x => _ ++ sentBy cfg (Ccm.aead E) x calls) h1

theorem sent_with (keys : κ → K) (E : BlockCipher K) {net : List (Sender κ)} {key : κ} {level : SecurityLevel}
    {nonce payload : List UInt8} (h : Sent (randomKeys κ E keys) net key level nonce payload) :
    Sent E (net.map (senderWith keys)) (keys key) level nonce payload := by
  obtain ⟨s, hs, p, h1, call, aux, eui, h2, h3, h4, h5, h6, h7, h8⟩ := h
  refine ⟨senderWith keys s, List.mem_map.2 ⟨s, hs, rfl⟩, p, ?_, call, aux, eui, h2, h3, h4, h5, ?_, ?_, h8⟩
  · rw [show onAir (senderWith keys s).cfg (Ccm.aead E) (senderWith keys s).context (senderWith keys s).calls p = _ from
      onAir_with keys E s.cfg s.context s.calls p]
    exact h1
  · show (s.context.keyProvider _ _ _).map _ = _
    rw [h6]
    rfl
  · rw [show contextAfter (senderWith keys s).cfg (Ccm.aead E) (senderWith keys s).context ((senderWith keys s).calls.take p) = _ from
      contextAfter_with keys E s.cfg (s.calls.take p) s.context]
    exact h7

theorem forged_with (keys : κ → K) (E : BlockCipher K) {net : List (Sender κ)} {M : Nat} {a : Offer κ σ}
    (h : Forged E (net.map (senderWith keys)) M (offerWith keys a)) : Forged (randomKeys κ E keys) net M a := by
  obtain ⟨f, n, rc, x, h1, h2, h3, h4, h5, h6⟩ := h
  rw [answer_with] at h1
  obtain ⟨sc, hsc, rfl⟩ : ∃ sc, a.ctx.securityCtx = some sc ∧ contextWith keys sc = rc := by
    have : a.ctx.securityCtx.map (contextWith keys) = some rc := h3
    simpa [Option.map_eq_some_iff] using this
  have hk : (sc.keyProvider .src x.aux.keyIdentifier x.header.source).map (fun found => (found.1, keys found.2)) =
      some (x.eui, x.key) := h4.key
  rw [Option.map_eq_some_iff] at hk
  obtain ⟨⟨eui, key⟩, hk1, hk2⟩ := hk
  simp only [Prod.mk.injEq] at hk2
  obtain ⟨he, hkey⟩ := hk2
  refine ⟨f, n, sc, ⟨x.header, x.headLength, x.aux, x.eui, key, x.source, x.looked, x.device, x.store⟩, h1, h2, hsc, ?_, h5, ?_⟩
  · exact ⟨h4.read, h4.data, h4.version, h4.aux, h4.level, by rw [hk1, he], h4.source, h4.device, h4.notExhausted, h4.fresh⟩
  · intro hsent
    apply h6
    rw [← hkey]
    exact sent_with keys E hsent

theorem trouble_with {ι ρ : Type} [DecidableEq ι] {E : BlockCipher K} {keys : κ → K} {start : List (Sender κ)}
    {A : Attacker κ σ} {stations : ρ → Station κ σ ι} (h : RealTrouble E keys start A stations) :
    PlayForges (randomKeys κ E keys) start A 0 ∨ ∃ n, ¬ AllRight (randomKeys κ E keys) start A stations n := by
  rcases h with ⟨n, a, h1, h2⟩ | ⟨n, r, d, s, h1, h2⟩
  · rw [C104_real_play] at h1 h2
    exact .inl ⟨n, a, h1, forged_with keys E h2⟩
  · rw [C104_real_play] at h1 h2
    rw [List.getElem?_map, Option.map_eq_some_iff] at h1
    obtain ⟨s', h3, rfl⟩ := h1
    refine .inr ⟨n, fun hr => h2 ?_⟩
    rw [show sentBy (senderWith keys s').cfg (Ccm.aead E) (senderWith keys s').context (senderWith keys s').calls = _ from
      sentBy_with keys E s'.cfg s'.calls s'.context]
    exact hr r d s' h3

/-! ## A play as a computation that asks for block encryptions -/

/-- What a device puts on the air with one more write. -/
def writeQuiz (s : Sender κ) (call : WriteCall) : Quiz κ (Option (List UInt8)) :=
  let sc := contextAfter s.cfg (Ccm.aead unimplementedCipher) s.context s.calls
  ((call.frame.tryWriteP s.cfg ⟨call.mode, some sc⟩ call.buf).quiz sc.keyProvider (σ := Unit) unimplementedDevLookup
    ⟨sc.frameCounter, (), none⟩).map fun r =>
      match r.1 with
      | (.ok n, buf) => some (buf.take n)
      | _ => none

theorem contextAfter_indep (e e' : BlockCipher κ) (cfg : Cfg) (calls : List WriteCall) : ∀ sc : SecCtx κ,
    (∀ c ∈ calls, ContentFromApi c.frame.content) →
    contextAfter cfg (Ccm.aead e') sc calls = contextAfter cfg (Ccm.aead e) sc calls := by
  induction calls with
  | nil => intro sc _; rfl
  | cons c calls ih =>
    intro sc hs
    have h := alike_step cfg e e' sc c c (hs c (List.mem_cons_self ..)) (alike_refl c)
    have h2 : contextAfterCall cfg (Ccm.aead e') sc c = contextAfterCall cfg (Ccm.aead e) sc c := by
      unfold contextAfterCall; rw [h.2]
    have ih := ih (contextAfterCall cfg (Ccm.aead e) sc c) (fun c hc => hs c (List.mem_cons_of_mem _ hc))
    unfold contextAfter at *
    rw [List.foldl_cons, List.foldl_cons, h2, ih]

theorem writeQuiz_result (e : BlockCipher κ) (s : Sender κ) (hs : ∀ c ∈ s.calls, ContentFromApi c.frame.content) (call : WriteCall) :
    (writeQuiz s call).result e = onAir s.cfg (Ccm.aead e) s.context (s.calls ++ [call]) s.calls.length := by
  have hctx := contextAfter_indep e unimplementedCipher s.cfg s.calls s.context hs
  unfold writeQuiz
  rw [Quiz.result_map, Prog.quiz_result, hctx]
  unfold onAir
  rw [List.getElem?_append_right (Nat.le_refl _), Nat.sub_self]
  simp only [List.getElem?_cons_zero]
  rw [List.take_append_of_le_length (Nat.le_refl _), List.take_length]
  generalize contextAfter s.cfg (Ccm.aead e) s.context s.calls = sc
  have := (tryWriteP_run (Ccm.aead e) (unimplementedDevLookup (σ := Unit)) s.cfg call.frame call.mode sc call.buf
    ⟨sc.frameCounter, (), none⟩ rfl).1
  rw [this]
  generalize runToEnd (Ccm.aead e) sc.keyProvider unimplementedDevLookup
    (call.frame.tryWriteP s.cfg ⟨call.mode, some sc⟩ call.buf) (⟨sc.frameCounter, (), none⟩ : Memory Unit) = r
  rcases r with ⟨⟨_ | _ | _, _⟩, _⟩ <;> rfl

theorem writeQuiz_cost (s : Sender κ) (call : WriteCall) : Quiz.AtMost 18 (writeQuiz s call) :=
  (((tryWriteP_once s.cfg call.frame _ call.buf).cost (by decide) _ _ _).map _)

/-- A receiver's answer. -/
def readQuiz (a : Offer κ σ) : Quiz κ (Answer κ σ) :=
  match a.ctx.securityCtx with
  | none => .done (answer unimplementedCipher a)
  | some sc =>
    ((Frame.tryReadAndUnsecureP a.cfg a.slice a.ctx.footerMode true).quiz sc.keyProvider a.lookup
      ⟨sc.frameCounter, a.device, none⟩).map fun r => (r.1.1, r.1.2, a.ctx, r.2.dev)

theorem readQuiz_result (e : BlockCipher κ) (a : Offer κ σ) : (readQuiz a).result e = answer e a := by
  rcases a with ⟨cfg, ⟨mode, _ | sc⟩, lookup, dev, slice⟩
  · have h1 := C82_without_context cfg (Ccm.aead e) lookup mode slice dev
    have h2 := C82_without_context cfg (Ccm.aead (unimplementedCipher (κ := κ))) lookup mode slice dev
    show answer unimplementedCipher _ = answer e _
    unfold answer
    have h3 := h1.1.symm.trans h2.1
    simp only [Prog.done.injEq, Prod.mk.injEq] at h3
    exact Prod.ext h3.1.symm (Prod.ext h3.2.symm (h2.2.trans h1.2.symm))
  · have := tryReadP_run (Ccm.aead e) lookup cfg mode sc slice ⟨sc.frameCounter, dev, none⟩
    unfold answer readQuiz
    dsimp only at this ⊢
    rw [Quiz.result_map, Prog.quiz_result, this]

theorem readQuiz_cost (a : Offer κ σ) (limit : Nat) (h : a.slice.length ≤ limit) (hl : limit < 65280) :
    Quiz.AtMost (2 * ((limit + 33) / 16)) (readQuiz a) := by
  unfold readQuiz
  split
  · exact .done _ _
  · exact (((tryReadP_once _ _ _ _ limit h).cost (by omega) _ _ _).map _).mono (by omega)

/-- The rest of a play. -/
def playQuiz (A : Attacker κ σ) : Nat → Play κ σ → Quiz κ (Play κ σ)
  | 0, now => .done now
  | n + 1, now =>
    match A now.log with
    | none => .done now
    | some (.write i call) =>
      match now.net[i]? with
      | none => playQuiz A n ⟨wrote now.net i call, now.log ++ [.sent i call none]⟩
      | some s => (writeQuiz s call).bind fun octets =>
          playQuiz A n ⟨wrote now.net i call, now.log ++ [.sent i call octets]⟩
    | some (.offer a) => (readQuiz a).bind fun x => playQuiz A n ⟨now.net, now.log ++ [.answered a x]⟩

variable {start : List (Sender κ)} {A : Attacker κ σ} {q v limit : Nat}

theorem playQuiz_stop {n : Nat} {now : Play κ σ} (h : A now.log = none) : playQuiz A n now = .done now := by
  cases n with
  | zero => rfl
  | succ n => unfold playQuiz; rw [h]

theorem playQuiz_write {n : Nat} {now : Play κ σ} {i : Nat} {call : WriteCall} (h : A now.log = some (.write i call)) :
    playQuiz A (n + 1) now = match now.net[i]? with
      | none => playQuiz A n ⟨wrote now.net i call, now.log ++ [.sent i call none]⟩
      | some s => (writeQuiz s call).bind fun octets =>
          playQuiz A n ⟨wrote now.net i call, now.log ++ [.sent i call octets]⟩ := by
  conv => lhs; unfold playQuiz
  rw [h]

theorem playQuiz_offer {n : Nat} {now : Play κ σ} {a : Offer κ σ} (h : A now.log = some (.offer a)) :
    playQuiz A (n + 1) now = (readQuiz a).bind fun x => playQuiz A n ⟨now.net, now.log ++ [.answered a x]⟩ := by
  conv => lhs; unfold playQuiz
  rw [h]

theorem play_write {e : BlockCipher κ} {n i : Nat} {call : WriteCall} (h : A (play e start A n).log = some (.write i call)) :
    play e start A (n + 1) = ⟨wrote (play e start A n).net i call, (play e start A n).log ++
      [.sent i call (observed e (wrote (play e start A n).net i call) i (writesOf (play e start A n).net i))]⟩ := by
  conv => lhs; unfold play
  dsimp only
  rw [h]

theorem play_offer {e : BlockCipher κ} {n : Nat} {a : Offer κ σ} (h : A (play e start A n).log = some (.offer a)) :
    play e start A (n + 1) = ⟨(play e start A n).net, (play e start A n).log ++ [.answered a (answer e a)]⟩ := by
  conv => lhs; unfold play
  dsimp only
  rw [h]

theorem playQuiz_result (hs : Fresh start) (hA : Limited A q v limit) (e : BlockCipher κ) (n : Nat) : ∀ t,
    (playQuiz A n (play e start A t)).result e = play e start A (t + n) := by
  induction n with
  | zero => intro t; rfl
  | succ n ih =>
    intro t
    have ih := ih (t + 1)
    rw [show t + (n + 1) = t + 1 + n by omega, ← ih]
    have hf := play_fleet hs hA e t
    cases h : A (play e start A t).log with
    | none => rw [playQuiz_stop h, play_stays e h 1, playQuiz_stop h]
    | some move =>
      cases move with
      | write i call =>
        rw [playQuiz_write h, play_write h]
        cases hi : (play e start A t).net[i]? with
        | none =>
          dsimp only
          have : observed e (wrote (play e start A t).net i call) i (writesOf (play e start A t).net i) = none := by
            unfold observed wrote
            rw [List.getElem?_modify, hi]
            simp
          rw [this]
        | some s =>
          dsimp only
          rw [Quiz.result_bind, writeQuiz_result e s (hf.api s (List.mem_of_getElem? hi))]
          have : observed e (wrote (play e start A t).net i call) i (writesOf (play e start A t).net i) =
              onAir s.cfg (Ccm.aead e) s.context (s.calls ++ [call]) s.calls.length := by
            unfold observed wrote writesOf
            rw [List.getElem?_modify, hi]
            simp
          rw [this]
      | offer a => rw [playQuiz_offer h, play_offer h, Quiz.result_bind, readQuiz_result]

theorem playQuiz_cost (hA : Limited A q v limit) (hl : limit < 65280) (n : Nat) : ∀ now : Play κ σ,
    Quiz.AtMost ((q - sentCount now.log) * 18 + (v - answerCount now.log) * (2 * ((limit + 33) / 16))) (playQuiz A n now) := by
  induction n with
  | zero => intro now; exact .done _ _
  | succ n ih =>
    intro now
    unfold playQuiz
    split
    · exact .done _ _
    · rename_i i call h
      have hw := (hA.writes _ _ _ h).1
      have hx : ∀ octets, Quiz.AtMost ((q - sentCount now.log - 1) * 18 + (v - answerCount now.log) * (2 * ((limit + 33) / 16)))
          (playQuiz A n ⟨wrote now.net i call, now.log ++ [.sent i call octets]⟩) := by
        intro octets
        refine (ih _).mono ?_
        simp [sentCount, answerCount, List.countP_append]
        omega
      split
      · refine (hx _).mono ?_
        omega
      · refine ((writeQuiz_cost _ _).bind hx).mono ?_
        omega
    · rename_i a h
      have ho := hA.offers _ _ h
      have hx : ∀ x, Quiz.AtMost ((q - sentCount now.log) * 18 + (v - answerCount now.log - 1) * (2 * ((limit + 33) / 16)))
          (playQuiz A n ⟨now.net, now.log ++ [.answered a x]⟩) := by
        intro x
        refine (ih _).mono ?_
        simp [sentCount, answerCount, List.countP_append]
        omega
      refine ((readQuiz_cost a limit ho.2 hl).bind hx).mono ?_
      obtain ⟨k, hk⟩ : ∃ k, v - answerCount now.log = k + 1 := ⟨v - answerCount now.log - 1, by omega⟩
      rw [hk, Nat.add_sub_cancel, Nat.add_mul]
      omega

/-- **C104** Whatever an attacker in control of the network does, it can be carried out, the devices' and receivers'
work included, by a computation that asks for at most eighteen block encryptions for each frame written and at most
twice `(limit + 33) / 16` for each slice read, and knows nothing else of the cipher; and nothing comes after its end. -/
theorem C104_attack_as_computation (hs : Fresh start) (hA : Limited A q v limit) (hl : limit < 65280) :
    ∃ quiz : Quiz κ (Play κ σ), quiz.AtMost (blockCalls q v limit) ∧
      ∀ e n, q + v ≤ n → quiz.result e = play e start A n := by
  refine ⟨playQuiz A (q + v) ⟨start, []⟩, (playQuiz_cost hA hl (q + v) _).mono ?_, fun e n hn => ?_⟩
  · unfold blockCalls sentCount answerCount
    simp only [List.countP_nil, Nat.sub_zero]
    rw [Nat.mul_comm q, Nat.mul_comm 2 v, Nat.mul_assoc v]
  · rw [play_over hs hA e n hn]
    have := playQuiz_result hs hA e (q + v) 0
    rw [Nat.zero_add] at this
    exact this

theorem play_same {e e' : BlockCipher κ} {n : Nat} (h : play e' start A n = play e start A n) : ∀ t, t ≤ n →
    play e' start A t = play e start A t := by
  intro t
  induction t with
  | zero => intro _; rfl
  | succ t ih =>
    intro ht
    have ih := ih (by omega)
    have p := play_prefix (start := start) (A := A) e ht
    have p' := play_prefix (start := start) (A := A) e' ht
    rw [h] at p'
    have hlog : (play e' start A (t + 1)).log.length = (play e start A (t + 1)).log.length →
        (play e' start A (t + 1)).log = (play e start A (t + 1)).log := fun hlen =>
      (List.prefix_of_prefix_length_le p' p (Nat.le_of_eq hlen)).eq_of_length hlen
    cases hm : A (play e start A t).log with
    | none =>
      have hm' : A (play e' start A t).log = none := by rw [ih]; exact hm
      rw [play_stays e hm 1, play_stays e' hm' 1, ih]
    | some move =>
      have hm' : A (play e' start A t).log = some move := by rw [ih]; exact hm
      cases move with
      | write i call =>
        rw [play_write hm, play_write hm', ih] at hlog ⊢
        rw [Play.mk.injEq]
        exact ⟨rfl, hlog (by simp)⟩
      | offer a =>
        rw [play_offer hm, play_offer hm', ih] at hlog ⊢
        rw [Play.mk.injEq]
        exact ⟨rfl, hlog (by simp)⟩

theorem trouble_settled {ι ρ : Type} [DecidableEq ι] (hs : Fresh start) (hA : Limited A q v limit)
    (stations : ρ → Station κ σ ι) (e e' : BlockCipher κ) (h : ∀ t, t ≤ q + v → play e' start A t = play e start A t)
    (hP : PlayForges e start A 0 ∨ ∃ n, ¬ AllRight e start A stations n) :
    PlayForges e' start A 0 ∨ ∃ n, ¬ AllRight e' start A stations n := by
  rcases hP with hf | ⟨n, hn⟩
  · exact .inl (forges_settled hs hA 0 e e' h hf)
  · refine .inr ⟨n, fun hr => hn ?_⟩
    have hsame : play e' start A n = play e start A n := by
      by_cases hn : n ≤ q + v
      · exact h n hn
      · rw [play_over hs hA e n (by omega), play_over hs hA e' n (by omega)]
        exact h _ (Nat.le_refl _)
    intro r d s hds
    have := hr r d s (by rw [hsame]; exact hds)
    rwa [hsame, sentBy_indep s.cfg e e' s.calls s.context ((play_fleet hs hA e n).api s (List.mem_of_getElem? hds))] at this

/-! ## Chances -/

theorem chance_le {I : Type} [Finite I] {P Q : I → Prop} (h : ∀ i, P i → Q i) : chance P ≤ chance Q := by
  unfold chance
  apply div_le_div_of_nonneg_right _ (by positivity)
  have := Nat.card_le_card_of_injective (fun x : {i // P i} => (⟨x.1, h _ x.2⟩ : {i // Q i})) (fun a b h => by
    simp only [Subtype.mk.injEq] at h
    exact Subtype.ext h)
  exact_mod_cast this

theorem chance_function (P : BlockCipher κ → Prop) : chance (fun e => P (anyFunction κ e)) = howMany P / howManyCiphers κ := rfl

theorem chance_permutation (P : BlockCipher κ → Prop) :
    chance (fun e => P (anyPermutation κ e)) = howMany (fun e => Permutes e ∧ P e) / howMany (Permutes (κ := κ)) := by
  unfold chance howMany
  congr 2
  exact Nat.card_congr (Equiv.subtypeSubtypeEquivSubtypeInter _ _)

theorem chance_function_le [Finite κ] {P : BlockCipher κ → Prop} {num den : Nat} (hd : 0 < den) (h : ChanceAtMost P num den) :
    chance (fun e => P (anyFunction κ e)) ≤ (num : ℚ) / den := by
  rw [chance_function, div_le_div_iff₀ (by exact_mod_cast ciphers_pos) (by exact_mod_cast hd)]
  exact_mod_cast h

theorem permutations_pos [Finite κ] : 0 < howMany (Permutes (κ := κ)) := by
  unfold howMany
  exact (Set.ncard_pos (Set.toFinite _)).2 ⟨unimplementedCipher, fun _ => Function.bijective_id⟩

theorem chance_permutation_le [Finite κ] {P : BlockCipher κ → Prop} {num den : Nat} (hd : 0 < den)
    (h : PermChanceAtMost P num den) : chance (fun e => P (anyPermutation κ e)) ≤ (num : ℚ) / den := by
  rw [chance_permutation, div_le_div_iff₀ (by exact_mod_cast permutations_pos) (by exact_mod_cast hd)]
  exact_mod_cast h

theorem apart_le {a b n num den : Nat} (hn : 0 < n) (hd : 0 < den) (h1 : a * den ≤ b * den + num * n)
    (h2 : b * den ≤ a * den + num * n) : |(a : ℚ) / n - b / n| ≤ (num : ℚ) / den := by
  have hn' : (0 : ℚ) < n := by exact_mod_cast hn
  have hd' : (0 : ℚ) < den := by exact_mod_cast hd
  have h1' : (a : ℚ) * den ≤ b * den + num * n := by exact_mod_cast h1
  have h2' : (b : ℚ) * den ≤ a * den + num * n := by exact_mod_cast h2
  rw [← sub_div, abs_le, neg_le, ← neg_div, neg_sub]
  constructor
  · rw [div_le_div_iff₀ hn' hd']; linarith
  · rw [div_le_div_iff₀ hn' hd']; linarith

theorem through_quiz {I J : Type} (quiz : Quiz κ Prop) (family : I → BlockCipher κ) (other : J → BlockCipher κ) (bound : ℚ)
    (h : chance (fun j => quiz.result (other j)) ≤ bound) :
    chance (fun i => quiz.result (family i)) ≤ advantage quiz family other + bound := by
  unfold advantage
  have := le_abs_self (chance (fun i => quiz.result (family i)) - chance (fun j => quiz.result (other j)))
  linarith

theorem through_quizzes {I J : Type} (quiz quiz' : Quiz κ Prop) (family : I → BlockCipher κ) (other : J → BlockCipher κ) (bound : ℚ)
    (h : |chance (fun j => quiz.result (other j)) - chance (fun j => quiz'.result (other j))| ≤ bound) :
    |chance (fun i => quiz.result (family i)) - chance (fun i => quiz'.result (family i))| ≤
      advantage quiz family other + advantage quiz' family other + bound := by
  unfold advantage
  generalize chance (fun i => quiz.result (family i)) = a at *
  generalize chance (fun i => quiz'.result (family i)) = b at *
  generalize chance (fun j => quiz.result (other j)) = c at *
  generalize chance (fun j => quiz'.result (other j)) = d at *
  have h1 := abs_sub_le a c b
  have h2 := abs_sub_le c d b
  rw [abs_sub_comm d b] at h2
  linarith

/-- **C104** A network with a real block cipher and independent random keys: the chance that an attacker in control of the network
ever gets a frame accepted that nobody has sent, or has anything go wrong in what any receiver delivers as coming from
any device, is at most that of a single forgery against a random function, or permutation, plus how well one
computation, that asks for few block encryptions and does not depend on the block cipher, tells the block cipher from a
random function, or permutation. -/
theorem C104_real_network [Finite κ] {ι ρ : Type} [DecidableEq ι] (start : List (Sender κ)) (hs : Fresh start)
    (stations : ρ → Station κ σ ι) (A : Attacker κ σ) (q v limit : Nat) (hA : Limited A q v limit)
    (hm : MadeToAll A start stations) (hl : limit < 65280) :
    ∃ quiz : Quiz κ Prop, quiz.AtMost (blockCalls q v limit) ∧
      (∀ e, quiz.result e ↔ PlayForges e start A 0 ∨ ∃ n, ¬ AllRight e start A stations n) ∧
      ∀ (K : Type) [Finite K] (cipher : BlockCipher K),
        chance (fun keys => RealTrouble cipher keys start A stations) ≤
          advantage quiz (randomKeys κ cipher) (anyFunction κ) + forgeryBound q v limit ∧
        (blockCalls q v limit ^ 2 < 2 ^ 129 →
          chance (fun keys => RealTrouble cipher keys start A stations) ≤
            advantage quiz (randomKeys κ cipher) (anyPermutation κ) +
              forgeryBoundPermutation q v limit (blockCalls q v limit)) := by
  obtain ⟨prog, hcost, hprog⟩ := C104_attack_as_computation hs hA hl
  have hres : ∀ e, (prog.map fun pl => ∃ e', play e' start A (q + v) = pl ∧
      (PlayForges e' start A 0 ∨ ∃ n, ¬ AllRight e' start A stations n)).result e ↔
      PlayForges e start A 0 ∨ ∃ n, ¬ AllRight e start A stations n := by
    intro e
    rw [Quiz.result_map, hprog e (q + v) (Nat.le_refl _)]
    constructor
    · rintro ⟨e', h1, h2⟩
      exact trouble_settled hs hA stations e' e (fun t ht => play_same h1.symm t ht) h2
    · intro h
      exact ⟨e, rfl, h⟩
  refine ⟨_, hcost.map _, hres, fun K _ cipher => ?_⟩
  generalize (prog.map fun pl => ∃ e', play e' start A (q + v) = pl ∧
      (PlayForges e' start A 0 ∨ ∃ n, ¬ AllRight e' start A stations n)) = quiz at hres
  have hreal : chance (fun keys => RealTrouble cipher keys start A stations) ≤
      chance (fun keys => quiz.result (randomKeys κ cipher keys)) :=
    chance_le fun keys h => (hres _).2 (trouble_with h)
  have hfun : (fun e => quiz.result e) = fun e => PlayForges e start A 0 ∨ ∃ n, ¬ AllRight e start A stations n :=
    funext fun e => propext (hres e)
  refine ⟨hreal.trans (through_quiz quiz _ _ _ ?_), fun hb => hreal.trans (through_quiz quiz _ _ _ ?_)⟩
  · have h := C95_whole_network start hs stations A q v limit hA hm hl
    rw [← hfun] at h
    have := chance_function_le (by decide) h
    refine this.trans (le_of_eq ?_)
    unfold forgeryBound
    push_cast
    rfl
  · have h := C95_whole_network_permutation start hs stations A q v limit hA hm hl
    rw [← hfun] at h
    unfold blockCalls at hb
    have := chance_permutation_le (by omega) h
    refine this.trans (le_of_eq ?_)
    unfold forgeryBoundPermutation blockCalls
    rw [Nat.cast_sub (Nat.le_of_lt hb)]
    push_cast
    rfl

/-- **C104** In a network with a real block cipher and independent random keys, whatever a tester concludes, he
concludes with almost the same chance whichever of the two payloads of each of his choices the devices were given: the
difference is at most that for a random function, or permutation, plus how well two computations, that ask for
few block encryptions and do not depend on the block cipher, tell the block cipher from those. -/
theorem C104_real_secrecy [Finite κ] (start : List (Sender κ)) (hs : Fresh start) (B : Tester κ σ)
    (q v limit : Nat) (hB : Fair B q v limit 0) (hl : limit < 65280) (n : Nat) (D : List (Glimpse κ σ) → Prop) :
    ∃ quiz : Bool → Quiz κ Prop, (∀ right, (quiz right).AtMost (blockCalls q v limit)) ∧
      (∀ right e, (quiz right).result e ↔ D (glimpses e start right B n)) ∧
      ∀ (K : Type) [Finite K] (cipher : BlockCipher K),
        |chance (fun keys => D (realGlimpses cipher keys start false B n)) -
            chance (fun keys => D (realGlimpses cipher keys start true B n))| ≤
          advantage (quiz false) (randomKeys κ cipher) (anyFunction κ) +
            advantage (quiz true) (randomKeys κ cipher) (anyFunction κ) + secrecyBound q v limit ∧
        (blockCalls q v limit ^ 2 < 2 ^ 129 →
          |chance (fun keys => D (realGlimpses cipher keys start false B n)) -
              chance (fun keys => D (realGlimpses cipher keys start true B n))| ≤
            advantage (quiz false) (randomKeys κ cipher) (anyPermutation κ) +
              advantage (quiz true) (randomKeys κ cipher) (anyPermutation κ) +
              secrecyBoundPermutation q v limit (blockCalls q v limit)) := by
  have hq : ∀ right, ∃ quiz : Quiz κ Prop, quiz.AtMost (blockCalls q v limit) ∧
      ∀ e, quiz.result e ↔ D (glimpses e start right B n) := by
    intro right
    have hA := plays_limited hB right
    refine ⟨(playQuiz (plays right B) n ⟨start, []⟩).map fun pl => D (pl.log.map glimpse),
      ((playQuiz_cost hA hl n _).mono ?_).map _, fun e => ?_⟩
    · unfold blockCalls sentCount answerCount
      simp only [List.countP_nil, Nat.sub_zero]
      rw [Nat.mul_comm q, Nat.mul_comm 2 v, Nat.mul_assoc v]
    · have := playQuiz_result hs hA e n 0
      rw [Nat.zero_add] at this
      rw [Quiz.result_map, show (⟨start, []⟩ : Play κ σ) = play e start (plays right B) 0 from rfl, this]
      rfl
  choose quiz hcost hres using hq
  refine ⟨quiz, hcost, hres, fun K _ cipher => ?_⟩
  have hreal : ∀ right, (fun keys => D (realGlimpses cipher keys start right B n)) =
      fun keys => (quiz right).result (randomKeys κ cipher keys) := by
    intro right
    funext keys
    unfold realGlimpses
    rw [C104_real_play]
    exact (propext (hres right _)).symm
  have hfun : ∀ right, (fun e => D (glimpses e start right B n)) = fun e => (quiz right).result e :=
    fun right => funext fun e => (propext (hres right e)).symm
  rw [hreal false, hreal true]
  refine ⟨through_quizzes _ _ _ _ _ ?_, fun hb => through_quizzes _ _ _ _ _ ?_⟩
  · have h := C93_adaptive_secrecy start hs B q v limit hB hl n D
    rw [hfun false, hfun true] at h
    rw [chance_function (fun e => (quiz false).result e), chance_function (fun e => (quiz true).result e)]
    refine (apart_le ciphers_pos (by decide) h.1 h.2).trans (le_of_eq ?_)
    unfold secrecyBound
    push_cast
    rfl
  · have h := C94_permutation_secrecy start hs B q v limit hB hl n D
    rw [hfun false, hfun true] at h
    unfold blockCalls at hb
    rw [chance_permutation (fun e => (quiz false).result e), chance_permutation (fun e => (quiz true).result e)]
    refine (apart_le permutations_pos (by omega) h.1 h.2).trans (le_of_eq ?_)
    unfold secrecyBoundPermutation blockCalls
    rw [Nat.cast_sub (Nat.le_of_lt hb)]
    push_cast
    rfl

end

end Verif
