import Verif.Props.History
import Verif.Spec.RestartSpec

/-!
# C66: what a receiver must keep; C67: replay protection is per address
-/

namespace Verif
open Spec

section

variable {κ σ σ' ι ι' : Type} (cfg : Cfg) (aead : Aead κ)

/-- **C66** Of all a receiver remembers, only the counter it has stored for the source matters: if a
slice is accepted in some device state, it is accepted in another — of the same or another lookup, say
restored after a restart — if and only if the source is known there with a counter not above the
frame's and not the greatest; and then result and buffer are the same. -/
theorem C66_counter_is_all (ht : AeadTyped aead) (lookup : DevLookup σ) (lookup' : DevLookup σ')
    (table' : DeviceTable ι' lookup') (dev : σ) (dev' : σ') (call : ReadCall κ) (f : Frame)
    (h : Accepts cfg aead lookup dev call f) :
    ∃ src aux, f.header.source = some src ∧ f.header.auxSec = some aux ∧
      (Accepts cfg aead lookup' dev' call f ↔ ∃ d', table'.get dev' (table'.identify src) = some d' ∧
        d'.frameCounter ≤ aux.frameCounter ∧ d'.frameCounter ≠ maxCounter) ∧
      ∀ f', Accepts cfg aead lookup' dev' call f' → f' = f ∧
        (Frame.tryReadAndUnsecure cfg aead call.buf call.ctx lookup' dev').1 =
          (Frame.tryReadAndUnsecure cfg aead call.buf call.ctx lookup dev).1 ∧
        (Frame.tryReadAndUnsecure cfg aead call.buf call.ctx lookup' dev').2.1 =
          (Frame.tryReadAndUnsecure cfg aead call.buf call.ctx lookup dev).2.1 := by
  obtain ⟨hs, k, hr⟩ := h
  rcases call with ⟨buf, ctx⟩
  simp only at hr
  obtain ⟨sc, rfl⟩ := accept_ctx hr hs
  have hfull : ∃ b c d, Frame.tryReadAndUnsecure cfg aead buf ⟨.none, some sc⟩ lookup dev = (.ok (f, k), b, c, d) :=
    ⟨_, _, _, by rw [← hr]⟩
  obtain ⟨b, c, d, hfull⟩ := hfull
  obtain ⟨x, body, tag, payload, hx, hv, ho, hf, hk, hb, -, -⟩ :=
    (C38_accept_iff cfg aead ht buf b sc lookup dev d f k c).1 ⟨hfull, hs⟩
  have hsource : f.header.source = some x.source := by rw [hf]; exact hx.source
  have haux : f.header.auxSec = some x.aux := by rw [hf]; exact hx.aux
  have key : ∀ f' k' b' c' d', Frame.tryReadAndUnsecure cfg aead buf ⟨.none, some sc⟩ lookup' dev' =
      (.ok (f', k'), b', c', d') → Secured f'.header →
      f' = f ∧ k' = k ∧ b' = b ∧ ∃ d', table'.get dev' (table'.identify x.source) = some d' ∧
        d'.frameCounter ≤ x.aux.frameCounter ∧ d'.frameCounter ≠ maxCounter := by
    intro f' k' b' c' d' hr' hs'
    obtain ⟨y, body', tag', payload', hy, hw, -, hf', hk', hb', -, -⟩ :=
      (C38_accept_iff cfg aead ht buf b' sc lookup' dev' d' f' k' c').1 ⟨hr', hs'⟩
    have e1 := hx.read.symm.trans hy.read
    simp only [Out.ok.injEq, Prod.mk.injEq] at e1
    obtain ⟨e1, e2⟩ := e1
    have e3 : x.aux = y.aux := by
      have := hx.aux.symm.trans (e1 ▸ hy.aux); simpa using this
    have e4 : x.source = y.source := by
      have := hx.source.symm.trans (e1 ▸ hy.source); simpa using this
    have e5 : some (x.eui, x.key) = some (y.eui, y.key) := by rw [← hx.key, ← hy.key, e1, e3]
    simp only [Option.some.injEq, Prod.mk.injEq] at e5
    have e6 : x.level = y.level := by simp only [Incoming.level, e3]
    have e7 : body = body' ∧ tag = tag' := by
      have h1 := hv.split
      rw [e2, hw.split] at h1
      have h2 := hv.tagLength.trans (e6 ▸ hw.tagLength.symm)
      have := List.append_inj' h1.symm h2
      exact this
    have e8 : payload = payload' := by
      have h1 := hv.verifies
      have h2 := hw.verifies
      simp only [Incoming.nonce] at h1 h2
      rw [← e6, ← e3, ← e5.1, ← e5.2, ← e7.1, ← e7.2, h1] at h2
      simpa using h2
    refine ⟨by rw [hf, hf', e1, e8], by rw [hk, hk', e2, e8], by rw [hb, hb', e2, e8, e7.2], y.device, ?_, ?_, hy.notExhausted⟩
    · have := table'.found dev' y.source
      rw [hy.device] at this
      rw [e4, ← this]; rfl
    · rw [e3]; exact hy.fresh
  refine ⟨x.source, x.aux, hsource, haux, ⟨?_, ?_⟩, ?_⟩
  · rintro ⟨hs', k', hr'⟩
    obtain ⟨-, -, -, h⟩ := key f k' _ _ _ (by rw [← hr']) hs'
    exact h
  · rintro ⟨d', hd', hle, hne⟩
    have hfound := table'.found dev' x.source
    rw [hd'] at hfound
    cases hl : (lookup' dev' .src x.source).2 with
    | none => rw [hl] at hfound; cases hfound
    | some r =>
      rw [hl] at hfound
      rcases r with ⟨e, store⟩
      simp only [Option.map_some, Option.some.injEq] at hfound
      subst hfound
      let y : Incoming κ σ' := ⟨x.header, x.headLength, x.aux, x.eui, x.key, x.source,
        (lookup' dev' .src x.source).1, e, store⟩
      have hy : PassesChecks cfg sc lookup' dev' buf y :=
        ⟨hx.read, hx.data, hx.version, hx.aux, hx.level, hx.key, hx.source, by rw [← hl], hne, hle⟩
      have hw : Verifies aead buf y body tag payload := ⟨hv.split, hv.tagLength, hv.verifies⟩
      refine ⟨hs, k, ?_⟩
      have := (C38_accept_iff cfg aead ht buf b sc lookup' dev' (y.store y.advanced) f k ⟨.none, some sc⟩).2
        ⟨y, body, tag, payload, hy, hw, ho, hf, hk, hb, rfl, rfl⟩
      simp only [this.1]
  · rintro f' ⟨hs', k', hr'⟩
    simp only at hr'
    obtain ⟨h1, h2, h3, -⟩ := key f' k' _ _ _ (by rw [← hr']) hs'
    refine ⟨h1, ?_, ?_⟩
    · simp only [hfull, hr', h1, h2]
    · simp only [h3, hfull]

/-- **C66** So a receiver whose table is set back replays: after any history in which a slice was
accepted, it is accepted again as soon as its source is known with a counter not above the frame's. -/
theorem C66_set_back_replays (ht : AeadTyped aead) (lookup : DevLookup σ) (table : DeviceTable ι lookup)
    (dev restored : σ) (call : ReadCall κ) (f : Frame) (h : Accepts cfg aead lookup dev call f)
    (i : ι) (c : UInt32) (hf : ComesFrom table i c f) (d : DeviceDescriptor) (hd : table.get restored i = some d)
    (hle : d.frameCounter ≤ c) (hne : d.frameCounter ≠ maxCounter) :
    Accepts cfg aead lookup restored call f := by
  obtain ⟨src, aux, h1, h2, h3, -⟩ := C66_counter_is_all cfg aead ht lookup lookup table dev restored call f h
  obtain ⟨src', aux', g1, g2, g3, g4⟩ := hf
  rw [h1] at g1; rw [h2] at g3
  simp only [Option.some.injEq] at g1 g3
  subst g1 g3
  exact h3.2 ⟨d, by rw [g2]; exact hd, by rw [g4]; exact hle, hne⟩

/-- **C67** Replay protection goes by source address, not by sender: a frame accepted once is
accepted again, with the same payload, when its header is rewritten to another source address for
which the key lookup gives the same EUI-64 and key (say the sender's short instead of its extended
address) and whose stored counter is not above the frame's — in whatever device state. -/
theorem C67_other_address_replays (ht : AeadTyped aead) (lookup : DevLookup σ) (table : DeviceTable ι lookup)
    (dev later : σ) (buf₁ buf₂ : List UInt8) (sc : SecCtx κ) (f : Frame) (eui : UInt64) (key : κ) (aux : AuxHeader)
    (h : Accepts cfg aead lookup dev ⟨buf₁, ⟨.none, some sc⟩⟩ f) (haux : f.header.auxSec = some aux)
    (hkey : sc.keyProvider .src aux.keyIdentifier f.header.source = some (eui, key))
    (n₁ n₂ : Nat) (h₂ : Header) (aux₂ : AuxHeader) (src₂ : Address)
    (hr₁ : Header.tryRead cfg buf₁ = .ok (f.header, n₁)) (hr₂ : Header.tryRead cfg buf₂ = .ok (h₂, n₂))
    (hdata : h₂.frameType = .data) (hver : h₂.version ≠ .ieee802154_2003)
    (haux₂ : h₂.auxSec = some aux₂) (hlevel : aux₂.control.securityLevel = aux.control.securityLevel)
    (hcounter : aux₂.frameCounter = aux.frameCounter) (hsrc₂ : h₂.source = some src₂)
    (hkey₂ : sc.keyProvider .src aux₂.keyIdentifier (some src₂) = some (eui, key))
    (hrest : buf₂.drop n₂ = buf₁.drop n₁) (d : DeviceDescriptor)
    (hd : table.get later (table.identify src₂) = some d) (hle : d.frameCounter ≤ aux.frameCounter)
    (hne : d.frameCounter ≠ maxCounter) :
    Accepts cfg aead lookup later ⟨buf₂, ⟨.none, some sc⟩⟩ { f with header := h₂ } := by
  obtain ⟨hs, k, hr⟩ := h
  simp only at hr
  obtain ⟨b, c, dv, hfull⟩ : ∃ b c d, Frame.tryReadAndUnsecure cfg aead buf₁ ⟨.none, some sc⟩ lookup dev =
      (.ok (f, k), b, c, d) := ⟨_, _, _, by rw [← hr]⟩
  obtain ⟨x, body, tag, payload, hx, hv, ho, hf, -, -, -, -⟩ :=
    (C38_accept_iff cfg aead ht buf₁ b sc lookup dev dv f k c).1 ⟨hfull, hs⟩
  have e1 := hx.read.symm.trans hr₁
  simp only [Out.ok.injEq, Prod.mk.injEq] at e1
  obtain ⟨e1, rfl⟩ := e1
  have e3 : x.aux = aux := by
    have := hx.aux; rw [e1, haux] at this; simpa using this.symm
  subst e3
  have e5 : some (x.eui, x.key) = some (eui, key) := by rw [← hx.key, ← hkey, e1]
  simp only [Option.some.injEq, Prod.mk.injEq] at e5
  obtain ⟨rfl, rfl⟩ := e5
  have hfound := table.found later src₂
  rw [hd] at hfound
  cases hl : (lookup later .src src₂).2 with
  | none => rw [hl] at hfound; cases hfound
  | some r =>
    rw [hl] at hfound
    rcases r with ⟨e, store⟩
    simp only [Option.map_some, Option.some.injEq] at hfound
    subst hfound
    let y : Incoming κ σ := ⟨h₂, n₂, aux₂, x.eui, x.key, src₂, (lookup later .src src₂).1, e, store⟩
    have hlev : y.level = x.level := hlevel
    have hy : PassesChecks cfg sc lookup later buf₂ y :=
      ⟨hr₂, hdata, hver, haux₂, hlev ▸ hx.level, by rw [← hkey₂, ← hsrc₂], hsrc₂, by rw [← hl], hne,
        by show e.frameCounter ≤ aux₂.frameCounter; rw [hcounter]; exact hle⟩
    have hw : Verifies aead buf₂ y body tag payload := by
      refine ⟨hrest.trans hv.split, hlev ▸ hv.tagLength, ?_⟩
      have := hv.verifies
      have hn : y.nonce = x.nonce := by simp only [Incoming.nonce, hlev]; rw [← hcounter]
      rw [hn, hlev]; exact this
    refine ⟨by rw [Secured]; simp [haux₂], n₂ + payload.length, ?_⟩
    have := (C38_accept_iff cfg aead ht buf₂ _ sc lookup later (y.store y.advanced) { f with header := h₂ }
      (n₂ + payload.length) ⟨.none, some sc⟩).2
        ⟨y, body, tag, payload, hy, hw, fun h => by rw [hcounter]; exact ho h, by rw [hf], rfl, rfl, rfl, rfl⟩
    simp only [this.1]

/-- **C67** If the key lookups tell devices apart by EUI-64, each pair of EUI-64 and counter — hence
each nonce — is accepted at most once in any history (same condition on the greatest counter as in
C35). -/
theorem C67_nonce_accepted_once (ht : AeadTyped aead) (lookup : DevLookup σ) (table : DeviceTable ι lookup)
    (dev : σ) (before between : List (ReadCall κ)) (first second : ReadCall κ) (f₁ f₂ : Frame)
    (contexts : List (SecCtx κ)) (htells : EuiTellsDevices table.identify contexts)
    (hmem₁ : ∀ sc, first.ctx.securityCtx = some sc → sc ∈ contexts)
    (hmem₂ : ∀ sc, second.ctx.securityCtx = some sc → sc ∈ contexts)
    (eui₁ eui₂ : UInt64) (c₁ c₂ : UInt32)
    (h₁ : AcceptsUnder cfg aead lookup (devicesAfter cfg aead lookup dev before) first f₁ eui₁ c₁)
    (h₂ : AcceptsUnder cfg aead lookup (devicesAfter cfg aead lookup dev (before ++ first :: between)) second f₂ eui₂ c₂)
    (hw : cfg.overflowChecks = true ∨ c₁ ≠ maxCounter ∧
      ∀ earlier call later f, between = earlier ++ call :: later →
        Accepts cfg aead lookup (devicesAfter cfg aead lookup dev (before ++ first :: earlier)) call f →
        ∀ i, ¬ ComesFrom table i maxCounter f) :
    ∀ l₁ l₂, nonceOctets eui₁ c₁ l₁ ≠ nonceOctets eui₂ c₂ l₂ := by
  intro l₁ l₂ heq
  obtain ⟨he, hc, -⟩ := nonceOctets_inj heq
  subst he hc
  obtain ⟨ha₁, sc₁, aux₁, key₁, hsc₁, haux₁, hc₁, hk₁⟩ := h₁
  obtain ⟨ha₂, sc₂, aux₂, key₂, hsc₂, haux₂, hc₂, hk₂⟩ := h₂
  have src : ∀ dev call f, Accepts cfg aead lookup dev call f → ∃ s, f.header.source = some s := by
    rintro dev ⟨buf, ctx⟩ f ⟨hs, k, hr⟩
    simp only at hr
    obtain ⟨sc, rfl⟩ := accept_ctx hr hs
    obtain ⟨s, a, d, h, -⟩ := C36_accept_stores cfg aead ht buf sc lookup table dev f k hr hs
    exact ⟨s, h⟩
  obtain ⟨s₁, hs₁⟩ := src _ _ _ ha₁
  obtain ⟨s₂, hs₂⟩ := src _ _ _ ha₂
  rw [hs₁] at hk₁
  rw [hs₂] at hk₂
  have hi := htells sc₁ (hmem₁ _ hsc₁) sc₂ (hmem₂ _ hsc₂) _ _ _ _ _ _ _ hk₁ hk₂
  have := C35_counters_increase cfg aead lookup table ht dev before between first second f₁ f₂
    (table.identify s₁) c₁ c₁ ha₁ ha₂ ⟨s₁, aux₁, hs₁, rfl, haux₁, hc₁⟩ ⟨s₂, aux₂, hs₂, hi.symm, haux₂, hc₂⟩
    (hw.imp_right fun h => ⟨h.1, fun e c l f hb hac => h.2 e c l f hb hac _⟩)
  exact absurd this (UInt32.lt_irrefl _)

end

end Verif
