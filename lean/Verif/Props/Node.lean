import Verif.Props.Application
import Verif.Spec.NodeSpec

/-!
# C74: sending and receiving with one context do not interfere
-/

namespace Verif
open Spec

section Node

variable {κ σ : Type} (cfg : Cfg) (aead : Aead κ) (lookup : DevLookup σ)

/-- Unsecuring uses only the key lookup of a context. -/
theorem unsecureFrame_ctx (header : Header) (buffer : List UInt8) (sc sc' : SecCtx κ) (mode : FooterMode) (dev : σ)
    (hk : sc.keyProvider = sc'.keyProvider) :
    let r := unsecureFrame cfg aead header buffer sc mode lookup dev
    let r' := unsecureFrame cfg aead header buffer sc' mode lookup dev
    r.1 = r'.1 ∧ r.2.1 = r'.2.1 ∧ r.2.2.2 = r'.2.2.2 := by
  cases mode with
  | explicit => exact ⟨rfl, rfl, rfl⟩
  | none =>
    unfold unsecureFrame
    simp only [hk]
    split
    · split
      · exact ⟨rfl, rfl, rfl⟩
      split
      · exact ⟨rfl, rfl, rfl⟩
      split
      · exact ⟨rfl, rfl, rfl⟩
      split
      · exact ⟨rfl, rfl, rfl⟩
      split
      · exact ⟨rfl, rfl, rfl⟩
      split
      · exact ⟨rfl, rfl, rfl⟩
      split
      · exact ⟨rfl, rfl, rfl⟩
      rename_i dv d st _
      split
      · exact ⟨rfl, rfl, rfl⟩
      have hfin : ∀ r : Out SecErr (Nat × UInt32) × List UInt8,
          let x : Out SecErr Nat × List UInt8 × SecCtx κ × σ := match r with
            | (.ok (taglen, fc'), buffer) => (.ok taglen, buffer, sc, st { d with frameCounter := fc' })
            | (.err e, buffer) => (.err e, buffer, sc, dv)
            | (.panic, buffer) => (.panic, buffer, sc, dv)
          let x' : Out SecErr Nat × List UInt8 × SecCtx κ × σ := match r with
            | (.ok (taglen, fc'), buffer) => (.ok taglen, buffer, sc', st { d with frameCounter := fc' })
            | (.err e, buffer) => (.err e, buffer, sc', dv)
            | (.panic, buffer) => (.panic, buffer, sc', dv)
          x.1 = x'.1 ∧ x.2.1 = x'.2.1 ∧ x.2.2.2 = x'.2.2.2 := by
        rintro ⟨⟨_, c⟩ | e | _, b⟩ <;> exact ⟨rfl, rfl, rfl⟩
      split
      all_goals first | exact ⟨rfl, rfl, rfl⟩ | exact hfin _
    · exact ⟨rfl, rfl, rfl⟩

/-- **C74** What a reception shows, and the device state after it, depend on the key lookup of the
context only, not on its address or counter. -/
theorem C74_reception_uses_keys_only (buf : List UInt8) (mode : FooterMode) (sc sc' : SecCtx κ) (dev : σ)
    (hk : sc.keyProvider = sc'.keyProvider) :
    let r := Frame.tryReadAndUnsecure cfg aead buf ⟨mode, some sc⟩ lookup dev
    let r' := Frame.tryReadAndUnsecure cfg aead buf ⟨mode, some sc'⟩ lookup dev
    r.1 = r'.1 ∧ r.2.1 = r'.2.1 ∧ r.2.2.2 = r'.2.2.2 := by
  unfold Frame.tryReadAndUnsecure
  simp only
  split
  · exact ⟨rfl, rfl, rfl⟩
  · exact ⟨rfl, rfl, rfl⟩
  rename_i header content offset _
  split
  · have hu := unsecureFrame_ctx cfg aead lookup header (buf.drop offset) sc sc' mode dev hk
    rcases hr : unsecureFrame cfg aead header (buf.drop offset) sc mode lookup dev with ⟨r, sub, sc₁, dv⟩
    rcases hr' : unsecureFrame cfg aead header (buf.drop offset) sc' mode lookup dev with
      ⟨r', sub', sc₁', dv'⟩
    rw [hr, hr'] at hu
    obtain ⟨h1, h2, h3⟩ := hu
    simp only at h1 h2 h3
    subst h1 h2 h3
    rcases r with size | e | _
    · exact ⟨rfl, rfl, rfl⟩
    · cases e <;> exact ⟨rfl, rfl, rfl⟩
    · exact ⟨rfl, rfl, rfl⟩
  · exact ⟨rfl, rfl, rfl⟩

theorem nodeStep_send (sc : SecCtx κ) (dev : σ) (call : WriteCall) :
    (nodeStep cfg aead lookup sc dev (.send call)).2 = (contextAfterCall cfg aead sc call, dev) := by
  simp only [nodeStep, contextAfterCall]
  congr 1
  rcases (call.frame.tryWrite cfg aead ⟨call.mode, some sc⟩ call.buf).2.2.securityCtx with _ | x <;> rfl

theorem nodeStep_receive (ht : AeadTyped aead) (sc : SecCtx κ) (dev : σ) (mode : FooterMode) (buf : List UInt8) :
    (nodeStep cfg aead lookup sc dev (.receive mode buf)).2.1 = sc := by
  simp only [nodeStep]
  rw [C37_context_unchanged cfg aead ht buf ⟨mode, some sc⟩ lookup dev]
  rfl

/-- **C74** Sending and receiving with one context do not interfere: in any interleaving, the writes show
what they would show alone, and so do the receptions; the context ends as after the writes alone, and the
device state as after the receptions alone. -/
theorem C74_no_interference (ht : AeadTyped aead) (events : List NodeEvent) (sc : SecCtx κ) (dev : σ) :
    let run := nodeRun cfg aead lookup sc dev events
    let sends := nodeRun cfg aead lookup sc dev (events.filter (·.isSend))
    let receptions := nodeRun cfg aead lookup sc dev (events.filter (!·.isSend))
    run.1.filter (·.isSent) = sends.1 ∧ run.1.filter (!·.isSent) = receptions.1 ∧
    run.2.1 = sends.2.1 ∧ run.2.2 = receptions.2.2 ∧ sends.2.2 = dev ∧ receptions.2.1 = sc := by
  suffices h : ∀ (events : List NodeEvent) (sc sc' : SecCtx κ) (dev dev' : σ), sc'.keyProvider = sc.keyProvider →
      let run := nodeRun cfg aead lookup sc dev events
      let sends := nodeRun cfg aead lookup sc dev' (events.filter (·.isSend))
      let receptions := nodeRun cfg aead lookup sc' dev (events.filter (!·.isSend))
      run.1.filter (·.isSent) = sends.1 ∧ run.1.filter (!·.isSent) = receptions.1 ∧
      run.2.1 = sends.2.1 ∧ run.2.2 = receptions.2.2 ∧ sends.2.2 = dev' ∧ receptions.2.1 = sc' from
    h events sc sc dev dev rfl
  intro events
  induction events with
  | nil => intro sc sc' dev dev' hk; exact ⟨rfl, rfl, rfl, rfl, rfl, rfl⟩
  | cons e es ih =>
    intro sc sc' dev dev' hk
    cases e with
    | send call =>
      obtain ⟨h1, h2, h3, h4, h5, h6⟩ := ih (contextAfterCall cfg aead sc call) sc' dev dev'
        (hk.trans ((C31_counter_monotone cfg aead ht [call] sc).2.2.2 :
          (contextAfterCall cfg aead sc call).keyProvider = _).symm)
      have hs := nodeStep_send cfg aead lookup sc dev call
      have hs' := nodeStep_send cfg aead lookup sc dev' call
      have hseen : (nodeStep cfg aead lookup sc dev (.send call)).1 =
        (nodeStep cfg aead lookup sc dev' (.send call)).1 := rfl
      have hk1 : (nodeStep cfg aead lookup sc dev' (.send call)).1.isSent = true := rfl
      simp only [List.filter_cons, NodeEvent.isSend, if_true, Bool.not_true, Bool.false_eq_true, if_false, nodeRun,
        hs, hs', hseen, hk1]
      exact ⟨by rw [h1]; rfl, h2, h3, h4, h5, h6⟩
    | receive mode buf =>
      have hc := nodeStep_receive cfg aead lookup ht sc dev mode buf
      have hc' := nodeStep_receive cfg aead lookup ht sc' dev mode buf
      obtain ⟨e1, e2, e3⟩ := C74_reception_uses_keys_only cfg aead lookup buf mode sc sc' dev hk.symm
      have hseen : (nodeStep cfg aead lookup sc dev (.receive mode buf)).1 =
          (nodeStep cfg aead lookup sc' dev (.receive mode buf)).1 := by
        simp only [nodeStep]; rw [e1, e2]
      have hdev : (nodeStep cfg aead lookup sc dev (.receive mode buf)).2.2 =
          (nodeStep cfg aead lookup sc' dev (.receive mode buf)).2.2 := e3
      obtain ⟨h1, h2, h3, h4, h5, h6⟩ := ih sc sc' (nodeStep cfg aead lookup sc' dev (.receive mode buf)).2.2 dev' hk
      have hk1 : (nodeStep cfg aead lookup sc' dev (.receive mode buf)).1.isSent = false := rfl
      simp only [List.filter_cons, NodeEvent.isSend, if_true, Bool.not_false, Bool.false_eq_true, if_false, nodeRun,
        hc, hc', hseen, hdev, hk1]
      exact ⟨h1, by rw [h2]; rfl, h3, h4, h5, h6⟩

/-- Witness for C74: the sample sender writes, receives, writes; the reception is accepted. -/
example : (nodeRun sampleCfg sampleAead (listLookup id) sampleSender twoDevices
      [.send ⟨sampleSecured, .none, List.replicate 40 0⟩, .receive .none sampleReceived,
       .send ⟨sampleSecured, .none, List.replicate 40 0⟩]).2.1.frameCounter = sampleSender.frameCounter + 2 ∧
    Accepts sampleCfg sampleAead (listLookup id) twoDevices ⟨sampleReceived, ⟨.none, some sampleSender⟩⟩
      (sampleAccepted 4) :=
  ⟨by decide +kernel, ⟨rfl, 27, by decide +kernel⟩⟩

end Node

end Verif
