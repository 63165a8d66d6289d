import Verif.Spec.ShutRealSpec
import Verif.Props.ShutOut
import Verif.Props.RealCipher

/-!
# C107 No device is shut out of a network with a real block cipher
-/

namespace Verif

open Spec Rfc3610

section
variable {κ K σ ι ρ : Type} [DecidableEq ι] {E : BlockCipher K} {keys : κ → K} {start : List (Sender κ)} {A : Attacker κ σ}

theorem allRight_with {stations : ρ → Station κ σ ι} {n : Nat} :
    RealAllRight E keys start A stations n ↔ AllRight (randomKeys κ E keys) start A stations n := by
  unfold RealAllRight AllRight
  simp only [C104_real_play, sentBy_with]

/-- What goes wrong where keys are names goes wrong where they are real. -/
theorem trouble_of {stations : ρ → Station κ σ ι} (h : ∃ n, ¬ RealAllRight E keys start A stations n) :
    RealTrouble E keys start A stations := by
  obtain ⟨n, h⟩ := h
  refine Classical.byContradiction fun hno => h ?_
  intro r d s hs
  refine Classical.byContradiction fun hsub => hno (.inr ⟨n, r, d, senderWith keys s, ?_, hsub⟩)
  rw [List.getElem?_map, hs]
  rfl

theorem overtaken_with {st : Station κ σ ι} {d p n : Nat} {s : Sender κ} :
    RealOvertaken E keys start A st d p n s ↔ Overtaken (randomKeys κ E keys) start A st d p n s := by
  unfold RealOvertaken Overtaken
  rw [C104_real_play, contextAfter_with, sentBy_with]

omit [DecidableEq ι] in
theorem handsOver_with {st : Station κ σ ι} {d p n : Nat} {s : Sender κ} {call : WriteCall} {a : Offer κ σ}
    (h : RealHandsOver E keys start A st d p n s call a) :
    HandsOver (randomKeys κ E keys) start A st d p n s call a := by
  obtain ⟨h1, h2, h3, h4, h5, h6⟩ := h
  rw [C104_real_play] at h1 h3
  rw [onAir_with] at h5
  exact ⟨h1, h2, h3, h4, h5, h6⟩

/-- **C107** In a network with real keys, while what has been delivered is part of what was sent: a packet handed over
as it was sent is delivered if nothing has overtaken it, and answered with `CounterError` if something has. -/
theorem C107_real_answer {stations : ρ → Station κ σ ι} (hm : MadeToAll A start stations)
    {n : Nat}
    (hr : RealAllRight E keys start A stations n) {r : ρ} {d p : Nat} {s : Sender κ} {call : WriteCall} {a : Offer κ σ}
    (hh : RealHandsOver E keys start A (stations r) d p n s call a) (hk : KnowsAtFirst (stations r) d s)
    (hle : s.cfg.native = .little) (hrle : (stations r).cfg.native = .little) :
    (¬ RealOvertaken E keys start A (stations r) d p n s → RealDelivers E keys s call a) ∧
    (RealOvertaken E keys start A (stations r) d p n s → (answer E (offerWith keys a)).1 = .err .counterError) := by
  have := C107_answer hm (allRight_with.1 hr) (handsOver_with hh) hk hle hrle
  unfold RealDelivers
  rw [overtaken_with, answer_with]
  exact this

theorem shutOut_trouble {stations : ρ → Station κ σ ι} (hm : MadeToAll A start stations)
    (h : RealShutOut E keys start A stations) : RealTrouble E keys start A stations := by
  obtain ⟨r, d, p, n, s, call, a, hh, hk, hle, hrle, hno⟩ := h
  exact trouble_of ⟨n, fun hr => hno (C107_real_answer hm hr hh hk hle hrle)⟩

theorem missing_trouble {stations : ρ → Station κ σ ι} (hs : Fresh start) (hm : MadeToAll A start stations)
    {r : ρ} {d : Nat} {sender : Sender κ} (hd : start[d]? = some sender) (hk : KnowsAtFirst (stations r) d sender)
    (hle : sender.cfg.native = .little) (hrle : (stations r).cfg.native = .little)
    (hhold : CannotHoldBack start A (stations r) d sender) (h : RealMissing E keys start A (stations r) d) :
    RealTrouble E keys start A stations := by
  obtain ⟨n, s, h1, h2, h3⟩ := h
  rw [C104_real_play] at h1 h2 h3
  rw [sentBy_with] at h3
  obtain ⟨m, hm'⟩ := missing_wrong hs hm hd hk hle hrle hhold ⟨n, s, h1, h2, h3⟩
  exact trouble_of ⟨m, fun h => hm' (allRight_with.1 h)⟩

/-- **C107** In a network with a real block cipher and independent random keys, the chance that an attacker in control
of the network ever keeps a packet out that he hands over is at most that of a single forgery against a random
function, or permutation, plus how well one computation, that asks for few block encryptions and does not depend on the block
cipher, tells the block cipher from those. -/
theorem C107_real_not_shut_out [Finite κ] (start : List (Sender κ)) (hs : Fresh start)
    (stations : ρ → Station κ σ ι) (A : Attacker κ σ) (q v limit : Nat) (hA : Limited A q v limit)
    (hm : MadeToAll A start stations) (hl : limit < 65280) :
    ∃ quiz : Quiz κ Prop, quiz.AtMost (blockCalls q v limit) ∧
      ∀ (K : Type) [Finite K] (cipher : BlockCipher K),
        chance (fun keys => RealShutOut cipher keys start A stations) ≤
          advantage quiz (randomKeys κ cipher) (anyFunction κ) + forgeryBound q v limit ∧
        (blockCalls q v limit ^ 2 < 2 ^ 129 →
          chance (fun keys => RealShutOut cipher keys start A stations) ≤
            advantage quiz (randomKeys κ cipher) (anyPermutation κ) +
              forgeryBoundPermutation q v limit (blockCalls q v limit)) := by
  obtain ⟨quiz, h1, -, h2⟩ := C104_real_network start hs stations A q v limit hA hm hl
  refine ⟨quiz, h1, fun K _ cipher => ?_⟩
  have hle : chance (fun keys => RealShutOut cipher keys start A stations) ≤
      chance (fun keys => RealTrouble cipher keys start A stations) := chance_le fun _ h => shutOut_trouble hm h
  exact ⟨hle.trans (h2 K cipher).1, fun hb => hle.trans ((h2 K cipher).2 hb)⟩

/-- **C107** In a network with a real block cipher and independent random keys, the chance that a receiver ever misses
anything of what a device sends, or delivers anything more as coming from it, when the attacker can add what he likes
but cannot hold back what the device sends to that receiver. -/
theorem C107_real_nothing_missing [Finite κ] (start : List (Sender κ)) (hs : Fresh start)
    (stations : ρ → Station κ σ ι) (A : Attacker κ σ) (q v limit : Nat) (hA : Limited A q v limit)
    (hm : MadeToAll A start stations) (hl : limit < 65280) (r : ρ) (d : Nat) (sender : Sender κ)
    (hd : start[d]? = some sender) (hk : KnowsAtFirst (stations r) d sender)
    (hle : sender.cfg.native = .little) (hrle : (stations r).cfg.native = .little)
    (hhold : CannotHoldBack start A (stations r) d sender) :
    ∃ quiz : Quiz κ Prop, quiz.AtMost (blockCalls q v limit) ∧
      ∀ (K : Type) [Finite K] (cipher : BlockCipher K),
        chance (fun keys => RealMissing cipher keys start A (stations r) d) ≤
          advantage quiz (randomKeys κ cipher) (anyFunction κ) + forgeryBound q v limit ∧
        (blockCalls q v limit ^ 2 < 2 ^ 129 →
          chance (fun keys => RealMissing cipher keys start A (stations r) d) ≤
            advantage quiz (randomKeys κ cipher) (anyPermutation κ) +
              forgeryBoundPermutation q v limit (blockCalls q v limit)) := by
  obtain ⟨quiz, h1, -, h2⟩ := C104_real_network start hs stations A q v limit hA hm hl
  refine ⟨quiz, h1, fun K _ cipher => ?_⟩
  have hle : chance (fun keys => RealMissing cipher keys start A (stations r) d) ≤
      chance (fun keys => RealTrouble cipher keys start A stations) :=
    chance_le fun _ h => missing_trouble hs hm hd hk hle hrle hhold h
  exact ⟨hle.trans (h2 K cipher).1, fun hb => hle.trans ((h2 K cipher).2 hb)⟩

end

end Verif
