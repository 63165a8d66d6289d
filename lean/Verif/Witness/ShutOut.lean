import Verif.Props.ShutOut
import Verif.Witness.Games

/-!
# Witnesses for C107
-/

namespace Verif.Witness

open Spec Rfc3610

theorem knows (r : Bool) (d : Nat) (sender : Sender (Fin 16)) (hd : samplePairStart[d]? = some sender) :
    KnowsAtFirst (sampleStation r) d sender := by
  match d, hd with
  | 0, hd => obtain rfl : _ = sender := Option.some.inj hd; exact ⟨⟨3, false⟩, by cases r <;> rfl, by decide⟩
  | 1, hd => obtain rfl : _ = sender := Option.some.inj hd; exact ⟨⟨3, false⟩, by cases r <;> rfl, by decide⟩
  | d + 2, hd => simp [samplePairStart] at hd

example := C107_not_shut_out samplePairStart pairStart_fresh sampleStation samplePairAttacker 2 4 127 samplePairAttacker_limited
  samplePairAttacker_madeTo (by decide)
example := C107_not_shut_out_permutation samplePairStart pairStart_fresh sampleStation samplePairAttacker 2 4 127 samplePairAttacker_limited
  samplePairAttacker_madeTo (by decide)

theorem write_receivable (r : Bool) (payload : List UInt8) :
    Receivable (sampleStation r).table ((sampleStation r).entry 0) sampleKeyed (sampleStationCtx r) (sampleWriteOf 0 payload) where
  mode := rfl
  content := rfl
  version := fun h => nomatch h
  frame := ⟨sampleAux, ⟨(fun h => nomatch h), trivial, rfl, rfl⟩, by decide, .extended 0x1234 0x0102030405060708, rfl, by cases r <;> rfl, 9, 5, rfl, rfl⟩

/-- The offer the sample attacker makes at step `n` with the toy cipher. -/
def offerAt (n : Nat) : Offer (Fin 16) (List (UInt64 × DeviceDescriptor)) :=
  match samplePairAttacker (play toyKeyed samplePairStart samplePairAttacker n).log with
  | some (.offer a) => a
  | _ => ⟨sampleCfg, ⟨.none, none⟩, listLookup euiOf, [], []⟩

/-- The first device after its write. -/
def device0 : Sender (Fin 16) := ⟨sampleCfg, sampleKeyed, [sampleWriteOf 0 [1]]⟩

/-- At steps 4 and 5 the first device's frame is handed to the second receiver as it was sent. -/
theorem hands_over (n : Nat) (hn : n = 4 ∨ n = 5) : HandsOver toyKeyed samplePairStart samplePairAttacker (sampleStation true) 0 0 n
    device0 (sampleWriteOf 0 [1]) (offerAt n) := by
  rcases hn with rfl | rfl
  · exact ⟨rfl, by decide +kernel, rfl, rfl, by decide +kernel, sampleStationCtx true, rfl, write_receivable true [1]⟩
  · exact ⟨rfl, by decide +kernel, rfl, rfl, by decide +kernel, sampleStationCtx true, rfl, write_receivable true [1]⟩

/-- The first time nothing has overtaken it and it is delivered; the second time it has itself been delivered and is
answered with `CounterError`. -/
example :
    ¬ Overtaken toyKeyed samplePairStart samplePairAttacker (sampleStation true) 0 0 4 device0 ∧
    Delivers toyKeyed device0 (sampleWriteOf 0 [1]) (offerAt 4) ∧
    Overtaken toyKeyed samplePairStart samplePairAttacker (sampleStation true) 0 0 5 device0 ∧
    (answer toyKeyed (offerAt 5)).1 = .err .counterError := by
  refine ⟨?_, ⟨0x01020304, 28, by decide +kernel⟩, ?_, by decide +kernel⟩
  · unfold Overtaken
    decide +kernel
  · unfold Overtaken
    decide +kernel


theorem right_at (n : Nat) (hn : n = 4 ∨ n = 5) : AllRight toyKeyed samplePairStart samplePairAttacker sampleStation n := by
  have two : (play toyKeyed samplePairStart samplePairAttacker n).net.length = 2 := by rcases hn with rfl | rfl <;> rfl
  intro r d s hd
  have hlt := (List.getElem?_eq_some_iff.1 hd).1
  rw [two] at hlt
  obtain rfl | rfl : d = 0 ∨ d = 1 := by omega
  all_goals
    rcases hn with rfl | rfl <;> obtain rfl := Option.some.inj hd <;> cases r <;> decide +kernel

example (n : Nat) (hn : n = 4 ∨ n = 5) :=
  C107_answer samplePairAttacker_madeTo (right_at n hn) (hands_over n hn) (knows true 0 ⟨sampleCfg, sampleKeyed, []⟩ rfl) rfl rfl

/-- An attacker who hands the first receiver each frame of the first device in the next step, and adds slices of his
own in between. -/
def pusher : Attacker (Fin 16) (List (UInt64 × DeviceDescriptor)) := fun log =>
  let give := fun (o : List UInt8) => Move.offer ⟨sampleCfg, ⟨.none, some (sampleStationCtx false)⟩,
    listLookup euiOf, lookupState (sampleStation false).mine (sampleStation false).dev log, o.take 127⟩
  match log with
  | [] => some (.write 0 (sampleWriteOf 0 [1]))
  | [.sent _ _ (some o)] => some (give o)
  | [.sent _ _ _, .answered _ _] => some (give [1, 2, 3])
  | [.sent _ _ _, .answered _ _, .answered _ _] => some (.write 0 (sampleWriteOf 0 [2]))
  | [.sent _ _ _, .answered _ _, .answered _ _, .sent _ _ (some o)] => some (give o)
  | _ => none

theorem pusher_limited : Limited pusher 2 4 127 := by
  constructor
  · intro log i call h
    unfold pusher at h
    split at h <;> simp only [Option.some.injEq, Move.write.injEq, reduceCtorEq] at h
    all_goals
      obtain ⟨_, rfl⟩ := h
      exact ⟨by simp [sentCount], trivial⟩
  · intro log a h
    unfold pusher at h
    split at h <;> simp only [Option.some.injEq, Move.offer.injEq, reduceCtorEq] at h
    all_goals
      subst h
      exact ⟨by simp [answerCount], by simp only [List.length_take]; omega⟩

theorem pusher_madeTo : MadeToAll pusher samplePairStart sampleStation := by
  intro r d sender hd log a h hmine
  have hsame : ∀ r', (sampleStation r).mine ⟨sampleCfg, ⟨.none, some (sampleStationCtx r')⟩, listLookup euiOf, a.device, a.slice⟩ = true →
      r' = r := by
    intro r'
    cases r <;> cases r' <;> simp [sampleStation, sampleStationCtx]
  have hnames : ∀ slice, NamesDevice (sampleStation r).table ((sampleStation r).entry d) sender.context.euid
      ⟨slice, ⟨.none, some (sampleStationCtx r)⟩⟩ := by
    intro slice rc id src eui' key h1 h2 h3
    obtain rfl := Option.some.inj h1
    have he : sender.context.euid = (sampleStation r).entry d := by
      match d, hd with
      | 0, hd => obtain rfl : _ = sender := Option.some.inj hd; rfl
      | 1, hd => obtain rfl : _ = sender := Option.some.inj hd; rfl
      | d + 2, hd => simp [samplePairStart] at hd
    rw [he, ← h2]
    cases src with
    | short p s => simp [sampleStationCtx] at h3
    | extended p s =>
      simp only [sampleStationCtx, Option.some.injEq, Prod.mk.injEq] at h3
      exact h3.1.symm
  unfold pusher at h
  split at h <;> simp only [Option.some.injEq, Move.offer.injEq, reduceCtorEq] at h
  all_goals
    subst h
    obtain rfl := hsame _ hmine
    exact ⟨rfl, rfl, rfl, hnames _⟩

/-- What goes on the air fits in the buffer it was written to. -/
theorem onAir_fits {κ : Type} {cfg : Cfg} {aead : Aead κ} (ht : AeadTyped aead) {sc : SecCtx κ} {calls : List WriteCall} {p : Nat}
    {o : List UInt8} (h : onAir cfg aead sc calls p = some o) :
    ∃ call, calls[p]? = some call ∧ o.length ≤ call.buf.length := by
  unfold onAir at h
  split at h
  · cases h
  · rename_i call hc
    refine ⟨call, hc, ?_⟩
    split at h
    · rename_i n buf' ctx' hw
      obtain rfl := Option.some.inj h
      have := (call.frame.contained cfg ht ⟨call.mode, some (contextAfter cfg aead sc (calls.take p))⟩).length call.buf
      have h : buf'.length = call.buf.length := by
        unfold frameWriter at this
        simpa only [hw] using this
      rw [List.length_take]
      omega
    · cases h

/-- The logs that come about. -/
inductive Shape : List (Sight (Fin 16) (List (UInt64 × DeviceDescriptor))) → Prop
  | zero : Shape []
  | one {o} : (∀ x, o = some x → x.length ≤ 60) → Shape [.sent 0 (sampleWriteOf 0 [1]) o]
  | two {w o a x} : Shape [.sent 0 w o, .answered a x]
  | three {w o a x b y} : Shape [.sent 0 w o, .answered a x, .answered b y]
  | four {w o a x b y o'} : (∀ x, o' = some x → x.length ≤ 60) →
      Shape [.sent 0 w o, .answered a x, .answered b y, .sent 0 (sampleWriteOf 0 [2]) o']
  | five {w o a x b y w' o' c z} : Shape [.sent 0 w o, .answered a x, .answered b y, .sent 0 w' o', .answered c z]

theorem seen_fits (e : BlockCipher (Fin 16)) (net : List (Sender (Fin 16))) (i : Nat) (call : WriteCall) :
    ∀ x, observed e (wrote net i call) i (writesOf net i) = some x → x.length ≤ call.buf.length := by
  intro x hx
  unfold observed wrote writesOf at hx
  rw [List.getElem?_modify] at hx
  cases h : net[i]? with
  | none => rw [h] at hx; cases hx
  | some s =>
    rw [h] at hx
    obtain ⟨c, hc, hl⟩ := onAir_fits (C50_ccm_laws e).toAeadTyped (by simpa using hx)
    simp at hc
    subst hc
    exact hl

theorem pusher_shape (e : BlockCipher (Fin 16)) (n : Nat) : Shape (play e samplePairStart pusher n).log := by
  induction n with
  | zero => exact .zero
  | succ n ih =>
    have hfits := fun i call => seen_fits e (play e samplePairStart pusher n).net i call
    unfold play
    simp only
    generalize hlog : (play e samplePairStart pusher n).log = log at ih ⊢
    cases ih with
    | zero => exact .one (hfits 0 (sampleWriteOf 0 [1]))
    | one h =>
      rename_i o
      cases o with
      | none => simp only [pusher, hlog]; exact .one h
      | some o => exact .two
    | two => simp only [pusher]; exact .three
    | three => simp only [pusher]; exact .four (hfits 0 (sampleWriteOf 0 [2]))
    | four h =>
      rename_i o'
      cases o' with
      | none => simp only [pusher, hlog]; exact .four h
      | some o => simp only [pusher]; exact .five
    | five => simp only [pusher, hlog]; exact .five

/-- The first device at first. -/
def first0 : Sender (Fin 16) := ⟨sampleCfg, sampleKeyed, []⟩

theorem pusher_pushes : CannotHoldBack samplePairStart pusher (sampleStation false) 0 first0 := by
  intro e n before call octets hlog
  have hs := pusher_shape e n
  rw [hlog] at hs ⊢
  generalize hl : before ++ [.sent 0 call (some octets)] = log at hs
  have hlast : log.getLast? = some (.sent 0 call (some octets)) := by rw [← hl]; simp
  cases hs with
  | one h =>
    simp only [List.getLast?_singleton, Option.some.injEq, Sight.sent.injEq, true_and] at hlast
    obtain ⟨rfl, rfl⟩ := hlast
    refine ⟨_, sampleStationCtx false, rfl, rfl, ?_, ?_, write_receivable false [1]⟩
    · exact List.take_of_length_le (by have := h _ rfl; omega)
    · rfl
  | four h =>
    simp at hlast
    obtain ⟨rfl, rfl⟩ := hlast
    rename_i o a x b y
    cases o
    all_goals
      refine ⟨_, sampleStationCtx false, rfl, ?_, ?_, ?_, write_receivable false [2]⟩
      · rfl
      · exact List.take_of_length_le (by have := h _ rfl; omega)
      · rfl
  | _ => simp at hlast

example := C107_nothing_missing samplePairStart pairStart_fresh sampleStation pusher 2 4 127 pusher_limited pusher_madeTo (by decide)
  false 0 first0 rfl (knows false 0 first0 rfl) rfl rfl pusher_pushes
example := C107_nothing_missing_permutation samplePairStart pairStart_fresh sampleStation pusher 2 4 127 pusher_limited pusher_madeTo
  (by decide) false 0 first0 rfl (knows false 0 first0 rfl) rfl rfl pusher_pushes

/-- With the toy cipher both frames are sent and delivered. -/
example : deliveredIn (sampleStation false).mine euiOf ((sampleStation false).entry 0)
    (play toyKeyed samplePairStart pusher 5).log = [(0x01020304, [1]), (0x01020305, [2])] := by decide +kernel

end Verif.Witness
