import Verif.Props.LostKeys
import Verif.Witness.RealCipher

/-!
# Witnesses for C105

Two devices, the second with a lost key.  The attacker, who has chosen what the cipher does under it, has the first
device send a frame, delivers it twice, and makes up a frame of the second device.
-/

namespace Verif.Witness

open Spec Rfc3610

/-- Names of keys: one lost, sixteen held. -/
abbrev SomeLost : Type := Unit ⊕ Fin 16

/-- Under the lost key every block is encrypted to zeros. -/
def lostZeros : BlockCipher Unit := fun _ _ => Vector.replicate 16 0

/-- The first device writes under held key 5, the second under the lost key. -/
def lostStart : List (Sender SomeLost) :=
  [⟨sampleCfg, ⟨0x0102030405060708, 0x01020304, fun _ _ _ => some (9, .inr 5)⟩, []⟩,
   ⟨sampleCfg, ⟨0x11, 0x01020304, fun _ _ _ => some (9, .inl ())⟩, []⟩]

/-- The receiver's keys for the two. -/
def lostReceiver : SecCtx SomeLost :=
  ⟨100, 0, fun _ _ a => match a with
    | some (.extended _ a) => some (a, if a = 0x0102030405060708 then .inr 5 else .inl ())
    | _ => none⟩

def lostStation : Unit → Station SomeLost (List (UInt64 × DeviceDescriptor)) UInt64 := fun _ =>
  ⟨fun _ => true, sampleCfg, listLookup euiOf, listTable euiOf, [(0x0102030405060708, ⟨3, false⟩), (0x11, ⟨3, false⟩)],
    fun d => if d = 0 then 0x0102030405060708 else 0x11⟩

/-- It relies on the first device. -/
def lostRelies : Unit → Nat → Prop := fun _ d => d = 0

/-- A frame of the second device, made up with what the cipher does under the lost key. -/
def lostForged : List UInt8 :=
  (onAir sampleCfg (Ccm.aead lostZeros) ⟨0x11, 0x01020304, fun _ _ _ => some (9, ())⟩ [sampleWriteOf 1 [9]] 0).getD []

def lostAttacker : Attacker SomeLost (List (UInt64 × DeviceDescriptor)) := fun log =>
  let give := fun (o : List UInt8) => Move.offer ⟨sampleCfg, ⟨.none, some lostReceiver⟩,
    listLookup euiOf, lookupState (lostStation ()).mine (lostStation ()).dev log, o.take 127⟩
  match log with
  | [] => some (.write 0 (sampleWriteOf 0 [1]))
  | [.sent _ _ o] => some (give (o.getD []))
  | [.sent _ _ o, .answered _ _] => some (give (o.getD []))
  | [.sent _ _ _, .answered _ _, .answered _ _] => some (give lostForged)
  | _ => none

theorem lostStart_fresh : Fresh lostStart := by
  refine ⟨by simp [lostStart], ?_⟩
  intro s hs
  simp only [lostStart, List.mem_cons, List.not_mem_nil, or_false] at hs
  rcases hs with rfl | rfl <;> rfl

theorem lostAttacker_limited : Limited lostAttacker 1 3 127 := by
  constructor
  · intro log i call h
    unfold lostAttacker at h
    split at h <;> simp only [Option.some.injEq, Move.write.injEq, reduceCtorEq] at h
    all_goals
      obtain ⟨_, rfl⟩ := h
      exact ⟨by simp [sentCount], trivial⟩
  · intro log a h
    unfold lostAttacker at h
    split at h <;> simp only [Option.some.injEq, Move.offer.injEq, reduceCtorEq] at h
    all_goals
      subst h
      exact ⟨by simp [answerCount], by simp only [List.length_take]; omega⟩

theorem lostAttacker_madeTo : MadeToReliers lostAttacker lostStart lostStation lostRelies := by
  intro r d sender hrel hd
  obtain rfl : d = 0 := hrel
  simp only [lostStart, List.getElem?_cons_zero, Option.some.injEq] at hd
  subst hd
  have key : ∀ log a, lostAttacker log = some (.offer a) → a.cfg = sampleCfg ∧ a.lookup = listLookup euiOf ∧
      a.device = lookupState (lostStation r).mine (lostStation r).dev log ∧ a.ctx = ⟨.none, some lostReceiver⟩ := by
    intro log a h
    unfold lostAttacker at h
    split at h <;> simp only [Option.some.injEq, Move.offer.injEq, reduceCtorEq] at h
    all_goals
      subst h
      exact ⟨rfl, rfl, rfl, rfl⟩
  have hfound : ∀ id src eui k, euiOf src = 0x0102030405060708 → lostReceiver.keyProvider .src id (some src) = some (eui, k) →
      eui = 0x0102030405060708 ∧ k = .inr 5 := by
    intro id src eui k h1 h2
    cases src with
    | short p s => simp [lostReceiver] at h2
    | extended p s =>
      have : s = 0x0102030405060708 := h1
      simp only [lostReceiver, Option.some.injEq, Prod.mk.injEq] at h2
      rw [← h2.1, ← h2.2, this]
      exact ⟨rfl, rfl⟩
  refine ⟨fun log a h _ => ?_, fun log a h _ => ?_⟩
  · obtain ⟨h1, h2, h3, h4⟩ := key log a h
    refine ⟨h1, h2, h3, ?_⟩
    intro rc id src eui k g1 g2 g3
    have g1 : a.ctx.securityCtx = some rc := g1
    rw [h4] at g1
    obtain rfl := Option.some.inj g1
    exact (hfound id src eui k g2 g3).1
  · obtain ⟨h1, h2, h3, h4⟩ := key log a h
    intro rc id src eui k g1 g2 g3
    rw [h4] at g1
    obtain rfl := Option.some.inj g1
    exact ⟨5, (hfound id src eui k g2 g3).2⟩

example := C105_lost_keys lostZeros lostStart lostStart_fresh lostStation lostRelies lostAttacker 1 3 127 lostAttacker_limited
  lostAttacker_madeTo (by decide)
example := C105_lost_keys_permutation lostZeros lostStart lostStart_fresh lostStation lostRelies lostAttacker 1 3 127
  lostAttacker_limited lostAttacker_madeTo (by decide)
example := C105_lost_real_keys aes (fun _ => Vector.replicate 16 0) lostStart lostStart_fresh lostStation lostRelies lostAttacker 1 3
  127 lostAttacker_limited lostAttacker_madeTo (by decide)

/-- The receiver delivers the first device's frame once; as coming from the second device it delivers what was made
up, though that device has sent nothing. -/
example :
    let end_ := play (both lostZeros toyKeyed) lostStart lostAttacker 4
    let got := fun d => deliveredIn (lostStation ()).mine euiOf ((lostStation ()).entry d) end_.log
    got 0 = [(0x01020304, [1])] ∧ got 1 = [(0x01020304, [9])] ∧ end_.net.map (fun s => s.calls.length) = [1, 0] := by
  decide +kernel

/-- If a held key's cipher were known to be zeros too, the same could happen to the first device: the chance is over
that cipher. -/
example :
    ¬ ReliersRight (both lostZeros (fun _ _ => Vector.replicate 16 0)) lostStart
      (fun log => match log with
        | [] => some (.offer ⟨sampleCfg, ⟨.none, some lostReceiver⟩, listLookup euiOf, (lostStation ()).dev,
            (onAir sampleCfg (Ccm.aead lostZeros) ⟨0x0102030405060708, 0x01020304, fun _ _ _ => some (9, ())⟩
              [sampleWriteOf 0 [9]] 0).getD []⟩)
        | _ => none) lostStation lostRelies 1 := by
  intro h
  have := h () 0 _ rfl (List.getElem?_eq_getElem (by decide))
  revert this
  decide +kernel

/-- A tester who has the first device send one of two octets, the second, under the lost key, an octet of what went over the
air, and delivers what the first sent. -/
def lostTester : Tester SomeLost (List (UInt64 × DeviceDescriptor)) := fun log =>
  match log with
  | [] => some (.write 0 (sampleWriteOf 0 [1]) (sampleWriteOf 0 [2]))
  | [.sent o] => some (.write 1 (sampleWriteOf 1 [(o.getD []).getLastD 0]) (sampleWriteOf 1 [(o.getD []).getLastD 0]))
  | [.sent o, .sent _] => some (.offer ⟨sampleCfg, ⟨.none, some lostReceiver⟩, listLookup euiOf, (lostStation ()).dev, (o.getD []).take 127⟩)
  | _ => none

theorem lostTester_fair : Fair lostTester 2 1 127 0 := by
  constructor
  · intro log i l r h
    unfold lostTester at h
    split at h <;> simp only [Option.some.injEq, Choice.write.injEq, reduceCtorEq] at h
    · obtain ⟨_, rfl, rfl⟩ := h
      exact ⟨by simp, trivial, rfl, rfl, rfl, rfl, rfl, .inr ⟨rfl, _, rfl, by simp [EncMic]⟩⟩
    · obtain ⟨_, rfl, rfl⟩ := h
      exact ⟨by simp, trivial, alike_refl _⟩
  · intro log a h
    unfold lostTester at h
    split at h <;> simp only [Option.some.injEq, Choice.offer.injEq, reduceCtorEq] at h
    subst h
    exact ⟨by simp, by simp only [List.length_take]; omega, fun _ _ _ _ _ _ => Nat.zero_le _⟩

theorem lostTester_same : SameUnderLost lostStart lostTester := by
  intro log i l r s aux eui key h hs ha hk
  unfold lostTester at h
  split at h <;> simp only [Option.some.injEq, Choice.write.injEq, reduceCtorEq] at h
  · obtain ⟨rfl, rfl, rfl⟩ := h
    simp only [lostStart, List.getElem?_cons_zero, Option.some.injEq] at hs
    subst hs
    simp at hk
  · obtain ⟨rfl, rfl, rfl⟩ := h
    rfl

example := fun D => C105_lost_keys_secrecy lostZeros lostStart lostStart_fresh lostTester 2 1 127 lostTester_fair lostTester_same
  (by decide) 3 D
example := fun D => C105_lost_keys_secrecy_permutation lostZeros lostStart lostStart_fresh lostTester 2 1 127 lostTester_fair
  lostTester_same (by decide) 3 D
example := fun D => C105_lost_real_keys_secrecy aes (fun _ => Vector.replicate 16 0) lostStart lostStart_fresh lostTester 2 1 127
  lostTester_fair lostTester_same (by decide) 3 D

/-- Both devices' frames go over the air, and what the first sent is accepted; under one cipher left and right can be told
apart. -/
example :
    let seen := fun right => glimpses (both lostZeros toyKeyed) lostStart right lostTester 3
    (seen false).map (fun | .sent o => o.isSome | .answered x => match x.1 with | .ok _ => true | _ => false) = [true, true, true] ∧
    (seen false).map (fun | .sent o => o | .answered _ => none) ≠ (seen true).map (fun | .sent o => o | .answered _ => none) := by
  decide +kernel

/-- Were the two frames different where the lost key is used, the tester could always tell: with this key's zeros the
second device's octet goes over the air as it is. -/
example :
    let told : Tester SomeLost (List (UInt64 × DeviceDescriptor)) := fun log =>
      match log with
      | [] => some (.write 1 (sampleWriteOf 1 [1]) (sampleWriteOf 1 [2]))
      | _ => none
    let seen := fun right => (glimpses (both lostZeros toyKeyed) lostStart right told 1).map
      fun | .sent o => (o.getD []).drop (lostForged.length - 5) | .answered _ => []
    seen false = [[1, 0, 0, 0, 0]] ∧ seen true = [[2, 0, 0, 0, 0]] ∧ ¬ SameUnderLost lostStart told := by
  refine ⟨by decide +kernel, by decide +kernel, fun h => ?_⟩
  have := h [] 1 _ _ _ _ _ _ rfl rfl rfl rfl
  revert this
  simp [sampleWriteOf]

end Verif.Witness
