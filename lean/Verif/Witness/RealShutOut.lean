import Verif.Props.ShutReal
import Verif.Witness.ShutOut
import Verif.Witness.RealCipher

/-!
# Witnesses for C107 with a real block cipher
-/

namespace Verif.Witness

open Spec Rfc3610

example := (C107_real_not_shut_out samplePairStart pairStart_fresh sampleStation samplePairAttacker 2 4 127 samplePairAttacker_limited
  samplePairAttacker_madeTo (by decide)).choose_spec.2 (Vector UInt8 16) aes
example := (C107_real_nothing_missing samplePairStart pairStart_fresh sampleStation pusher 2 4 127 pusher_limited pusher_madeTo
  (by decide) false 0 first0 rfl (knows false 0 first0 rfl) rfl rfl pusher_pushes).choose_spec.2 (Vector UInt8 16) aes

/-- The offer the sample attacker makes at step `n` with AES-128. -/
def aesOfferAt (n : Nat) : Offer (Fin 16) (List (UInt64 × DeviceDescriptor)) :=
  match samplePairAttacker (realPlay aes someKeys samplePairStart samplePairAttacker n).log with
  | some (.offer a) => a
  | _ => ⟨sampleCfg, ⟨.none, none⟩, listLookup euiOf, [], []⟩

/-- At steps 4 and 5 the first device's frame is handed to the second receiver as it was sent. -/
theorem aes_hands_over (n : Nat) (hn : n = 4 ∨ n = 5) : RealHandsOver aes someKeys samplePairStart samplePairAttacker (sampleStation true)
    0 0 n device0 (sampleWriteOf 0 [1]) (aesOfferAt n) := by
  rcases hn with rfl | rfl
  · exact ⟨rfl, by decide +kernel, rfl, rfl, by decide +kernel, sampleStationCtx true, rfl, write_receivable true [1]⟩
  · exact ⟨rfl, by decide +kernel, rfl, rfl, by decide +kernel, sampleStationCtx true, rfl, write_receivable true [1]⟩

theorem aes_right_at (n : Nat) (hn : n = 4 ∨ n = 5) : RealAllRight aes someKeys samplePairStart samplePairAttacker sampleStation n := by
  have two : (realPlay aes someKeys samplePairStart samplePairAttacker n).net.length = 2 := by rcases hn with rfl | rfl <;> rfl
  intro r d s hd
  have hlt := (List.getElem?_eq_some_iff.1 hd).1
  rw [two] at hlt
  obtain rfl | rfl : d = 0 ∨ d = 1 := by omega
  all_goals
    rcases hn with rfl | rfl <;> obtain rfl := Option.some.inj hd <;> cases r <;> decide +kernel

example (n : Nat) (hn : n = 4 ∨ n = 5) :=
  C107_real_answer samplePairAttacker_madeTo (aes_right_at n hn) (aes_hands_over n hn) (knows true 0 ⟨sampleCfg, sampleKeyed, []⟩ rfl) rfl rfl

/-- With AES-128: delivered the first time, refused with `CounterError` the second. -/
example :
    ¬ RealOvertaken aes someKeys samplePairStart samplePairAttacker (sampleStation true) 0 0 4 device0 ∧
    RealDelivers aes someKeys device0 (sampleWriteOf 0 [1]) (aesOfferAt 4) ∧
    RealOvertaken aes someKeys samplePairStart samplePairAttacker (sampleStation true) 0 0 5 device0 ∧
    (answer aes (offerWith someKeys (aesOfferAt 5))).1 = .err .counterError := by
  refine ⟨?_, ⟨0x01020304, 28, by decide +kernel⟩, ?_, by decide +kernel⟩
  · unfold RealOvertaken
    decide +kernel
  · unfold RealOvertaken
    decide +kernel

/-- With AES-128 and an attacker who holds nothing back both frames are delivered. -/
example : deliveredIn (sampleStation false).mine euiOf ((sampleStation false).entry 0)
    (realPlay aes someKeys samplePairStart pusher 5).log = [(0x01020304, [1]), (0x01020305, [2])] := by decide +kernel

end Verif.Witness
