import Verif.Props.RealCipher
import Verif.Witness.Games
import Verif.Tests.Aes

/-!
# Witnesses for C104

The theorems applied to AES-128 and the sample network of C95; runs of that network with AES-128 and real keys; and a block
cipher with which something goes wrong whatever the keys are.
-/

namespace Verif.Witness

open Spec Rfc3610

/-- AES-128 with keys of 16 octets. -/
def aes : BlockCipher (Vector UInt8 16) := fun key b => Aes.cipher key.toList b

instance : Finite (Vector UInt8 16) := Nat.finite_of_card_ne_zero (by
  rw [show Nat.card (Vector UInt8 16) = 2 ^ 128 from card_block]; decide)

example := C104_attack_as_computation pairStart_fresh samplePairAttacker_limited (by decide)
example := (C104_real_network samplePairStart pairStart_fresh sampleStation samplePairAttacker 2 4 127 samplePairAttacker_limited
  samplePairAttacker_madeTo (by decide)).choose_spec.2.2 (Vector UInt8 16) aes
example := (C104_real_secrecy sampleStart sampleStart_fresh sampleTester 2 1 127 sampleTester_fair (by decide) 3
  sameOctet).choose_spec.2.2 (Vector UInt8 16) aes

/-- The numbers for the sample network: 116 block encryptions, and small bounds. -/
example : blockCalls 2 4 127 = 116 ∧ blockCalls 2 4 127 ^ 2 < 2 ^ 129 ∧ forgeryBound 2 4 127 < 1 / 10 ^ 9 ∧
    forgeryBoundPermutation 2 4 127 (blockCalls 2 4 127) < 1 / 10 ^ 9 ∧
    secrecyBound 2 1 127 < 1 / 10 ^ 9 ∧ secrecyBoundPermutation 2 1 127 (blockCalls 2 1 127) < 1 / 10 ^ 8 := by
  refine ⟨by decide, by decide, ?_, ?_, ?_, ?_⟩
  · norm_num [forgeryBound]
  · norm_num [forgeryBoundPermutation, blockCalls]
  · norm_num [secrecyBound]
  · norm_num [secrecyBoundPermutation, blockCalls]

/-- A key for every name. -/
def someKeys : Fin 16 → Vector UInt8 16 := fun name => Vector.ofFn fun i => UInt8.ofNat (16 * name.val + i.val)

/-- With AES-128 and these keys the second receiver delivers a frame of each device, once. -/
example :
    let log := (realPlay aes someKeys samplePairStart samplePairAttacker 6).log
    let got := fun r d => deliveredIn (sampleStation r).mine euiOf ((sampleStation r).entry d) log
    got false 0 = [(0x01020304, [1])] ∧ got false 1 = [] ∧
    got true 0 = [(0x01020304, [1])] ∧ got true 1 = [(0x01020304, [2])] := by
  decide +kernel

/-- The one receiver of `sampleAttacker`. -/
def onlyStation : Unit → Station (Fin 16) DeviceDescriptor Unit := fun _ =>
  ⟨fun _ => true, sampleCfg, sampleLookup, sampleTable, ⟨3, false⟩, fun _ => ()⟩

theorem onlyStation_madeTo : MadeToAll sampleAttacker sampleStart onlyStation := by
  intro _ d sender hd
  obtain rfl : d = 0 := by
    have := (List.getElem?_eq_some_iff.1 hd).1
    have h1 : sampleStart.length = 1 := rfl
    omega
  obtain rfl : (⟨sampleCfg, sampleKeyed, []⟩ : Sender (Fin 16)) = sender := Option.some.inj hd
  exact attacker_madeTo

/-- A cipher that encrypts every block to zeros. -/
def zeros : BlockCipher Bool := fun _ _ => Vector.replicate 16 0

/-- With it there is trouble whatever the keys are: so the computation tells it from random functions. -/
example : (∀ keys, RealTrouble zeros keys sampleStart sampleAttacker onlyStation) ∧
    chance (fun keys => RealTrouble zeros keys sampleStart sampleAttacker onlyStation) = 1 := by
  have h : ∀ keys, RealTrouble zeros keys sampleStart sampleAttacker onlyStation := by
    intro keys
    have hz : randomKeys (Fin 16) zeros keys = fun _ _ => Vector.replicate 16 0 := rfl
    have h1 : ((play (fun _ _ => Vector.replicate 16 0) sampleStart sampleAttacker 4).net[0]?.any fun s =>
        ! decide (List.Sublist
          (deliveredIn (onlyStation ()).mine (onlyStation ()).table.identify ((onlyStation ()).entry 0)
            (play (fun _ _ => Vector.replicate 16 0) sampleStart sampleAttacker 4).log)
          (sentBy s.cfg (Ccm.aead fun _ _ => Vector.replicate 16 0) s.context s.calls))) = true := by decide +kernel
    obtain ⟨s, hs, h2⟩ := (Option.any_eq_true _ _).1 h1
    refine .inr ⟨4, (), 0, senderWith keys s, ?_, ?_⟩
    · rw [C104_real_play, hz, List.getElem?_map, hs]; rfl
    · rw [C104_real_play, hz]
      have h3 := sentBy_with keys zeros s.cfg s.calls s.context
      rw [hz] at h3
      change ¬ List.Sublist _ (sentBy s.cfg (Ccm.aead zeros) (contextWith keys s.context) s.calls)
      rw [h3]
      simpa using h2
  refine ⟨h, ?_⟩
  unfold chance
  rw [Nat.card_congr (Equiv.subtypeUnivEquiv h)]
  have : (Nat.card (Fin 16 → Bool) : ℚ) ≠ 0 := by exact_mod_cast Nat.card_ne_zero.2 ⟨⟨fun _ => false⟩, inferInstance⟩
  exact div_self this

end Verif.Witness
