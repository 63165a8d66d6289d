import Verif.Props.Stores
import Verif.Witness.Samples
import Verif.Props.SecureWrite
import Verif.Props.Beacon

/-!
# Witnesses for C102
-/

namespace Verif.Witness
open Spec

/-- `Torn` from a check of the octets there are. -/
theorem torn_of_check {s : Store} {b b' : List UInt8} (h : b'.length = b.length) (n : Nat) (hn : b.length = n)
    (hi : ∀ i, i < n → b'[i]? = b[i]? ∨ s.pos ≤ i ∧ i < s.pos + s.octets.length ∧ b'[i]? = s.octets[i - s.pos]?) :
    Torn s b b' := by
  refine ⟨h, fun i => ?_⟩
  by_cases hlt : i < n
  · exact hi i hlt
  · rw [List.getElem?_eq_none (by omega), List.getElem?_eq_none (by omega)]
    exact .inl rfl

/-- `Within` from a check of the octets there are. -/
theorem within_of_check {pos len : Nat} {b b' : List UInt8} (h : b'.length = b.length) (n : Nat) (hn : b.length = n)
    (hi : ∀ i, i < n → i < pos ∨ pos + len ≤ i → b'[i]? = b[i]?) : Within pos len b b' := by
  refine ⟨h, fun i ho => ?_⟩
  by_cases hlt : i < n
  · exact hi i hlt ho
  · rw [List.getElem?_eq_none (by omega), List.getElem?_eq_none (by omega)]

/-- The octets of `sampleSecured` up to its payload. -/
def tornHead : List UInt8 := securedHead sampleCfg sampleSender.frameCounter sampleSecured

/-- A buffer of 40 octets. -/
def tornBuf : List UInt8 := List.replicate 40 0xEE

/-- The write of `sampleSecured` into it. -/
abbrev tornWrite : Writing Nat :=
  sampleSecured.writing sampleCfg .none (some (sampleSender.euid, sampleSender.frameCounter)) tornBuf.length

/-- A write cut in the middle of copying the sender's address: three of its octets are there. -/
theorem torn_address : Found tornWrite tornBuf sampleSender.frameCounter
    (tornHead.take 7 ++ [8, 0xEE, 6, 0xEE, 4, 0xEE, 0xEE, 0xEE] ++ List.replicate 25 0xEE) sampleSender.frameCounter := by
  refine .store (.store (.store (.store (.tearing (torn_of_check ?_ 40 ?_ ?_)))))
  · decide +kernel
  · decide +kernel
  · decide +kernel

/-- A write cut in the middle of copying the payload: the second of its octets is there already, the first is not. -/
theorem torn_payload : Found tornWrite tornBuf sampleSender.frameCounter
    (tornHead ++ [0xEE, 0xF0] ++ List.replicate 13 0xEE) sampleSender.frameCounter := by
  refine .store (.store (.store (.store (.store (.store (.store (.store (.store (.tearing (torn_of_check ?_ 40 ?_ ?_))))))))))
  · decide +kernel
  · decide +kernel
  · decide +kernel

/-- A write cut while the cipher works: the counter has moved, the payload's place holds anything. -/
theorem torn_cipher : Found tornWrite tornBuf sampleSender.frameCounter
    (tornHead ++ [0x42, 0x43] ++ List.replicate 13 0xEE) (sampleSender.frameCounter + 1) := by
  refine .store (.store (.store (.store (.store (.store (.store (.store (.store (.store (.setCounter
    (.askKey (some (9, 5)) (.ciphering (within_of_check ?_ 40 ?_ ?_)))))))))))))
  · decide +kernel
  · decide +kernel
  · decide +kernel

/-- A write cut while the tag is copied: two of its four octets are there. -/
theorem torn_tag : Found tornWrite tornBuf sampleSender.frameCounter
    (tornHead ++ [0x42, 0x43] ++ [0xEE, 2, 3, 0xEE] ++ List.replicate 9 0xEE) (sampleSender.frameCounter + 1) := by
  refine .store (.store (.store (.store (.store (.store (.store (.store (.store (.store (.setCounter
    (.askKey (some (9, 5)) (.encrypt (some [1, 2, 3, 4]) (tornHead ++ [0x42, 0x43] ++ List.replicate 13 0xEE) ?_
      (within_of_check ?_ 40 ?_ ?_) (.tearing (torn_of_check ?_ 40 ?_ ?_))))))))))))))
  · intro tag h; cases h; rfl
  all_goals decide +kernel

/-- In these four cases `C102_cut_write` speaks. -/
example := C102_cut_write (κ := Nat) sampleCfg sampleSecured trivial .none sampleSender.euid sampleSender.frameCounter _ tornBuf _
  torn_address
example := C102_cut_write (κ := Nat) sampleCfg sampleSecured trivial .none sampleSender.euid sampleSender.frameCounter _ tornBuf _
  torn_payload

/-- The header and one octet of the payload are in the clear, the counter stands. -/
example : ∃ k k', PartWritten (clearOctets sampleCfg sampleSender.frameCounter .none sampleSecured) tornBuf
    (tornHead ++ [0xEE, 0xF0] ++ List.replicate 13 0xEE) k k' ∧ k < k' := by
  rcases C102_cut_write (κ := Nat) sampleCfg sampleSecured trivial .none sampleSender.euid sampleSender.frameCounter _ tornBuf _
    torn_payload with ⟨_, k, k', hp, _⟩ | ⟨_, h⟩
  · refine ⟨k, k', hp, ?_⟩
    have hpl : ¬ 25 < k := fun hk => absurd (hp.written 25 hk) (by decide +kernel)
    have hpu : ¬ k' ≤ 26 := fun hk => absurd (hp.untouched 26 hk) (by decide +kernel)
    omega
  · exact absurd h.counter.2 (by decide)

/-- The cipher's octets are neither old nor in the clear: the counter has moved. -/
example : sampleSender.frameCounter + 1 = sampleSender.frameCounter + 1 :=
  (C102_counter_first (κ := Nat) sampleCfg sampleSecured trivial .none sampleSender.euid sampleSender.frameCounter _ tornBuf _
    torn_cipher 25 ⟨by decide +kernel, by decide +kernel⟩).2
example := C102_counter_first (κ := Nat) sampleCfg sampleSecured trivial .none sampleSender.euid sampleSender.frameCounter _ tornBuf _
    torn_tag 28 ⟨by decide +kernel, by decide +kernel⟩

/-- Without a context: cut after frame control, sequence number and one of the two octets of the PAN identifier. -/
theorem torn_plain : Found (sampleFrame.writing sampleCfg .explicit none tornBuf.length : Writing Nat) tornBuf 0
    ((plainFrameOctets .explicit sampleFrame).take 3 ++ [0xEE, 0x12] ++ List.replicate 35 0xEE) 0 := by
  refine .store (.store (.tearing (torn_of_check ?_ 40 ?_ ?_)))
  all_goals decide +kernel

example := C102_cut_without_context (κ := Nat) sampleCfg sampleFrame trivial .explicit _ _ tornBuf _ torn_plain

/-- Carried out to the end. -/
example := C102_refines sampleCfg sampleAead sampleAead_typed sampleSecured .none sampleSender (List.replicate 40 0)
example : runWriting sampleAead sampleSender.keyProvider tornWrite (List.replicate 40 0) sampleSender.frameCounter =
    (.ok 31, tornHead ++ [0xde, 0xf0, 0xAA, 0xAA, 0xAA, 0xAA] ++ List.replicate 9 0, sampleSender.frameCounter + 1) := by
  decide +kernel

/-- A beacon from the API, torn anywhere. -/
example := (C102_values (κ := Nat) sampleCfg).2.2.2.2.1

end Verif.Witness
