import Verif.Witness.Securing
import Verif.Props.Residue
import Verif.Props.Total
import Verif.Props.Network
import Verif.Props.CcmRfc
import Verif.Props.Fields
import Verif.Props.Steps
import Verif.Props.Arith
import Verif.Props.Stream
import Verif.Props.Held
import Verif.Props.ErrorLists

/-!
# Theorems C75 to C84, C96 and C97 applied to concrete values
-/

namespace Verif.Witness
open Spec

/-! ## Refused calls; every call -/

def kAead : Aead Nat := Ccm.aead fun k b => b.map (· + UInt8.ofNat k)
/-- The sample slice is not written with this cipher. -/
example := C75_refused_reception (κ := Nat) sCfg (fun k b => b.map (· + UInt8.ofNat k)) sAir (by sliceFits) (by decide +kernel)
  ⟨.none, some sRcv⟩ oneDev ⟨3, false⟩ .transformationError (by decide +kernel)
example := C75_refused_write_in_clear sCfg cAead cAead_typed secF sAux secF_ok sRcv buf60 (by decide) (by decide)
  (by decide +kernel) (.inr (.inr rfl))
/-- No room for the tag. -/
example := C75_refused_write_protected sCfg cAead cAead_laws secF sAux secF_ok sSnd (List.replicate 28 0) (by decide) (by decide)
  9 5 rfl .incomplete (by decide +kernel)
example := C76_every_write sCfg cAead cAead_typed secF trivial ⟨.none, some sSnd⟩ buf60
example := C77_every_plain_read sCfg .none sAir (by sliceFits)
example := C77_every_reception sCfg cAead cAead_typed sAir (by sliceFits) ⟨.none, some sRcv⟩ oneDev ⟨3, false⟩

/-! ## A network -/

theorem origin₂ : sampleNetwork.Origin 2 3 false true := by
  exact ⟨sampleNetworkFrame 5 2, _, _, sampleAux, 0x0102030405060708, 5, _, _,
      ⟨.none, channelPacket 5 2, rfl, ⟨rfl, 26, by decide +kernel⟩, rfl, by rw [(sampleNetwork_start true _).2]; rfl⟩,
      sampleNetwork_sends 2 2 rfl (sampleNetwork_start false _).2 (by decide +kernel) (by decide +kernel),
      (sampleNetwork_start false 2).1, by decide +kernel, rfl, rfl⟩
theorem origin₈ : sampleNetwork.Origin 8 9 false true := by
  exact ⟨sampleNetworkFrame 7 3, _, _, sampleAux, 0x0102030405060708, 5, _, _,
      ⟨.none, channelPacket 7 3, rfl, ⟨rfl, 26, by decide +kernel⟩, rfl, by rw [(sampleNetwork_start true _).2]; rfl⟩,
      sampleNetwork_sends 8 3 rfl (sampleNetwork_start false _).2 (by decide +kernel) (by decide +kernel),
      (sampleNetwork_start false 8).1, by decide +kernel, rfl, rfl⟩
theorem accepts₃ : sampleNetwork.AcceptsAt 3 true (sampleNetworkFrame 5 2)
    ⟨⟨.encmic32, .keySource4⟩, 0x01020305, some ⟨some (.short 0xA1B2C3D4), 9⟩⟩ 0x0102030405060708 5 :=
  ⟨.none, channelPacket 5 2, rfl, ⟨rfl, 26, by decide +kernel⟩, rfl, by rw [(sampleNetwork_start true _).2]; rfl⟩
theorem accepts₉ : sampleNetwork.AcceptsAt 9 true (sampleNetworkFrame 7 3)
    ⟨⟨.encmic32, .keySource4⟩, 0x01020307, some ⟨some (.short 0xA1B2C3D4), 9⟩⟩ 0x0102030405060708 5 :=
  ⟨.none, channelPacket 7 3, rfl, ⟨rfl, 26, by decide +kernel⟩, rfl, by rw [(sampleNetwork_start true _).2]; rfl⟩
theorem tells : sampleNetwork.TellsDevices true sampleTable.identify := fun _ _ _ _ _ _ _ _ _ _ _ => rfl

example := C78_agreement sampleNetwork sampleAead_laws sampleNetwork_unforged 3 true _ _ _ _ accepts₃
example := C78_accepted_increasing sampleNetwork true sampleTable sampleAead_laws sampleNetwork_unforged sampleNetwork_devices
  3 9 (by decide) _ _ _ _ _ _ _ _ _ _ accepts₃ accepts₉ rfl rfl rfl
example := C78_accepted_once sampleNetwork true sampleTable sampleAead_laws sampleNetwork_unforged sampleNetwork_counters
  sampleNetwork_devices tells 3 3 2 false false origin₂ origin₂
example := C78_once_in_order sampleNetwork true sampleTable sampleAead_laws sampleNetwork_unforged sampleNetwork_counters
  sampleNetwork_devices tells 3 9 2 8 false (by decide) origin₂ origin₈
example := C78_nonce_once sampleNetwork sampleAead_laws.toAeadTyped sampleNetwork_counters (by decide) 2 2 false false _
  ⟨channelCall 2, rfl, C31_success_uses sampleCfg sampleAead sampleAead_laws.toAeadTyped _ _ sampleAux
      ⟨sampleSecured_ok.encodable, trivial, rfl, rfl⟩ (.inr trivial) rfl 30 (by decide +kernel)⟩
  ⟨channelCall 2, rfl, C31_success_uses sampleCfg sampleAead sampleAead_laws.toAeadTyped _ _ sampleAux
      ⟨sampleSecured_ok.encodable, trivial, rfl, rfl⟩ (.inr trivial) rfl 30 (by decide +kernel)⟩

/-! ## The cipher as RFC 3610 has it -/

example := C79_encrypt (κ := Nat) (fun k b => b.map (· + UInt8.ofNat k)) 5 8 (by decide) sNonce [1] [9, 9, 9] rfl
example := C79_decrypt (κ := Nat) (fun k b => b.map (· + UInt8.ofNat k)) 5 8 (by decide) sNonce [1] [9, 9, 9] [0] rfl (by decide)
example := C79_verifies (κ := Nat) (fun k b => b.map (· + UInt8.ofNat k)) sAir xIn (by decide) [1, 2] [3, 4, 5, 6] [7, 8]
example := C79_written (κ := Nat) sCfg (fun k b => b.map (· + UInt8.ofNat k)) secF sAux secF_ok (by decide) sSnd buf60 31 9 5 rfl
  (by decide +kernel)
example := C80_realignment_round_trip rd buf60 _ _ rfl [] (fun _ => rfl)
example := C80_realignment_round_trip { rd with channelPage := some 3 } buf60 _ _ rfl [1, 2] (fun h => nomatch h)

/-! ## Calls cut short -/

/-- A write cut before the key lookup, one right after the cipher was called, one carried out. -/
def mem₁ := (sampleCutWrite 1 sampleMemory).2.2
def mem₂ := (sampleCutWrite 3 mem₁).2.2
theorem writeHistory : Attempts Nat sampleCfg sampleSender.euid sampleLookup sampleMemory
    [((sampleCutWrite 1 sampleMemory).1, none), ((sampleCutWrite 3 mem₁).1, none), ((sampleCutWrite 9 mem₂).1, none)]
    (sampleCutWrite 9 mem₂).2.2 :=
  .more (sampleCutWrite_attempt ..) (.more (sampleCutWrite_attempt ..) (.more (sampleCutWrite_attempt ..) (.none _)))
example := C81_counter_over_history writeHistory
example := C81_no_nonce_twice writeHistory
example := C81_counter_moves_first ⟨sampleSecured, .none, List.replicate 40 0⟩ sampleMemory _ _ _
  (C81_cuts_are_steps sampleAead sampleSender.keyProvider sampleLookup 3
    (writeProg sampleCfg sampleSender.euid sampleMemory ⟨sampleSecured, .none, List.replicate 40 0⟩) sampleMemory)
example := C81_write_refines sampleCfg sampleAead sampleLookup sampleSender ⟨sampleSecured, .none, List.replicate 40 0⟩
  sampleMemory rfl

/-- The reception of the packet with low counter octet `b`, cut after `n` steps. -/
def cutRead (n : Nat) (b : UInt8) (m : Memory DeviceDescriptor) :
    List Effect × Prog Nat (Out SecErr (Frame × Nat) × List UInt8) × Memory DeviceDescriptor :=
  cutAfter sampleAead sampleSender.keyProvider sampleLookup n (readProg sampleCfg .none (sampleReceivedAt b)) m
theorem cutRead_steps (n : Nat) (b : UInt8) (m : Memory DeviceDescriptor) :
    Steps sampleLookup (readProg sampleCfg .none (sampleReceivedAt b)) m (cutRead n b m).1 (cutRead n b m).2.1 (cutRead n b m).2.2 :=
  C81_cuts_are_steps ..
theorem cutRead_attempt (n : Nat) (b : UInt8) (m : Memory DeviceDescriptor) :
    Attempt Nat sampleCfg sampleSender.euid sampleLookup m (cutRead n b m).1 (delivered (cutRead n b m).2.1) (cutRead n b m).2.2 :=
  .read _ _ _ (cutRead_steps ..)
example := C82_all_or_nothing sampleTable .none _ sampleMemory _ _ _ (cutRead_steps 9 4 sampleMemory)
example := C82_all_or_nothing sampleTable .none _ sampleMemory _ _ _ (cutRead_steps 3 4 sampleMemory)
example := C82_cut_leaves_no_trace sampleTable .none _ sampleMemory _ _ _ (cutRead_steps 3 4 sampleMemory)
  (by
    have : (cutRead 3 4 sampleMemory).1 = [.key, .device, .decrypted (nonceOctets 9 0x01020304 .encmic32) true] := by
      decide +kernel
    rw [this]; intro d h; simp at h)
  sampleAead [sampleReadCall 4, sampleReadCall 5]
example := C82_stored_before_delivery sampleTable .none _ sampleMemory _ _ _ (sampleAccepted 4) (cutRead_steps 9 4 sampleMemory)
  (by decide +kernel) rfl

/-- One packet delivered; the next cut right before the store; the next delivered. -/
def rm₁ := (cutRead 9 4 sampleMemory).2.2
def rm₂ := (cutRead 3 5 rm₁).2.2
theorem readHistory : Attempts Nat sampleCfg sampleSender.euid sampleLookup sampleMemory
    ([] ++ ((cutRead 9 4 sampleMemory).1, some (sampleAccepted 4)) ::
      ([((cutRead 3 5 rm₁).1, none)] ++ ((cutRead 9 5 rm₂).1, some (sampleAccepted 5)) :: [])) (cutRead 9 5 rm₂).2.2 := by
  have h1 : delivered (cutRead 9 4 sampleMemory).2.1 = some (sampleAccepted 4) := by decide +kernel
  have h2 : delivered (cutRead 3 5 rm₁).2.1 = none := by decide +kernel
  have h3 : delivered (cutRead 9 5 rm₂).2.1 = some (sampleAccepted 5) := by decide +kernel
  exact .more (h1 ▸ cutRead_attempt 9 4 sampleMemory) (.more (h2 ▸ cutRead_attempt 3 5 _)
    (.more (h3 ▸ cutRead_attempt 9 5 _) (.none _)))
theorem stored₄ : (cutRead 9 4 sampleMemory).1 = [.key, .device, .decrypted (nonceOctets 9 0x01020304 .encmic32) true,
    .stored ⟨0x01020305, false⟩] := by decide +kernel
theorem stored₅ : (cutRead 3 5 rm₁).1 = [.key, .device, .decrypted (nonceOctets 9 0x01020305 .encmic32) true] := by
  decide +kernel
theorem stored₆ : (cutRead 9 5 rm₂).1 = [.key, .device, .decrypted (nonceOctets 9 0x01020305 .encmic32) true,
    .stored ⟨0x01020306, false⟩] := by decide +kernel
example := C82_no_replay sampleTable [] _ [] _ _ _ _ readHistory
  (by
    intro a h d hd
    simp only [List.mem_cons, List.not_mem_nil, or_false] at h
    rcases h with rfl | rfl
    · rw [stored₄] at hd; simp at hd; subst hd; decide
    · rw [stored₅] at hd; simp at hd)
  () 0x01020304 0x01020305 rfl rfl ⟨_, _, rfl, rfl, rfl, by decide⟩ ⟨_, _, rfl, rfl, rfl, by decide⟩
example := C82_counters_never_back sampleTable readHistory
  (by
    intro a h d hd
    simp only [List.nil_append, List.cons_append, List.mem_cons, List.not_mem_nil, or_false] at h
    rcases h with rfl | rfl | rfl
    · rw [stored₄] at hd; simp at hd; subst hd; decide
    · rw [stored₅] at hd; simp at hd
    · rw [stored₆] at hd; simp at hd; subst hd; decide)
  () ⟨3, false⟩ rfl
/-- With overflow checks. -/
example := C82_no_wrap (κ := Nat) (cfg := dCfg) (euid := 7) (lookup := sampleLookup)
  (.more (.read .none (sampleReceivedAt 4) _ (C81_cuts_are_steps sampleAead sampleSender.keyProvider sampleLookup 9
    (readProg dCfg .none (sampleReceivedAt 4)) sampleMemory)) (.none _)) rfl

def unfinished {κ α : Type} : Prog κ α → Bool
  | .done _ => false
  | _ => true
theorem not_done {κ α : Type} {p : Prog κ α} (h : unfinished p = true) : ∀ a, p ≠ .done a := by
  intro a h'; subst h'; cases h
def storing {κ α : Type} : Prog κ α → Bool
  | .storeDevice .. => true
  | _ => false
example := C96_cut_read sampleCfg .none _ sampleMemory _ _ _ (cutRead_steps 3 4 sampleMemory) (not_done (by decide +kernel))
example := C96_cut_write sampleCfg sampleSender.euid ⟨sampleSecured, .none, List.replicate 40 0⟩ trivial sampleMemory _ _ _
  (C81_cuts_are_steps sampleAead sampleSender.keyProvider sampleLookup 2
    (writeProg sampleCfg sampleSender.euid sampleMemory ⟨sampleSecured, .none, List.replicate 40 0⟩) sampleMemory)
  (not_done (by decide +kernel))
/-- Cut right before the cipher is called. -/
example := C96_retry sampleTable sampleCfg sampleAead .none _ sampleMemory _ _ _ (cutRead_steps 2 4 sampleMemory)
  (not_done (by decide +kernel))
  (by
    intro w d next h
    have : storing (cutRead 2 4 sampleMemory).2.1 = false := by decide +kernel
    rw [h] at this
    cases this)
  ⟨.none, some sampleSender⟩ [sampleReadCall 5]

/-! ## Sizes, cut frames, errors -/

example := C83_frame_size sCfg (ε := ByteErr) secF sAux (by sliceFits)
example := C83_securing sCfg cAead secF sSnd .none buf60 (by sliceFits)
example := C83_writing sCfg cAead cAead_typed
example := C84_cut_frame sCfg [1, 0, 7, 9, 9] (by sliceFits) _ _ (by rfl) 4 (by decide)
example := C84_frames sCfg [1, 0, 7, 9, 9] [1, 2] (by sliceFits)
example := C97_plain_write sCfg cAead cAead_typed .none .incomplete
example := C97_secure_write sCfg cAead cAead_laws 5 .incomplete

end Verif.Witness
