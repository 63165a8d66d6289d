import Verif.Witness.Samples
import Verif.Props.SecureWrite
import Verif.Props.SecureRead
import Verif.Props.History
import Verif.Props.Writers
import Verif.Props.Accounts

/-!
# Theorems C30 to C48 applied to concrete values
-/

namespace Verif.Witness
open Spec

/-! ## Writing secured frames -/

/-- A call that writes the sample frame. -/
def sCall : WriteCall := ⟨secF, .none, buf60⟩
def sNonce : List UInt8 := nonceOctets 0x0102030405060708 0x01020304 .encmic32
def sNext : SecCtx Nat := { sSnd with frameCounter := 0x01020305 }
def sOther : SecCtx Nat := { sSnd with euid := 77 }
def sMax : SecCtx Nat := { sSnd with frameCounter := 0xFFFFFFFF }
theorem uses_at (sc : SecCtx Nat) (n : Nat) (h : (secF.tryWrite sCfg cAead ⟨.none, some sc⟩ buf60).1 = .ok n) :
    UsesNonce sCfg sc sCall (nonceOctets sc.euid sc.frameCounter .encmic32) :=
  C31_success_uses sCfg cAead cAead_typed sc sCall sAux secF_ok (by decide) rfl n h
theorem sSnd_uses : UsesNonce sCfg sSnd sCall sNonce := uses_at sSnd 31 (by decide +kernel)

example := C30_nonce_injective 1 1 7 7 .enc .enc rfl
example := C31_counter_monotone sCfg cAead cAead_typed [sCall, sCall] sSnd
example := C31_nonce_of_call sCfg sSnd sCall sNonce sSnd_uses
/-- The first and the third call of a history. -/
example := C31_nonce_never_reused sCfg cAead cAead_typed sSnd [] [sCall] sCall sCall sNonce
  (nonceOctets 0x0102030405060708 0x01020306 .encmic32) sSnd_uses
  (by
    have h : contextAfter sCfg cAead sSnd [sCall, sCall] = { sSnd with frameCounter := 0x01020306 } := by
      have h1 : contextAfterCall sCfg cAead sSnd sCall = sNext := by
        unfold contextAfterCall sCall
        obtain ⟨b, h⟩ := C34_write_succeeds sCfg cAead cAead_laws secF sAux secF_ok (by decide) sSnd (by decide) (by decide)
          5 9 rfl buf60 (by decide)
        rw [h]
        rfl
      have h2 : contextAfterCall sCfg cAead sNext sCall = { sSnd with frameCounter := 0x01020306 } := by
        unfold contextAfterCall sCall
        obtain ⟨b, h⟩ := C34_write_succeeds sCfg cAead cAead_laws secF sAux secF_ok (by decide) sNext (by decide) (by decide)
          5 9 rfl buf60 (by decide)
        rw [h]
        rfl
      show contextAfterCall sCfg cAead (contextAfterCall sCfg cAead sSnd sCall) sCall = _
      rw [h1, h2]
    show UsesNonce sCfg (contextAfter sCfg cAead sSnd [sCall, sCall]) _ _
    rw [h]
    exact uses_at _ 31 (by decide +kernel))
example := C31_nonce_other_device sCfg sCfg sSnd sOther (by decide) sCall sCall _ _ sSnd_uses
  (uses_at sOther 31 (by decide +kernel))
example := C31_success_uses sCfg cAead cAead_typed sSnd sCall sAux secF_ok (by decide) rfl 31 (by decide +kernel)
example := C32_at_most_one sCfg cAead cAead_typed secF .none sSnd buf60
example := C32_exhausted sCfg cAead cAead_typed secF sAux rfl (by decide) .none sMax rfl buf60
example := C32_exhausted_error sCfg cAead cAead_typed secF sAux secF_ok (by decide) sMax rfl buf60 (by decide) (by decide)
example := C32_taken_iff sCfg cAead cAead_typed secF sAux secF_ok sSnd buf60
example := C33_big bCfg rfl 0x01020304
example := C33_little sCfg rfl 0x01020304
example := C33_counter_on_air sCfg cAead cAead_typed secF sAux secF_ok (by decide) sSnd buf60 _ 31 _
  (wrote (by decide +kernel))
example := C33_counter_on_air bCfg cAead cAead_typed secF sAux secF_ok (by decide) sSnd buf60 _ 31 _
  (wrote (by decide +kernel))
example := C34_header_back sCfg 7 secH rfl rfl (fun _ => by rintro d s h1 h2; cases h1; cases h2; rfl)
example := C34_header_read sCfg dCfg rfl rfl cAead cAead_laws secF sAux secF_ok rfl (by decide) sSnd buf60 _ 31 _
  (wrote (by decide +kernel))
example := C34_secured_round_trip sCfg dCfg rfl rfl cAead cAead_laws secF sAux secF_ok rfl (by decide) (by decide)
  sSnd buf60 _ 31 _ (wrote (by decide +kernel)) 5 9 rfl sRcv oneDev ⟨3, false⟩ ⟨3, false⟩
  (.extended 0x1234 0x0102030405060708) ⟨3, false⟩ _ rfl rfl rfl (by decide)
example := C34_write_succeeds sCfg cAead cAead_laws secF sAux secF_ok (by decide) sSnd (by decide) (by decide) 5 9 rfl
  buf60 (by decide)

/-! ## Histories of receptions -/

theorem sAir_accepted : Accepts sCfg cAead oneDev ⟨3, false⟩ ⟨sAir, ⟨.none, some sRcv⟩⟩ rF :=
  ⟨by decide, 27, by decide +kernel⟩
theorem later_accepted (d : DeviceDescriptor) (h : d = ⟨0x01020305, false⟩) :
    Accepts sCfg cAead oneDev d ⟨airAt .encmic32 0x01020309 [0xde, 0xf0], ⟨.none, some sRcv⟩⟩
      { rF with header := { rH with auxSec := some { rAux with frameCounter := 0x01020309 } } } := by
  subst h; exact ⟨by decide, 27, by decide +kernel⟩
theorem after_sAir : devicesAfter sCfg cAead oneDev ⟨3, false⟩ [(⟨sAir, ⟨.none, some sRcv⟩⟩ : ReadCall Nat)] =
    ⟨0x01020305, false⟩ := by decide +kernel

example := C35_between_table_counters sCfg cAead oneDev oneTable cAead_typed ⟨3, false⟩ [] []
  ⟨sAir, ⟨.none, some sRcv⟩⟩ rF () 0x01020304 ⟨3, false⟩ rfl sAir_accepted ⟨_, _, rfl, rfl, rfl, rfl⟩
  (.inr (by
    rintro (_ | ⟨a, l⟩) call' later f' h h2 ⟨s, a, h3, -, h4, h5⟩
    · cases h
      obtain ⟨_, k, h2⟩ := h2
      have h6 : (Frame.tryReadAndUnsecure sCfg cAead sAir ⟨.none, some sRcv⟩ oneDev ⟨3, false⟩).1 = .ok (rF, 27) := by
        decide +kernel
      rw [show (Frame.tryReadAndUnsecure sCfg cAead sAir ⟨.none, some sRcv⟩ oneDev ⟨3, false⟩).1 = _ from h2] at h6
      cases h6
      cases h4
      exact absurd h5 (by decide)
    · cases l <;> cases h))
example := C35_counters_increase sCfg cAead oneDev oneTable cAead_typed ⟨3, false⟩ [] []
  ⟨sAir, ⟨.none, some sRcv⟩⟩ ⟨airAt .encmic32 0x01020309 [0xde, 0xf0], ⟨.none, some sRcv⟩⟩ rF _ () 0x01020304 0x01020309
  sAir_accepted (later_accepted _ after_sAir) ⟨_, _, rfl, rfl, rfl, rfl⟩ ⟨_, _, rfl, rfl, rfl, rfl⟩
  (.inr ⟨by decide, by rintro (_ | _) call later f h <;> cases h⟩)
example := C35_no_replay sCfg cAead oneDev oneTable cAead_typed ⟨3, false⟩ [] []
  ⟨sAir, ⟨.none, some sRcv⟩⟩ ⟨airAt .encmic32 0x01020309 [0xde, 0xf0], ⟨.none, some sRcv⟩⟩ rF _ sAir_accepted
  (.inr fun i => ⟨(by rintro ⟨s, a, -, -, h, h'⟩; cases h; exact absurd h' (by decide)),
    by rintro (_ | _) call later f h <;> cases h⟩)
  (later_accepted _ after_sAir)
example := C36_accept_stores sCfg cAead cAead_typed sAir sRcv oneDev oneTable ⟨3, false⟩ rF 27 (by decide +kernel)
  (by decide)

/-- The last counter, in a build without and with overflow checks. -/
def lastAir : List UInt8 := airAt .encmic32 0xFFFFFFFF [1]
def xLast : Incoming Nat DeviceDescriptor :=
  { xIn with aux := { rAux with frameCounter := 0xFFFFFFFF },
             header := { rH with auxSec := some { rAux with frameCounter := 0xFFFFFFFF } } }
theorem xLast_ok : PassesChecks dCfg sRcv oneDev ⟨3, false⟩ lastAir xLast :=
  ⟨by decide +kernel, rfl, by decide, rfl, by decide, rfl, rfl, rfl, by decide, by decide⟩
theorem xLast_ok' : PassesChecks sCfg sRcv oneDev ⟨3, false⟩ lastAir xLast :=
  ⟨by decide +kernel, rfl, by decide, rfl, by decide, rfl, rfl, rfl, by decide, by decide⟩
theorem last_verifies : Verifies cAead lastAir xLast ((lastAir.drop 25).take 1) (lastAir.drop 26) [1] :=
  ⟨by decide +kernel, by decide +kernel, by decide +kernel⟩
example := C36_wrap dCfg cAead cAead_typed lastAir sRcv oneDev ⟨3, false⟩ xLast _ _ _ xLast_ok last_verifies rfl
example := C36_wrap sCfg cAead cAead_typed lastAir sRcv oneDev ⟨3, false⟩ xLast _ _ _ xLast_ok' last_verifies rfl
example := C36_decrease_only_by_wrap sCfg cAead cAead_typed lastAir ⟨.none, some sRcv⟩ oneDev oneTable ⟨3, false⟩ ()
  ⟨3, false⟩ ⟨0, false⟩ rfl (by decide +kernel) (by decide)

/-! ## Single receptions -/

/-- A slice whose tag is wrong. -/
def badAir : List UInt8 := sAir.take 30 ++ [0]
theorem bad_refused : ∀ f k, (Frame.tryReadAndUnsecure sCfg cAead badAir ⟨.none, some sRcv⟩ oneDev ⟨3, false⟩).1 =
    .ok (f, k) → ¬ Secured f.header := by
  intro f k h
  have h' : (Frame.tryReadAndUnsecure sCfg cAead badAir ⟨.none, some sRcv⟩ oneDev ⟨3, false⟩).1 =
    .err .transformationError := by decide +kernel
  rw [h'] at h
  cases h
example := C37_context_unchanged sCfg cAead cAead_typed sAir ⟨.none, some sRcv⟩ oneDev ⟨3, false⟩
example := C37_descriptors_unchanged sCfg cAead cAead_typed badAir ⟨.none, some sRcv⟩ oneDev oneTable ⟨3, false⟩
  bad_refused ()
example := C37_nothing_stored sCfg cAead cAead_typed badAir ⟨.none, some sRcv⟩ oneDev ⟨3, false⟩ bad_refused
example := C37_same_devices sCfg cAead cAead_typed sAir ⟨.none, some sRcv⟩ oneDev oneTable ⟨3, false⟩ ()
example := (C38_accept_iff sCfg cAead cAead_typed sAir _ sRcv oneDev ⟨3, false⟩ _ rF 27 _).1
  ⟨wrote (by decide +kernel), by decide⟩
example := (C38_verifies_iff cAead cAead_laws sAir xIn _ _ _).1 sAir_verifies
example := C38_other_tag_rejected sCfg cAead cAead_laws sAir sRcv oneDev ⟨3, false⟩ xIn _ _ [0, 0, 0, 0] _ xIn_ok
  sAir_verifies (by decide +kernel) (by decide +kernel)

/-- A frame that is authenticated only. -/
def micAir : List UInt8 := airAt .mic32 0x01020304 [0xde, 0xf0]
def micAux : AuxHeader := ⟨⟨.mic32, .keySource4⟩, 0x01020304, some ⟨some (.short 0xA1B2C3D4), 9⟩⟩
def xMic : Incoming Nat DeviceDescriptor :=
  { xIn with aux := micAux, header := { rH with auxSec := some micAux } }
theorem xMic_ok : PassesChecks sCfg sRcv oneDev ⟨3, false⟩ micAir xMic :=
  ⟨by decide +kernel, rfl, by decide, rfl, by decide, rfl, rfl, rfl, by decide, by decide⟩
/-- Another payload with the tag of the first. -/
example := C38_mic_payload sCfg cAead cAead_laws micAir sRcv oneDev ⟨3, false⟩ xMic [0xde, 0xf1] (micAir.drop 27)
  trivial (by decide +kernel) xMic_ok (by decide +kernel)
/-- The sequence number changed on the way. -/
example := C39_header_unauthenticated sCfg cAead cAead_typed sAir (sAir.set 2 9) sRcv oneDev ⟨3, false⟩ xIn xIn_ok
  { rH with seq := 9 } 25 rAux (by decide +kernel) rfl (by decide) rfl rfl rfl rfl rfl (by decide +kernel)
example := C39_treated_alike sCfg cAead cAead_typed sAir (sAir.set 2 9) sRcv oneDev ⟨3, false⟩ rH
  { rH with seq := 9 } 25 25 rAux rAux (by decide +kernel) (by decide +kernel) rfl rfl (by decide) (by decide)
  rfl rfl rfl rfl rfl rfl (by decide +kernel)

/-! ## Protection, size, levels -/

example := C40_protected_part cAead cAead_typed .mic64 5 sNonce [1, 2, 3] _ _ rfl
example := C40_protected_part cAead cAead_typed .encmic128 5 sNonce [1, 2, 3] _ _ rfl
example := (C40_secured_write_iff sCfg cAead cAead_typed secF sAux secF_ok (by decide) sSnd buf60 _ 31 _).1
  (wrote (by decide +kernel))
example := C41_compressed_early sCfg secF sAux secF_ok rfl 7
example := C41_fits_phy sCfg cAead cAead_typed secF sAux secF_ok rfl sSnd buf60 31 (by decide +kernel)
example := (C41_too_long sCfg cAead cAead_typed (secAt .encmic32 (List.replicate 95 1)) _ (secAt_ok _ _) sSnd
  (List.replicate 200 7) (by decide +kernel)).1.2 (by decide +kernel)
example := (C42_enc_refused sCfg cAead cAead_typed (secAt .enc [1]) _ (secAt_ok _ _) rfl sSnd buf60).2 (by decide +kernel)
  (by decide) rfl (by decide +kernel)
example := C42_never_accepted sCfg cAead cAead_typed sAir sRcv oneDev ⟨3, false⟩ rF 27 (by decide +kernel) rAux rfl
example := C42_none_in_clear sCfg cAead cAead_typed (secAt .none [1]) _ (secAt_ok _ _) rfl sSnd buf60
  (by decide +kernel) (by decide +kernel)
/-- A frame cut inside its tag. -/
theorem xIn_short : PassesChecks sCfg sRcv oneDev ⟨3, false⟩ (sAir.take 27) xIn :=
  ⟨by decide +kernel, rfl, by decide, rfl, by decide, rfl, rfl, rfl, by decide, by decide⟩
example := (C43_panic_iff sCfg cAead cAead_typed (sAir.take 27) sRcv oneDev ⟨3, false⟩).2
  ⟨xIn, xIn_short, .inl (by decide +kernel)⟩
example := C44_explicit_no_context sCfg cAead plainF trivial buf60
example := C44_explicit_no_context sCfg cAead beaconF beacon_api buf60
example := (C44_explicit_panics_iff sCfg cAead secF trivial sSnd buf60).2 (by decide)
example := C44_none_never_panics sCfg cAead cAead_typed secF trivial (some sSnd) buf60
example := C45_no_context sCfg cAead sAir .none oneDev ⟨3, false⟩ rH 25 .data 0 (by headReads) (by decide)
example := C45_unsecured_alike sCfg cAead [0x02, 0x00, 7, 1, 2, 3] (by sliceFits) ⟨.none, some sRcv⟩ oneDev ⟨3, false⟩
  (by
    intro h n c m hd
    have h' : Header.tryRead sCfg [0x02, 0x00, 7, 1, 2, 3] = .ok (⟨.acknowledgement, false, false, false, false, false,
      .ieee802154_2003, 7, none, none, none⟩, 3) := by decide
    have := hd.1
    rw [h'] at this
    cases this
    decide)
/-- A counter below the one expected. -/
example := ((C46_read_refusals sCfg cAead cAead_typed sAir sRcv oneDev ⟨0x11111111, false⟩ rH 25 .data 0 (by headReads)
  rAux rfl).2.2.2.2 rfl (by decide) (by decide) rfl).2 _ rfl
example := C46_write_not_data sCfg cAead { secF with header := { secH with frameType := .acknowledgement } } (by decide)
  trivial (by decide) (by decide) sSnd buf60
/-- Nothing can be received secured, but plain frames are. -/
example := C47_no_security_read sCfg cAead cAead_typed [0x02, 0x00, 7, 1, 2, 3] sRcv
  (unimplementedDevLookup : DevLookup Unit) () (.inr rfl) _ _ (by rfl)
example := C47_no_security_write sCfg cAead cAead_typed secF sAux secF_ok (by decide) .none buf60 31
example := (C47_write_needs_key sCfg cAead cAead_typed secF sAux secF_ok (by decide) sRcv rfl .none buf60).2 (by decide)
  (by decide) rfl (by decide)
example := C48_aux_round_trip sCfg sAux sSnd buf60 _ 10 (by rfl) [1]
example := C48_counter_little sCfg rfl 7 sAux

end Verif.Witness
