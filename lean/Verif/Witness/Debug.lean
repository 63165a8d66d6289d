import Verif.Props.Debug

/-! Concrete cases for C108, spelled out as Rust prints them. -/

namespace Verif.Witness

open Spec

/-- A secured command frame, and what `{:?}` prints of it. -/
def printedFrame : Frame :=
  ⟨⟨.data, true, false, true, false, false, .ieee802154_2006, 205, some (.short 1 2),
      some (.extended 3 0xffffffffffffffff), some ⟨⟨.enc, .keyIndex⟩, 7, some ⟨some (.long 8), 3⟩⟩⟩,
    .command (.associationResponse 3 .successful), [1, 20, 255], (18, 52)⟩

example : debug printedFrame =
    c!"Frame { header: Header { frame_type: Data, frame_pending: true, ack_request: false, pan_id_compress: true, " ++
    c!"seq_no_suppress: false, ie_present: false, version: Ieee802154_2006, seq: 205, " ++
    c!"destination: Some(Short(PanId(1), ShortAddress(2))), " ++
    c!"source: Some(Extended(PanId(3), ExtendedAddress(18446744073709551615))), " ++
    c!"auxiliary_security_header: Some(AuxiliarySecurityHeader { control: SecurityControl { security_level: ENC, " ++
    c!"key_id_mode: KeyIndex }, frame_counter: 7, key_identifier: Some(KeyIdentifier { key_source: Some(Long(8)), " ++
    c!"key_index: 3 }) }) }, content: Command(AssociationResponse(ShortAddress(3), Successful)), " ++
    c!"payload: [1, 20, 255], footer: [18, 52] }" := by decide +kernel

/-- An error with a message that has to be escaped. -/
example : debug (SecErr.writeError (.badInput "a\"b\\")) = c!"WriteError(BadInput { err: \"a\\\"b\\\\\" })" := by
  decide +kernel

example : debug (DecodeError.invalidFrameType 4) = c!"InvalidFrameType(4)" ∧ debug ([] : List UInt8) = c!"[]" ∧
    debug (FrameContent.data) = c!"Data" := by decide +kernel

/-- Names may start alike: `ENC` and `ENCMIC32` are told apart only because they are set off from what follows. -/
example : debug SecurityLevel.enc ++ c!"MIC32" = debug SecurityLevel.encmic32 ++ [] ∧ ¬ SetsOff c!"MIC32" :=
  ⟨by decide +kernel, by show ¬ wordChar 'M' = false; decide +kernel⟩

/-- Numbers too. -/
example : debug (1 : UInt8) ++ c!"2" = debug (12 : UInt8) ++ [] ∧ SetsOff c!", " ∧ SetsOff [] :=
  ⟨by decide +kernel, by show wordChar ',' = false; decide +kernel, trivial⟩

/-- Frames that differ in the last octet of the footer only are printed differently. -/
example : debug printedFrame ≠ debug { printedFrame with footer := (18, 53) } := by
  intro h
  have := ((C108_frames printedFrame { printedFrame with footer := (18, 53) } [] [] trivial trivial).1 (by rw [h])).1
  revert this
  decide +kernel

/-- A log of two lines. -/
example : logOf [DecodeError.invalidValue, .invalidAddressMode 1] = c!"InvalidValue\nInvalidAddressMode(1)\n" := by
  decide +kernel

/-- Two logs of the same two errors in another order. -/
example : logOf [DecodeError.invalidValue, .invalidAddressMode 1] ≠
    logOf [DecodeError.invalidAddressMode 1, .invalidValue] := by
  intro h
  have := (C108_logs.2.2.2.2.1 _ _).1 h
  revert this
  decide +kernel

/-- A message that is printable, and one that is not but whose line break is escaped. -/
example : PrintableAscii (debug (SecErr.writeError (.badInput "InvalidKeyIdentifierMode"))) :=
  C108_printable_security _ (by rintro m h; cases h; decide +kernel)

end Verif.Witness
