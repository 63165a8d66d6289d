import Verif.Witness.Samples
import Verif.Props.Header
import Verif.Props.Beacon
import Verif.Props.Command
import Verif.Props.Writers
import Verif.Props.Frame
import Verif.Props.Enums
import Verif.Props.Decode
import Verif.Props.Equality

/-!
# Theorems C02 to C29 applied to concrete values
-/

namespace Verif.Witness
open Spec

/-! ## Headers -/

/-- Written without and with security. -/
example := C02_header_round_trip (κ := Nat) sCfg plainH none buf60 _ _ rfl [1, 2]
example := C02_header_round_trip bCfg secH (some sSnd) buf60 _ _ rfl [1, 2]
example := C02_header_round_trip_exact (κ := Nat) sCfg plainH none buf60 _ _ rfl rfl rfl (fun _ => plainH_pan) rfl [7]
example := C03_header_layout (κ := Nat) sCfg plainH none buf60 _ _ rfl
example := C03_header_layout sCfg secH (some sSnd) buf60 _ _ rfl
example := C03_header_layout_exists sCfg secH (some sSnd) (by decide) (fun _ => rfl) buf60 (by decide)
example := C04_flags_survive_iff (κ := Nat) sCfg { plainH with seqNoSuppress := true } none buf60 _ _ rfl []
example := C05_addresses_survive_iff (κ := Nat) sCfg plainH none buf60 _ _ rfl rfl _ _ rfl rfl []
/-- Compression into another PAN. -/
example := C05_addresses_survive_iff (κ := Nat) sCfg { plainH with source := some (.short 9 9) } none buf60 _ _ rfl
  rfl _ _ rfl rfl []
example := C05_compress_nodest_refused sCfg 0x41 0x80 0 [1, 2] (by decide) (by decide) (by decide) (by decide)
  (by decide)
example := C05_compress_read sCfg [0x41, 0xCC, 7, 1, 2, 1, 1, 1, 1, 1, 1, 1, 1, 1, 1, 1, 1, 1, 1, 1, 1] _ _ rfl rfl
example := C05_compress_refused_iff (κ := Nat) sCfg { plainH with destination := none } none buf60 (by decide)
example := C05_compress_saves_two (κ := Nat) sCfg plainH none buf60 _ buf60 _ _ _ rfl rfl rfl
example := C06_header_read_congr sCfg [0x02, 0x00, 7, 9] [0x02, 0x00, 7] _ _ rfl rfl
example := C06_header_read_local sCfg [0x41, 0x88, 7, 1, 2, 3, 4, 5, 6, 9] _ _ rfl
example := C08_header_reencode (κ := Nat) sCfg none [0x11, 0x03, 7, 8] _ _ rfl rfl (by decide) buf60 (by decide)
/-- Compression without source is read but cannot be written. -/
example := C08_refused_iff sCfg [0x41, 0x08, 7, 1, 2, 3, 4] _ _ rfl
example := C08_secured_reencode sCfg sSnd [0x09, 0x90, 0, 1, 0, 2, 0, 1, 9, 0, 0, 0] _ _ _ rfl rfl (by decide) buf60
  (by decide)
example := C09_octet_size (κ := Nat) sCfg plainH none buf60 _ _ rfl
example := C09_octet_size sCfg secH (some sSnd) buf60 _ _ rfl
example := C09_octet_size_exact_iff (κ := Nat) sCfg { plainH with panIdCompress := false } none buf60 _ _ rfl

/-! ## Writers -/

example := C10_contained sCfg cAead cAead_typed
example := C10_at_offset _ ((C10_contained sCfg cAead cAead_typed).1 secH (some sSnd)) buf60 3
example := C11_frames sCfg cAead plainF ⟨.explicit, none⟩ rfl (by decide) trivial (.inl rfl)
example := C11_frames sCfg cAead beaconF ⟨.none, some sSnd⟩ rfl (by decide) beacon_api (.inr rfl)
example := C11_iff_room _ _ (C11_frames sCfg cAead plainF ⟨.explicit, none⟩ rfl (by decide) trivial (.inl rfl)) buf60

/-! ## Beacons -/

example := C12_superframe_reencode 0x23 0xB9 [] buf60 (by decide)
example := C12_superframe_round_trip sfs sfs_range buf60 _ _ rfl [1]
example := C12_superframe_truncation { sfs with finalCapSlot := 77 } buf60 _ _ rfl [1]
example := C13_gts_round_trip (gOf gb) gb_api buf60 ((gOf gb).tryWrite buf60).2 8 (by decide +kernel) [0] (by decide)
example := C14_gts_needs_spare_octet (gOf gb) gb_api buf60 ((gOf gb).tryWrite buf60).2 8 (by decide +kernel)
example := C15_pending_round_trip (pOf pb) pb_api buf60 ((pOf pb).tryWrite buf60).2 11 (by decide +kernel) [3]
example := C16_beacon_round_trip beacon beacon_api sfs_range buf60 (beacon.tryWrite buf60).2 21 (by decide +kernel) [3]
example := C16_beacon_written beacon beacon_api buf60 (by decide +kernel)
example := C17_beacon_values beacon beacon_api

/-! ## Commands -/

example := C18_command_round_trip (.associationResponse 0x1234 .fastAssociationSuccesful) trivial buf60 _ _ rfl [9]
  (fun h => by cases h)
example := C18_command_round_trip (.coordinatorRealignment rd) trivial buf60 _ _ rfl [] (fun _ => rfl)
example := C18_gts_count_truncated ⟨0x19, true, true⟩ buf60 _ _ rfl []
example := C20_realignment_swallows rd rfl buf60 _ _ rfl 5 [1, 2]
example := C22_integer_comparison C22_command_id 3 .disassociationNotification

/-! ## Unsecured frames -/

example := C23_C24_frame_round_trip sCfg cAead plainF ⟨.explicit, none⟩ _ buf60 _ 19 rfl (.inl rfl) trivial rfl trivial
  (by sliceFits) (wrote (by decide +kernel))
example := C23_C24_plain_write sCfg cAead plainF ⟨.none, some sSnd⟩ rfl (by decide) trivial (.inr rfl) buf60 (by decide)
example := C23_round_trip_no_footer sCfg cAead plainF none buf60 _ 17 _ rfl rfl rfl (fun _ => plainH_pan) trivial rfl
  trivial (by sliceFits) (wrote (by decide +kernel))
example := C24_round_trip_explicit sCfg cAead plainF buf60 _ 19 _ rfl rfl rfl (fun _ => plainH_pan) trivial rfl
  trivial (by sliceFits) (wrote (by decide +kernel))
example := C25_explicit_panic_iff dCfg [0x02, 0x00, 7, 1] (by sliceFits)
example := C25_no_footer_no_panic dCfg [0x02, 0x00, 7, 1] (by sliceFits)
example := C26_accepts sCfg .explicit [0x02, 0x00, 7, 1, 2] (by sliceFits) ackH 3 .acknowledgement 0 (by headReads) rfl
  (by decide)
example := C26_accounts sCfg .explicit [0x02, 0x00, 7, 9, 0x12, 0x34] (by sliceFits) _ _ rfl
example := C27_never_secured sCfg .none [0x02, 0x00, 7, 9, 0x12, 0x34] (by sliceFits) _ _ rfl
example := C27_security_bit sCfg 0x09 0x00 [7, 0x05, 1, 2, 3, 4] _ _ rfl
example := C27_security_enabled sCfg .none [0x09, 0x00, 7, 0x05, 1, 2, 3, 4] (by sliceFits)
  ⟨.data, false, false, false, false, false, .ieee802154_2003, 7, none, none, some ⟨⟨.encmic32, .none⟩, 0x04030201, none⟩⟩
  8 .data 0 (by headReads) rfl
example := C28_missing_context sCfg cAead secF .none rfl (by decide) buf60 (by decide)
example := C28_no_context_no_frame sCfg cAead secF .none rfl buf60
example := C29_content_matches sCfg .none [0x02, 0x00, 7, 1] (by sliceFits) _ _ rfl
/-- A data frame that carries a command as content. -/
example := C29_mismatch_becomes_payload sCfg cAead { plainF with content := .command .dataRequest } ⟨.none, none⟩ _
  buf60 _ 18 rfl (.inl rfl) trivial ⟨(by decide), (by decide)⟩ (by sliceFits) (wrote (by decide +kernel))
example := C29_mismatch_reread sCfg cAead { plainF with header := { plainH with frameType := .macCommand } }
  ⟨.none, none⟩ _ buf60 _ 17 rfl (.inl rfl) trivial (by sliceFits) (wrote (by decide +kernel))

end Verif.Witness
