import Verif.Props.Hash
import Verif.Witness.Securing
import Verif.Props.Ccm
import Verif.Props.Decode
import Verif.Props.DecodeFrame
import Verif.Props.Accounts
import Verif.Props.CcmRfc
import Verif.Props.Cipher
import Verif.Props.Hosts
import Verif.Props.Relay
import Verif.Props.Equality
import Verif.Props.Restart
import Verif.Props.Receiver
import Verif.Props.Channel
import Verif.Props.EnumMacro
import Verif.Props.Copies
import Verif.Props.Application
import Verif.Props.Node
import Verif.Props.DeviceList

/-!
# Theorems C49 to C74 applied to concrete values
-/

namespace Verif.Witness
open Spec

/-! ## Packets late, twice and with junk between them -/

def twoCalls : List WriteCall :=
  [⟨sampleSecured, .none, List.replicate 40 0⟩, ⟨sampleSecured, .none, List.replicate 40 0⟩]
def twoDeliveries : List (Delivery Nat) :=
  [.packet 1 (sampleReceivedAt 5) sampleReceiver, .other ⟨[1, 2, 3], ⟨.none, none⟩⟩, .packet 0 sampleReceived sampleReceiver]
theorem twoCalls_receivable (p : Nat) (call : WriteCall) (h : twoCalls[p]? = some call) :
    Receivable sampleTable () sampleSender sampleReceiver call := by
  have hc : call ∈ twoCalls := List.mem_of_getElem? h
  have : call = ⟨sampleSecured, .none, List.replicate 40 0⟩ := by simpa [twoCalls] using hc
  subst this
  exact ⟨rfl, rfl, by decide, sampleAux, sampleSecured_ok, by decide, _, rfl, rfl, _, _, rfl, rfl⟩
theorem junk_refused (s : DeviceDescriptor) (f : Frame) (k : Nat) :
    (Frame.tryReadAndUnsecure sampleCfg sampleAead [1, 2, 3] (⟨.none, none⟩ : SerDesCtx Nat) sampleLookup s).1 = .ok (f, k) →
    f.header.source = none := by
  intro h
  have h' : (Frame.tryReadAndUnsecure sampleCfg sampleAead [1, 2, 3] (⟨.none, none⟩ : SerDesCtx Nat) sampleLookup s).1 =
    (Frame.tryRead sampleCfg .none [1, 2, 3]).mapErr SecErr.writeError := by
    rw [C45_unsecured_alike sampleCfg sampleAead [1, 2, 3] (by sliceFits) ⟨.none, none⟩ sampleLookup s (by
      intro h n c m hd
      have h' : (match Header.tryRead sampleCfg [1, 2, 3] with | .ok (h, _) => h.auxSec.isNone | _ => true) = true := by
        decide +kernel
      rw [hd.1] at h'
      simp only [Option.isNone_iff_eq_none] at h'
      simp [Secured, h'])]
  rw [h'] at h
  cases hr : Frame.tryRead sampleCfg .none [1, 2, 3] with
  | ok r =>
    have h2 : (match Frame.tryRead sampleCfg .none [1, 2, 3] with | .ok (f, _) => f.header.source.isNone | _ => true) = true := by
      decide +kernel
    rw [hr] at h h2
    simp only [Out.mapErr, Out.ok.injEq] at h
    subst h
    exact Option.isNone_iff_eq_none.1 h2
  | err e => rw [hr] at h; cases h
  | panic => rw [hr] at h; cases h

/-- The second packet, junk, then the first packet. -/
example := C49_delivery (cfg := sampleCfg) (rcfg := sampleCfg) (aead := sampleAead) (table := sampleTable) (i := ())
  (sc := sampleSender) (calls := twoCalls) rfl rfl sampleAead_laws ⟨3, false⟩ ⟨3, false⟩ rfl (by decide) twoDeliveries
  (by
    intro p octets rc h
    simp only [twoDeliveries, List.mem_cons, List.not_mem_nil, or_false, reduceCtorEq, false_or, Delivery.packet.injEq] at h
    rcases h with ⟨rfl, rfl, rfl⟩ | ⟨rfl, rfl, rfl⟩
    · exact ⟨by decide +kernel, fun call hc => twoCalls_receivable 1 call hc⟩
    · exact ⟨by decide +kernel, fun call hc => twoCalls_receivable 0 call hc⟩)
  (by
    intro before call after f c h hacc hfrom
    have hc : Delivery.other call ∈ twoDeliveries := by rw [h]; simp
    simp only [twoDeliveries, List.mem_cons, List.not_mem_nil, or_false, reduceCtorEq, false_or,
      Delivery.other.injEq] at hc
    subst hc
    obtain ⟨-, k, hacc⟩ := hacc
    obtain ⟨src, -, hs, -⟩ := hfrom
    rw [junk_refused _ f k hacc] at hs
    cases hs)
  [.packet 1 (sampleReceivedAt 5) sampleReceiver, .other ⟨[1, 2, 3], ⟨.none, none⟩⟩] [] 0 sampleReceived sampleReceiver rfl

/-! ## CCM* -/

example := C50_ccm_round_trip (κ := Nat) (fun k b => b.map (· + UInt8.ofNat k)) 4 (.inl rfl) 5 sNonce [1] [9, 9, 9] (by decide)
example := C50_ccm_tag_unique (κ := Nat) (fun k b => b.map (· + UInt8.ofNat k)) 4 5 sNonce []
  ((Ccm.aead (fun (k : Nat) b => b.map (· + UInt8.ofNat k))).encrypt 4 5 sNonce [] [9, 9, 9]).2
  (((Ccm.aead (fun (k : Nat) b => b.map (· + UInt8.ofNat k))).encrypt 4 5 sNonce [] [9, 9, 9]).1.getD [])
  (((Ccm.aead (fun (k : Nat) b => b.map (· + UInt8.ofNat k))).encrypt 4 5 sNonce [] [9, 9, 9]).1.getD [])
  (by decide +kernel) (by decide +kernel)

/-! ## Reading octets -/

example := C51_accessors beacon beacon_api
example := C51_header_fields sCfg 0x41 0xCC 7 ([1, 2] ++ List.replicate 16 1) _ _ rfl
example := C52_beacons [beacon, beacon] (by intro b h; simp at h; subst h; exact ⟨beacon_api, sfs_range⟩) buf60 _ 42
  (wrote₂ (by decide +kernel)) [1]
example := C52_commands [.beaconRequest, .associationResponse 0x1234 .accessDenied, .dataRequest]
  (by
    intro c h
    simp only [List.mem_cons, List.not_mem_nil, or_false] at h
    rcases h with rfl | rfl | rfl <;> exact ⟨by unfold CommandInRange; decide, fun h => by cases h⟩)
  buf60 _ _ (by rfl) [1]
example := C52_gts [gOf gb, gOf gb] (by intro g h; simp at h; subst h; exact gb_api) buf60 _ _ (by rfl) [1] (by decide)
example := C52_headers sCfg (some sSnd) [secH, plainH, ackH] buf60 _ _ (by rfl) [1]
example := C52_in_turn_is_shared_offset [secH.tryWrite sCfg (some sSnd), plainH.tryWrite sCfg (some sSnd)]
  (by
    intro w h
    simp only [List.mem_cons, List.not_mem_nil, or_false] at h
    rcases h with rfl | rfl <;> exact (C10_contained sCfg cAead cAead_typed).1 _ _) buf60
example := C52_in_turn_is_shared_read (Header.tryRead sCfg)
  (fun bytes h n hr => ((C01_header_read_total sCfg bytes).2 h n hr).2) 3 [0x02, 0, 1, 0x02, 0, 2, 0x02, 0, 3]
example := C52_pending [pOf pb, pOf pb] (by intro g h; simp at h; subst h; exact pb_api) buf60 _ _ (by rfl) [1]
example := C52_superframes [sfs, sfs] (by intro g h; simp at h; subst h; exact sfs_range) buf60 _ _ (by rfl) [1]
example := C53_beacons beacon beacon ⟨beacon_api, sfs_range⟩ ⟨beacon_api, sfs_range⟩ buf60 _ (List.replicate 50 1) _ _ _ rfl rfl
  (by decide)
example := C53_commands (.coordinatorRealignment rd) (.coordinatorRealignment { rd with channelPage := some 7 })
  (by unfold CommandInRange; decide) (by unfold CommandInRange; decide) buf60 _ (List.replicate 50 1) _ _ _ rfl rfl (by decide)
example := C53_frames (κ := Nat) sCfg cAead beaconF beaconF ⟨.explicit, none⟩ _ ⟨.explicit, none⟩ _ rfl buf60 _
  (List.replicate 50 1) _ 40 40 rfl rfl (.inl rfl) (.inl rfl) beacon_api beacon_api ⟨beacon, rfl⟩ ⟨beacon, rfl⟩
  sfs_range sfs_range (by sliceFits) (by sliceFits) (wrote (by decide +kernel)) (wrote (by decide +kernel))
  (by decide +kernel)
example := C53_headers (κ := Nat) sCfg secH secH (some sSnd) (some sSnd) buf60 _ (List.replicate 50 1) _ _ _ rfl rfl (by decide)
example := C53_headers_exact sCfg Nat plainH plainH buf60 _ (List.replicate 50 1) _ _ _ rfl rfl
  ⟨rfl, rfl, fun _ => plainH_pan⟩ ⟨rfl, rfl, fun _ => plainH_pan⟩ (by decide)

/-! ## Accounts of the secured calls -/

example := C55_no_room_for_head sCfg cAead secF sAux secF_ok sSnd .none [1, 2, 3, 4, 5, 6, 7] (by decide)
example := C55_sending_account sCfg cAead cAead_typed secF sAux secF_ok sSnd buf60 (by decide)
example := C56_receiving_account sCfg cAead cAead_typed sAir sRcv oneDev ⟨3, false⟩ rH 25 .data 0 (by headReads) rAux rfl

/-! ## The cipher -/

def uAead : Aead Nat := Ccm.aead unimplementedCipher
example := C58_keyless_write sCfg uAead (fun _ => 7) (fun _ _ _ _ _ => rfl) secF .none sSnd buf60
example := C58_keyless_read sCfg uAead (fun _ => 7) (fun _ _ _ _ _ _ => rfl) sAir .none sRcv oneDev ⟨3, false⟩
example := C58_any_key_reads sCfg dCfg rfl rfl secF sAux secF_ok rfl (by decide) (by decide) sSnd buf60 _ 31 _
  (wrote (by decide +kernel)) (⟨0, 0, fun _ _ _ => some (0x0102030405060708, 77)⟩ : SecCtx Nat) oneDev ⟨3, false⟩ ⟨3, false⟩ _
  ⟨3, false⟩ _ rfl 77 rfl rfl (by decide)
example := C58_octets_in_clear sCfg secF sAux secF_ok (by decide) sSnd buf60 31 (by decide +kernel)
example := C59_first_inputs sNonce sNonce rfl rfl 4 8 (by decide) (by decide) [] [1] [1, 2] [] (by decide) (by decide)
example := C59_keystream_inputs sNonce sNonce rfl rfl 1 65535 (by decide) (by decide)
example := C59_positions (fun x => x) 4 sNonce [] (List.replicate 20 7) _ _ rfl

/-! ### Three writes in one history -/

def cx (c : UInt32) : SecCtx Nat := { sSnd with frameCounter := c }
theorem cx_call (c : UInt32) (h : c ≠ maxCounter) : contextAfterCall sCfg cAead (cx c) sCall = cx (c + 1) := by
  unfold contextAfterCall sCall
  obtain ⟨b, h⟩ := C34_write_succeeds sCfg cAead cAead_laws secF sAux secF_ok (by decide) (cx c) h (by decide)
    5 9 rfl buf60 (by show 31 ≤ 60; decide)
  rw [h]
  rfl
theorem cx_one : contextAfter sCfg cAead sSnd [sCall] = cx 0x01020305 := cx_call 0x01020304 (by decide)
theorem cx_two : contextAfter sCfg cAead sSnd [sCall, sCall] = cx 0x01020306 := by
  show contextAfterCall sCfg cAead (contextAfter sCfg cAead sSnd [sCall]) sCall = _
  rw [cx_one]; exact cx_call _ (by decide)
theorem cx_uses (c : UInt32) (h : c ≠ maxCounter) : UsesNonce sCfg (cx c) sCall (nonceOctets 0x0102030405060708 c .encmic32) := by
  obtain ⟨b, hb⟩ := C34_write_succeeds sCfg cAead cAead_laws secF sAux secF_ok (by decide) (cx c) h (by decide)
    5 9 rfl buf60 (by show 31 ≤ 60; decide)
  exact uses_at (cx c) _ (congrArg Prod.fst hb)

example := C59_no_keystream_reuse sCfg cAead cAead_typed sSnd [] [sCall] sCall sCall _ _ sSnd_uses
  (by
    show UsesNonce sCfg (contextAfter sCfg cAead sSnd [sCall, sCall]) _ _
    rw [cx_two]
    exact cx_uses _ (by decide)) 1 1 (by decide) (by decide)
example := C60_unsecured_unlimited sCfg cAead plainH (by decide) rfl 1000000

/-! ## Hosts of different byte order -/

def bRcv : SecCtx Nat := ⟨0, 0, fun m k _ => if m = .src ∧ k = some ⟨some (.short 0xD4C3B2A1), 9⟩ then
  some (0x0102030405060708, 5) else none⟩
example := C61_header_across bCfg sCfg secH (some sSnd) buf60 _ _ rfl [1]
example := C61_unsecured_across bCfg sCfg 7 plainH rfl
example := C61_key_source_across .big .little (by decide)
/-- From a little-endian to a big-endian host, which finds the key under the reversed source. -/
example := C61_round_trip_across sCfg bCfg cAead cAead_laws secF sAux secF_ok rfl (by decide) (by decide) sSnd buf60 _ 31 _
  (wrote (by decide +kernel)) (.inl rfl) 5 9 rfl bRcv oneDev ⟨3, false⟩ ⟨3, false⟩ _ ⟨3, false⟩ _ rfl (by decide) rfl (by decide)
example := C61_accepted_across_iff bCfg sCfg cAead cAead_laws secF sAux secF_ok rfl (by decide) (by decide) sSnd buf60 _ 31 _
  (wrote (by decide +kernel)) 5 9 rfl bRcv oneDev ⟨3, false⟩ ⟨3, false⟩ _ ⟨3, false⟩ _ rfl 5 0x0102030405060708 (by decide) rfl
  (by decide) (by decide) (by decide) [0xde, 0xf0]
example := C61_key_not_found sCfg sCfg cAead cAead_typed secF sAux secF_ok rfl (by decide) (by decide) sSnd buf60 _ 31 _
  (wrote (by decide +kernel)) bRcv oneDev ⟨3, false⟩ (by decide)

/-! ## Whole frames -/

def cmdAir : List UInt8 := [0x03, 0x08, 7, 0x34, 0x12, 0x78, 0x56, 9, 0xF5, 0xAA, 1, 2]
theorem cmdAir_read : ∃ f k, Frame.tryRead sCfg .explicit cmdAir = .ok (f, k) ∧ k = 12 ∧ Encodable f.header := by
  have h : (match Frame.tryRead sCfg .explicit cmdAir with | .ok (f, k) => decide (k = 12 ∧ Encodable f.header) | _ => false) = true := by
    decide +kernel
  cases hr : Frame.tryRead sCfg .explicit cmdAir with
  | ok r => rw [hr] at h; exact ⟨r.1, r.2, rfl, of_decide_eq_true h⟩
  | err e => rw [hr] at h; cases h
  | panic => rw [hr] at h; cases h
example : ∃ f, FrameOnWire sCfg .explicit f cmdAir := by
  obtain ⟨f, k, h, -⟩ := cmdAir_read
  have h2 := ((C62_frame sCfg .explicit cmdAir (by sliceFits) f k).1 h).2
  have := C62_frame_unique sCfg .explicit cmdAir (by sliceFits) f f h2 h2
  exact ⟨f, h2⟩
example : True := by
  obtain ⟨f, k, h, rfl, he⟩ := cmdAir_read
  have := C63_relay sCfg cAead ⟨.explicit, none⟩ cmdAir (by sliceFits) f 12 h he (.inl rfl) buf60 (by decide)
  have := C63_relay_stable sCfg cAead ⟨.explicit, none⟩ cmdAir (by sliceFits) f 12 h he (.inl rfl) buf60 (by decide)
    (by sliceFits)
  have := C63_refused_iff sCfg .explicit cmdAir (by sliceFits) f 12 h
  trivial
example := C64_beacon beacon ⟨sfs, .new, .new⟩ beacon_api (.mk _ _ _ .new .new)
example := C98_beacons_by_what_they_show sCfg beacon ⟨sfs, .new, .new⟩ beacon_api (.mk _ _ _ .new .new)
example := C64_gts (gOf gb) .new gb_api .new
example := C64_pending (pOf pb) .new pb_api .new

/-! ## Restarts -/

def sess (c : UInt32) : Session Nat := ⟨sCfg, cAead, cx c, [sCall, sCall]⟩
example := C65_reserve_ahead (sess 7) cAead_typed 100 (by decide)
example := C65_restart_safe [sess 7, sess 9, sess 100]
  (by intro s h; simp at h; rcases h with rfl | rfl | rfl <;> exact cAead_typed)
  (by
    have hstop : (sess 7).stop.frameCounter ≤ 9 := C65_reserve_ahead (sess 7) cAead_typed 9 (by decide)
    have hstop' : (sess 9).stop.frameCounter ≤ 100 := C65_reserve_ahead (sess 9) cAead_typed 100 (by decide)
    have hstop'' : (sess 7).stop.frameCounter ≤ 100 := C65_reserve_ahead (sess 7) cAead_typed 100 (by decide)
    refine .cons ?_ (.cons ?_ (.cons (by simp) .nil))
    · intro t h; simp at h; rcases h with rfl | rfl
      · exact hstop
      · exact hstop''
    · intro t h; simp at h; subst h; exact hstop')
/-- Two frames under one counter. -/
example := C65_reuse_leaks (κ := Nat) sCfg sCfg (fun k b => b.map (· + UInt8.ofNat k)) secF (secAt .encmic32 [1, 2]) sAux _ secF_ok
  (secAt_ok _ _) (by decide) rfl sSnd sSnd rfl rfl 9 9 5 rfl rfl buf60 buf60 _ _ 31 31 _ _ (wrote (by decide +kernel))
  (wrote (by decide +kernel))
example := C66_counter_is_all sCfg cAead cAead_typed oneDev oneDev oneTable ⟨3, false⟩ ⟨0x11111111, false⟩
  ⟨sAir, ⟨.none, some sRcv⟩⟩ rF sAir_accepted
example := C66_set_back_replays sCfg cAead cAead_typed oneDev oneTable ⟨3, false⟩ ⟨2, true⟩ ⟨sAir, ⟨.none, some sRcv⟩⟩ rF
  sAir_accepted () 0x01020304 ⟨_, _, rfl, rfl, rfl, rfl⟩ ⟨2, true⟩ rfl (by decide) (by decide)
example := C67_nonce_accepted_once sCfg cAead cAead_typed oneDev oneTable ⟨3, false⟩ [] [] ⟨sAir, ⟨.none, some sRcv⟩⟩
  ⟨airAt .encmic32 0x01020309 [0xde, 0xf0], ⟨.none, some sRcv⟩⟩ rF _ [sRcv] (fun _ _ _ _ _ _ _ _ _ _ _ _ _ => rfl)
  (by rintro sc h; cases h; simp) (by rintro sc h; cases h; simp) 0x0102030405060708 0x0102030405060708 0x01020304 0x01020309
  ⟨sAir_accepted, sRcv, rAux, 5, rfl, rfl, rfl, rfl⟩
  ⟨later_accepted _ after_sAir, sRcv, { rAux with frameCounter := 0x01020309 }, 5, rfl, rfl, rfl, rfl⟩
  (.inr ⟨by decide, by rintro (_ | _) call later f h <;> cases h⟩)
/-- The same frame again under the other address of its sender. -/
example := C67_other_address_replays sampleCfg sampleAead sampleAead_typed (listLookup id) (listTable id) twoDevices
  twoDevices (sampleReceivedAt 4) sampleReceivedShort sampleSender (sampleAccepted 4) 9 5 _ ⟨rfl, 27, by decide +kernel⟩ rfl rfl
  25 19 sampleShortHeader ⟨⟨.encmic32, .keySource4⟩, 0x01020304, some ⟨some (.short 0xA1B2C3D4), 9⟩⟩ _ (by decide +kernel)
  (by decide +kernel) rfl (by decide) rfl rfl rfl rfl rfl (by decide +kernel) ⟨4, false⟩ (by decide +kernel) (by decide) (by decide)

/-! ## A channel -/

example := C68_sent_increasing sampleCfg sampleAead sampleAead_typed sampleSender [channelCall 1, channelCall 2, channelCall 3]
example := C68_accepted_increasing sampleCfg sampleCfg sampleAead sampleAead_laws sampleTable () sampleSender _ _ ⟨3, false⟩
  channel_no_forgery
example := C68_channel sampleCfg sampleCfg sampleAead sampleAead_laws sampleTable () sampleSender _ _ ⟨3, false⟩
  channel_no_forgery

/-! ## The enumeration macro -/

def tbl : List (Bool × Nat) := [(false, 7), (true, 9)]
theorem tbl_ok : EnumTable tbl := ⟨by decide, by decide⟩
example := C69_into tbl tbl_ok true
example := C69_from tbl tbl_ok 9
example := C69_round_trip tbl tbl_ok
example := C69_compare tbl tbl_ok 9 true

/-! ## Copies, changes by the application, both directions -/

example := C70_copies_collide sCfg cAead cAead_typed sSnd [] [] sCall sCall sAux sAux secF_ok secF_ok (by decide) (by decide) rfl rfl
  31 31 (by decide +kernel) (by decide +kernel)
example := C70_copy_leaks (κ := Nat) sCfg (fun k b => b.map (· + UInt8.ofNat k)) secF (secAt .encmic32 [1, 2]) sAux _ secF_ok
  (secAt_ok _ _) (by decide) rfl sSnd 9 9 5 rfl rfl buf60 buf60 _ _ 31 31 _ _ (wrote (by decide +kernel)) (wrote (by decide +kernel))
/-- A device's flag is changed between two receptions. -/
example := C71_changes_allowed sCfg cAead oneDev oneTable cAead_typed ⟨3, false⟩ [] [.change fun d => { d with exempt := true }]
  ⟨sAir, ⟨.none, some sRcv⟩⟩ ⟨airAt .encmic32 0x01020309 [0xde, 0xf0], ⟨.none, some sRcv⟩⟩ rF
  { rF with header := { rH with auxSec := some { rAux with frameCounter := 0x01020309 } } } () 0x01020304 0x01020309
  sAir_accepted ⟨by decide, 27, by decide +kernel⟩ ⟨_, _, rfl, rfl, rfl, rfl⟩ ⟨_, _, rfl, rfl, rfl, rfl⟩
  (.inr ⟨by decide, by
    rintro (_ | ⟨a, _ | _⟩) call later f h <;> cases h⟩)
  (by
    rintro (_ | ⟨a, _ | _⟩) u later h
    · cases h
      intro d' hd'
      exact .inr (by
        have : stateAfter sCfg cAead oneDev ⟨3, false⟩ ([] ++ .receive (⟨sAir, ⟨.none, some sRcv⟩⟩ : ReadCall Nat) :: []) =
          ⟨0x01020305, false⟩ := by decide +kernel
        rw [this] at hd'
        cases hd'
        decide)
    · cases h
    · cases h)
example := C72_only_counters sCfg cAead oneTable oneTable rfl ⟨3, true⟩ ⟨3, false⟩ (by intro i; rfl) sAir ⟨.none, some sRcv⟩
example := C72_histories sCfg cAead oneTable oneTable rfl
  [⟨sAir, ⟨.none, some sRcv⟩⟩, ⟨badAir, ⟨.none, some sRcv⟩⟩] ⟨3, true⟩ ⟨3, false⟩ (by intro i; rfl)
/-- The counter raised by the application between two writes. -/
example := C73_nonce_never_reused sCfg cAead cAead_typed sSnd [] [.change fun _ => cx 0x02000000] sCall sCall _ _ sSnd_uses
  (cx_uses 0x02000000 (by decide))
  (by
    rintro (_ | ⟨a, _ | _⟩) u later h
    · cases h
      exact fun _ => .inr (show (0x01020304 : UInt32) < 0x02000000 by decide)
    · cases h
    · cases h)
/-- The counter set back. -/
example := C73_lowered_reuses sCfg cAead cAead_typed sSnd [] [.change fun _ => sSnd] sCall sCall sAux sAux secF_ok secF_ok (by decide)
  rfl rfl rfl 31 31 (by decide +kernel) (by decide +kernel) rfl rfl
example := C74_no_interference sCfg cAead oneDev cAead_typed [.send sCall, .receive .none sAir] sSnd ⟨3, false⟩
example := C74_reception_uses_keys_only sCfg cAead oneDev sAir .none sRcv { sRcv with frameCounter := 77 } ⟨3, false⟩ rfl

end Verif.Witness
