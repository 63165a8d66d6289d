import Verif.Spec.FrameSpec
import Verif.Spec.BeaconSpec
import Verif.Spec.SecuritySpec
import Verif.Spec.HistorySpec

/-!
# Sample values

Values the theorems are applied to in the other files of this directory.  Each `example` there is one theorem applied
to concrete values, all of its hypotheses proved: none of them speaks of nothing.
-/

namespace Verif.Witness
open Spec

/-- A little-endian release build, a build with overflow checks, and a big-endian host. -/
def sCfg : Cfg := ⟨false, .w64, .little⟩
def dCfg : Cfg := ⟨true, .w64, .little⟩
def bCfg : Cfg := ⟨false, .w32, .big⟩

/-- A data frame's header with both addresses in one PAN, compressed. -/
def plainH : Header :=
  { frameType := .data, framePending := true, ackRequest := false, panIdCompress := true,
    seqNoSuppress := false, iePresent := false, version := .ieee802154_2006, seq := 77,
    destination := some (.short 0x1234 0x5678), source := some (.extended 0x1234 0x0102030405060708),
    auxSec := none }
/-- An auxiliary security header with a key source of four octets. -/
def sAux : AuxHeader := ⟨⟨.encmic32, .none⟩, 5, some ⟨some (.short 0xA1B2C3D4), 9⟩⟩
/-- The same header, secured. -/
def secH : Header := { plainH with auxSec := some sAux }
/-- The header of an acknowledgement. -/
def ackH : Header := ⟨.acknowledgement, false, false, false, false, false, .ieee802154_2003, 7, none, none, none⟩
def buf60 : List UInt8 := List.replicate 60 0xAA

/-- Values read from octets. -/
def gOf (bytes : List UInt8) : GtsInfo := match GtsInfo.tryRead bytes with | .ok (g, _) => g | _ => .new
def pOf (bytes : List UInt8) : PendingAddress :=
  match PendingAddress.tryRead bytes with | .ok (g, _) => g | _ => .new
/-- Two slots; one short and one extended address. -/
def gb : List UInt8 := [0x82, 0x02, 0x34, 0x12, 0x57, 0x78, 0x56, 0x13, 0x00]
def pb : List UInt8 := [0x11, 0x34, 0x12, 1, 2, 3, 4, 5, 6, 7, 8]
def sfs : SuperframeSpec := ⟨.beaconOrder 3, .superframeOrder 2, 9, true, false, true⟩
def beacon : Beacon := ⟨sfs, gOf gb, pOf pb⟩
/-- A realignment command without channel page. -/
def rd : CoordinatorRealignmentData := ⟨0x1234, 0x5678, 11, 0x9abc, none⟩

theorem sfs_range : SuperframeInRange sfs :=
  ⟨(by rintro v h; cases h; decide), (by rintro v h; cases h; decide), (by decide)⟩
theorem gb_api : GtsFromApi (gOf gb) := .read gb _ 8 (by decide +kernel)
theorem pb_api : PendingFromApi (pOf pb) := .read pb _ 11 (by decide +kernel)
theorem beacon_api : BeaconFromApi beacon := .mk _ _ _ gb_api pb_api
theorem plainH_pan : SamePan plainH := by rintro d s h1 h2; cases h1; cases h2; rfl

/-! ## A cipher whose outcome depends on everything given to it -/

def cksum (l : List UInt8) : UInt8 := l.foldl (fun s x => s * 5 + x + 1) 17
def ckey (k : Nat) (n : List UInt8) : UInt8 := cksum (UInt8.ofNat k :: n)
def cTag (t k : Nat) (n a b : List UInt8) : List UInt8 :=
  List.replicate t (ckey k n + cksum (n ++ [1] ++ a ++ [2] ++ b ++ [UInt8.ofNat t]))
def cAead : Aead Nat where
  encrypt t k n a b := (some (cTag t k n a b), b.map (· + ckey k n))
  decrypt t k n a c tag := (tag == cTag t k n a (c.map (· - ckey k n)), c.map (· - ckey k n))
theorem cmap1 (k : UInt8) (l : List UInt8) : (l.map (· + k)).map (· - k) = l := by
  induction l <;> simp_all [UInt8.add_sub_cancel]
theorem cmap2 (k : UInt8) (l : List UInt8) : (l.map (· - k)).map (· + k) = l := by
  induction l <;> simp_all [UInt8.sub_add_cancel]
theorem cAead_typed : AeadTyped cAead := by
  refine ⟨?_, ?_, ?_⟩
  · intros; simp [cAead]
  · intro t k n a b tag _ h
    simp only [cAead, Option.some.injEq] at h
    rw [← h]; simp [cTag]
  · intros; simp [cAead]
theorem cAead_laws : AeadLaws cAead := by
  refine ⟨cAead_typed, ?_, ?_, ?_, ?_⟩
  · intros; rfl
  · intro t k n a b tag c _ h
    simp only [cAead, Prod.mk.injEq, Option.some.injEq] at h
    obtain ⟨rfl, rfl⟩ := h
    simp only [cAead, cmap1, beq_self_eq_true]
  · intro t k n a b tag c _ _ h
    simp only [cAead, Prod.mk.injEq, beq_iff_eq] at h
    obtain ⟨rfl, rfl⟩ := h
    simp only [cAead, cmap2]
  · intro t k n a c tag tag' h h'
    simp only [cAead, beq_iff_eq] at h h'
    rw [h, h']

/-! ## Frames, a sender and a receiver -/

def sSnd : SecCtx Nat := ⟨0x0102030405060708, 0x01020304, fun m _ _ => if m = .dst then some (9, 5) else none⟩
def sRcv : SecCtx Nat := ⟨0, 0, fun m _ _ => if m = .src then some (0x0102030405060708, 5) else none⟩
def plainF : Frame := ⟨plainH, .data, [0xde, 0xf0], (0x12, 0x34)⟩
def beaconF : Frame := ⟨{ plainH with frameType := .beacon }, .beacon beacon, [0xde, 0xf0], (0x12, 0x34)⟩
def secF : Frame := ⟨secH, .data, [0xde, 0xf0], (0x12, 0x34)⟩
theorem secF_ok : SecuredData secF sAux := ⟨by decide, trivial, rfl, rfl⟩
/-- A table of one device. -/
def oneDev : DevLookup DeviceDescriptor := fun s m _ => if m = .src then (s, some (s, fun d => d)) else (s, none)
def oneTable : DeviceTable Unit oneDev where
  identify := fun _ => ()
  get := fun s _ => some s
  looking := fun _ m _ => by unfold oneDev; split <;> rfl
  found := fun _ _ => rfl
  stored := by
    intro s a d store h d'
    have h' : some (s, fun d : DeviceDescriptor => d) = some (d, store) := h
    cases h'
    rfl
  others := fun _ _ _ _ _ _ i hi => absurd rfl hi
/-- The auxiliary header and the header of the frame as received. -/
def rAux : AuxHeader := ⟨⟨.encmic32, .keySource4⟩, 0x01020304, some ⟨some (.short 0xA1B2C3D4), 9⟩⟩
def rH : Header := { plainH with auxSec := some rAux }
def rF : Frame := ⟨rH, .data, [0xde, 0xf0], (0, 0)⟩

/-- What the receiver works out about that frame. -/
def xIn : Incoming Nat DeviceDescriptor where
  header := rH
  headLength := 25
  aux := rAux
  eui := 0x0102030405060708
  key := 5
  source := .extended 0x1234 0x0102030405060708
  looked := ⟨3, false⟩
  device := ⟨3, false⟩
  store := fun d => d
/-- A frame at the given level, with the given counter and payload. -/
def auxAt (l : SecurityLevel) : AuxHeader := { sAux with control := ⟨l, .none⟩ }
def secAt (l : SecurityLevel) (payload : List UInt8) : Frame :=
  { secF with header := { secH with auxSec := some (auxAt l) }, payload := payload }
theorem secAt_ok (l : SecurityLevel) (payload : List UInt8) : SecuredData (secAt l payload) (auxAt l) := by
  refine ⟨?_, trivial, rfl, rfl⟩
  show Encodable { secH with auxSec := some (auxAt l) }
  cases l <;> decide
/-- Its octets on the air. -/
def airAt (l : SecurityLevel) (c : UInt32) (payload : List UInt8) : List UInt8 :=
  securedHead sCfg c (secAt l payload) ++
    match protect cAead l 5 (nonceOctets 0x0102030405060708 c l) payload with
    | some (b, t) => b ++ t
    | none => []
def sAir : List UInt8 := airAt .encmic32 0x01020304 [0xde, 0xf0]
theorem xIn_ok : PassesChecks sCfg sRcv oneDev ⟨3, false⟩ sAir xIn :=
  ⟨(by decide +kernel), rfl, by decide, rfl, by decide, rfl, rfl, rfl, by decide, by decide⟩
theorem sAir_verifies : Verifies cAead sAir xIn ((sAir.drop 25).take 2) (sAir.drop 27) [0xde, 0xf0] :=
  ⟨by decide +kernel, by decide +kernel, by decide +kernel⟩
instance : DecidablePred Secured := fun h => inferInstanceAs (Decidable (h.auxSec.isSome = true))

/-- A call that returned `n`, written out. -/
theorem wrote {ε α β γ : Type} {r : Out ε α × β × γ} {n : α} (h : r.1 = .ok n) : r = (.ok n, r.2.1, r.2.2) := by
  rw [← h]

theorem wrote₂ {ε α β : Type} {r : Out ε α × β} {n : α} (h : r.1 = .ok n) : r = (.ok n, r.2) := by
  rw [← h]

macro "sliceFits" : tactic => `(tactic| (unfold SliceFits; decide))
macro "headReads" : tactic => `(tactic| (unfold HeadReadable; decide +kernel))

end Verif.Witness
