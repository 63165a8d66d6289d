import Verif.Props.Receiver
import Verif.Props.Restart

/-!
# A table of many devices: witnesses for C35–C37, C49, C66, C67 (and C65)

A device lookup over a list of named descriptors, `identify` naming the device of an address, is a
`DeviceTable`; so the theorems about tables apply to it for every number of devices.
-/

namespace Verif
open Spec

/-- Replace the descriptor of one device. -/
def listStore {ι : Type} [DecidableEq ι] (i : ι) (s : List (ι × DeviceDescriptor)) (d : DeviceDescriptor) :
    List (ι × DeviceDescriptor) :=
  s.map fun p => if p.1 = i then (p.1, d) else p

/-- Look a device up in a list. -/
def listLookup {ι : Type} [DecidableEq ι] (identify : Address → ι) : DevLookup (List (ι × DeviceDescriptor)) :=
  fun s _ a => (s, (s.lookup (identify a)).map fun d => (d, listStore (identify a) s))

theorem lookup_listStore {ι : Type} [DecidableEq ι] (i j : ι) (s : List (ι × DeviceDescriptor)) (d : DeviceDescriptor) :
    (listStore i s d).lookup j = if j = i then (s.lookup j).map fun _ => d else s.lookup j := by
  induction s with
  | nil => simp [listStore]
  | cons p s ih =>
    have ih' : (List.map (fun p => if p.1 = i then (p.1, d) else p) s).lookup j = _ := ih
    rcases p with ⟨k, e⟩
    simp only [listStore, List.map_cons]
    by_cases hki : k = i
    · subst hki
      simp only [if_true, List.lookup_cons, ih']
      by_cases hjk : j = k
      · subst hjk; simp
      · have : (j == k) = false := by simpa using hjk
        simp [this, hjk]
    · simp only [hki, if_false, List.lookup_cons, ih']
      by_cases hjk : j = k
      · subst hjk; simp [hki]
      · have : (j == k) = false := by simpa using hjk
        simp [this]

/-- The list is a device table. -/
def listTable {ι : Type} [DecidableEq ι] (identify : Address → ι) : DeviceTable ι (listLookup identify) where
  identify := identify
  get := fun s i => s.lookup i
  looking := fun _ _ _ => rfl
  found := by
    intro s a
    simp only [listLookup, Option.map_map]
    cases s.lookup (identify a) <;> rfl
  stored := by
    intro s a d store h d'
    simp only [listLookup, Option.map_eq_some_iff, Prod.mk.injEq] at h
    obtain ⟨e, he, _, rfl⟩ := h
    rw [lookup_listStore, if_pos rfl, he]; rfl
  others := by
    intro s a d store h d' i hi
    simp only [listLookup, Option.map_eq_some_iff, Prod.mk.injEq] at h
    obtain ⟨e, he, _, rfl⟩ := h
    rw [lookup_listStore, if_neg hi]

/-- Two devices, named by their addresses: 0x0102030405060708 and 1, both in PAN 0x1234. -/
def twoDevices : List (Address × DeviceDescriptor) :=
  [(.extended 0x1234 0x0102030405060708, ⟨3, false⟩), (.short 0x1234 1, ⟨4, false⟩)]

/-- The sample frame with short source address 1. -/
def sampleReceivedShort : List UInt8 :=
  [0x59, 0x98, 0x4D, 0x34, 0x12, 0x78, 0x56, 1, 0,
    0x15, 4, 3, 2, 1, 0xD4, 0xC3, 0xB2, 0xA1, 9, 0xde, 0xf0, 0xAA, 0xAA, 0xAA, 0xAA]

/-- The header read from it. -/
def sampleShortHeader : Header := { sampleIncoming.header with source := some (.short 0x1234 1) }

/-- Witness for C36: accepting the sample frame stores its counter plus one for its device and leaves
the other device alone. -/
example : (Frame.tryReadAndUnsecure sampleCfg sampleAead sampleReceived ⟨.none, some sampleSender⟩
    (listLookup id) twoDevices).2.2.2 =
      [(.extended 0x1234 0x0102030405060708, ⟨0x01020305, false⟩), (.short 0x1234 1, ⟨4, false⟩)] := by
  decide +kernel

/-- Witness for C66: the sample frame is accepted in the two-device table. -/
example : Accepts sampleCfg sampleAead (listLookup id) twoDevices (sampleReadCall 4) (sampleAccepted 4) ∧
    ComesFrom (listTable id) (.extended 0x1234 0x0102030405060708) 0x01020304 (sampleAccepted 4) ∧
    (listTable id).get twoDevices (.extended 0x1234 0x0102030405060708) = some ⟨3, false⟩ :=
  ⟨⟨rfl, 27, by decide +kernel⟩, ⟨_, _, rfl, rfl, rfl, by decide⟩, by decide +kernel⟩

/-- Witness for C67: the key lookup of the sample context gives the same EUI-64 and key for both
addresses, and the frame accepted from the first is accepted once more from the second. -/
example : Accepts sampleCfg sampleAead (listLookup id) twoDevices (sampleReadCall 4) (sampleAccepted 4) ∧
    Header.tryRead sampleCfg sampleReceived = .ok ((sampleAccepted 4).header, 25) ∧
    Header.tryRead sampleCfg sampleReceivedShort = .ok (sampleShortHeader, 19) ∧
    sampleReceivedShort.drop 19 = sampleReceived.drop 25 ∧
    Accepts sampleCfg sampleAead (listLookup id)
      (devicesAfter sampleCfg sampleAead (listLookup id) twoDevices [sampleReadCall 4])
      ⟨sampleReceivedShort, ⟨.none, some sampleSender⟩⟩ { sampleAccepted 4 with header := sampleShortHeader } :=
  ⟨⟨rfl, 27, by decide +kernel⟩, by decide +kernel, by decide +kernel, by decide +kernel, ⟨rfl, 21, by decide +kernel⟩⟩

/-- When both addresses stand for one device, the lookup of the sample context tells devices apart
(C67), and the frame is then refused from the second address. -/
example : EuiTellsDevices (fun _ => ()) [sampleSender] ∧
    AcceptsUnder sampleCfg sampleAead (listLookup fun _ => ()) [((), ⟨3, false⟩)] (sampleReadCall 4) (sampleAccepted 4)
      9 0x01020304 ∧
    (Frame.tryReadAndUnsecure sampleCfg sampleAead sampleReceivedShort ⟨.none, some sampleSender⟩
      (listLookup fun _ => ()) (devicesAfter sampleCfg sampleAead (listLookup fun _ => ()) [((), ⟨3, false⟩)]
        [sampleReadCall 4])).1 = .err .counterError := by
  refine ⟨fun _ _ _ _ _ _ _ _ _ _ _ _ _ => rfl, ⟨⟨rfl, 27, by decide +kernel⟩, sampleSender, ⟨⟨.encmic32, .keySource4⟩, 0x01020300 + 4, some ⟨some (.short 0xA1B2C3D4), 9⟩⟩, 5, rfl, rfl, by decide, rfl⟩, by decide +kernel⟩

/-! ## Witness for C65 -/

/-- A session in which the sample sender, started with counter `c`, writes the sample frame twice. -/
def sampleSession (c : UInt32) : Session Nat :=
  ⟨sampleCfg, Ccm.aead (fun _ b => b), { sampleSender with frameCounter := c },
    [⟨sampleSecured, .none, List.replicate 40 0⟩, ⟨sampleSecured, .none, List.replicate 40 0⟩]⟩

example : (sampleSession 7).stop.frameCounter = 9 ∧ (sampleSession 9).start.frameCounter = 9 ∧
    AeadTyped (sampleSession 7).aead ∧
    (∃ n out ctx, sampleSecured.tryWrite sampleCfg (sampleSession 7).aead ⟨.none, some (sampleSession 7).start⟩
      (List.replicate 40 0) = (.ok n, out, ctx)) ∧ EncMic sampleAux.control.securityLevel :=
  ⟨by decide +kernel, rfl, (C50_ccm_laws _).toAeadTyped,
    ⟨31, (sampleSecured.tryWrite sampleCfg (sampleSession 7).aead ⟨.none, some (sampleSession 7).start⟩
      (List.replicate 40 0)).2.1, (sampleSecured.tryWrite sampleCfg (sampleSession 7).aead
        ⟨.none, some (sampleSession 7).start⟩ (List.replicate 40 0)).2.2,
      Prod.ext (by decide +kernel) rfl⟩, by decide⟩

end Verif
