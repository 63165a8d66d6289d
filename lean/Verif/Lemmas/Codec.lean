import Verif.Lemmas.Writer
import Verif.Lemmas.Reader

/-! # Lemmas: addresses and the auxiliary security header -/

namespace Verif

open Spec

/-- Finite check over all octets. -/
theorem forall_u8 (P : UInt8 → Prop) (h : ∀ n : Fin 256, P (UInt8.ofNat n.val)) (b : UInt8) :
    P b := by
  have := h ⟨b.toNat, by have := b.toNat_lt; simpa using this⟩
  simpa using this

/-! ## Addresses -/

theorem PanId.writes (x : PanId) : Writes (PanId.tryWrite x) (.ok ()) (le 2 x.toNat) :=
  Writes.run (WSpec.write (Writes.u16 .little x))
theorem ShortAddress.writes (x : ShortAddress) :
    Writes (ShortAddress.tryWrite x) (.ok ()) (le 2 x.toNat) :=
  Writes.run (WSpec.write (Writes.u16 .little x))
theorem ExtendedAddress.writes (x : ExtendedAddress) :
    Writes (ExtendedAddress.tryWrite x) (.ok ()) (le 8 x.toNat) :=
  Writes.run (WSpec.write (Writes.u64 .little x))

theorem PanId.decodes : Decodes PanId.tryRead (fun v l => l = le 2 v.toNat) :=
  Decodes.run (RDec.read (Decodes.u16 .little))
theorem ShortAddress.decodes : Decodes ShortAddress.tryRead (fun v l => l = le 2 v.toNat) :=
  Decodes.run (RDec.read (Decodes.u16 .little))
theorem ExtendedAddress.decodes : Decodes ExtendedAddress.tryRead (fun v l => l = le 8 v.toNat) :=
  Decodes.run (RDec.read (Decodes.u64 .little))

theorem PanId.needs : Needs PanId.tryRead (fun _ => 2) := Needs.run (RNeeds.read (Needs.u16 .little))
theorem ShortAddress.needs : Needs ShortAddress.tryRead (fun _ => 2) :=
  Needs.run (RNeeds.read (Needs.u16 .little))
theorem ExtendedAddress.needs : Needs ExtendedAddress.tryRead (fun _ => 8) :=
  Needs.run (RNeeds.read (Needs.u64 .little))

theorem Address.writes_normal (a : Address) :
    Writes (a.tryWrite .normal) (.ok ()) (fullAddrOctets a) := by
  cases a <;>
  exact Writes.run (WSpec.bind (WSpec.write (PanId.writes _))
    (WSpec.write (by first | exact ShortAddress.writes _ | exact ExtendedAddress.writes _)))

theorem Address.writes_compressed (a : Address) :
    Writes (a.tryWrite .compressed) (.ok ()) (addrOctets a) := by
  cases a <;>
  exact Writes.run
    (WSpec.write (by first | exact ShortAddress.writes _ | exact ExtendedAddress.writes _))

/-! ## Auxiliary security header -/

theorem SecurityControl.writes (c : SecurityControl) : Writes c.tryWrite (.ok ())
    [UInt8.ofNat (levelCode c.securityLevel + 8 * keyIdModeCode c.keyIdMode)] := by
  refine Writes.of_eq (Writes.run (WSpec.write (Writes.u8 _))) ?_
  rcases c with ⟨l, m⟩
  cases l <;> cases m <;> rfl

theorem KeyIdentifier.writes (cfg : Cfg) (k : KeyIdentifier) :
    Writes (k.tryWrite cfg) (.ok ()) (keyIdentifierOctets cfg.native (some k)) := by
  rcases k with ⟨_ | ⟨s⟩ | ⟨s⟩, i⟩
  · exact Writes.run (WSpec.write (Writes.u8 i))
  · exact Writes.run (WSpec.bind (WSpec.write (Writes.u32 _ _)) (WSpec.write (Writes.u8 i)))
  · exact Writes.run (WSpec.bind (WSpec.write (Writes.u64 _ _)) (WSpec.write (Writes.u8 i)))

theorem keyIdModeCode_modeOf (k : Option KeyIdentifier) :
    keyIdModeCode (AuxHeader.modeOf k) = keyModeCode k := by
  rcases k with _ | ⟨_ | ⟨s⟩ | ⟨s⟩, i⟩ <;> rfl

theorem modeOf_eq (k : Option KeyIdentifier) : AuxHeader.modeOf k = keyIdModeOf k := by
  rcases k with _ | ⟨_ | ⟨s⟩ | ⟨s⟩, i⟩ <;> rfl

theorem keyIdModeCode_of (k : Option KeyIdentifier) :
    keyIdModeCode (keyIdModeOf k) = keyModeCode k := by
  rw [← modeOf_eq, keyIdModeCode_modeOf]

theorem AuxHeader.writes {κ : Type} (cfg : Cfg) (h : AuxHeader) (ctx : SecCtx κ) :
    Writes (h.tryWrite cfg ctx) (.ok ())
      (auxOctets cfg.native cfg.native 0 h.control.securityLevel ctx.frameCounter
        h.keyIdentifier) := by
  have key : WSpec (match h.keyIdentifier with
      | some k => W.write (k.tryWrite cfg)
      | none => pure ()) (.ok ()) (keyIdentifierOctets cfg.native h.keyIdentifier) := by
    cases h.keyIdentifier with
    | none => exact WSpec.pure ()
    | some k => exact WSpec.write (KeyIdentifier.writes cfg k)
  refine Writes.of_eq (Writes.run (WSpec.bind (WSpec.write (SecurityControl.writes _))
    (WSpec.bind (WSpec.write (Writes.u32 _ _)) key))) ?_
  simp [auxOctets, keyIdModeCode_modeOf]

theorem auxOctets_length (e₁ e₂ : Endian) (r : Nat) (l : SecurityLevel) (c : UInt32)
    (k : Option KeyIdentifier) : (auxOctets e₁ e₂ r l c k).length = auxLength k := by
  rcases k with _ | ⟨_ | ⟨s⟩ | ⟨s⟩, i⟩ <;> simp [auxOctets, keyIdentifierOctets, auxLength] <;> omega

theorem AuxHeader.octetSize_eq (h : AuxHeader) : h.octetSize = auxLength h.keyIdentifier := by
  rcases h with ⟨c, f, _ | ⟨_ | ⟨s⟩ | ⟨s⟩, i⟩⟩ <;> rfl

/-- The control octet as a pair of subfields. -/
def ctlDecode (b : UInt8) : Option SecurityLevel × Option KeyIdMode :=
  (SecurityLevel.fromBits ((b &&& SecurityControl.maskLevel) >>> SecurityControl.offsetLevel),
   KeyIdMode.fromBits ((b &&& SecurityControl.maskKeyIdMode) >>> SecurityControl.offsetKeyIdMode))

def allLevels : List SecurityLevel :=
  [.none, .mic32, .mic64, .mic128, .enc, .encmic32, .encmic64, .encmic128]
def allModes : List KeyIdMode := [.none, .keyIndex, .keySource4, .keySource8]

theorem mem_allLevels (l : SecurityLevel) : l ∈ allLevels := by cases l <;> decide
theorem mem_allModes (l : KeyIdMode) : l ∈ allModes := by cases l <;> decide

theorem ctlDecode_table : ∀ n : Fin 256, ∃ l ∈ allLevels, ∃ m ∈ allModes, ∃ r ∈ List.range 8,
    ctlDecode (UInt8.ofNat n.val) = (some l, some m) ∧
    UInt8.ofNat n.val = UInt8.ofNat (levelCode l + 8 * keyIdModeCode m + 32 * r) := by
  decide +kernel

theorem ctlDecode_inv : ∀ l ∈ allLevels, ∀ m ∈ allModes, ∀ r ∈ List.range 8,
    ctlDecode (UInt8.ofNat (levelCode l + 8 * keyIdModeCode m + 32 * r)) = (some l, some m) := by
  decide +kernel

theorem ctlDecode_total (b : UInt8) : ∃ l m, ∃ r < 8, ctlDecode b = (some l, some m) ∧
    b = UInt8.ofNat (levelCode l + 8 * keyIdModeCode m + 32 * r) := by
  refine forall_u8 (fun b => ∃ l m, ∃ r < 8, ctlDecode b = (some l, some m) ∧
    b = UInt8.ofNat (levelCode l + 8 * keyIdModeCode m + 32 * r)) ?_ b
  intro n
  obtain ⟨l, _, m, _, r, hr, h1, h2⟩ := ctlDecode_table n
  exact ⟨l, m, r, by simpa using hr, h1, h2⟩

theorem SecurityControl.tryRead_cons (b : UInt8) (rest : List UInt8) {l m}
    (h : ctlDecode b = (some l, some m)) :
    SecurityControl.tryRead (b :: rest) = .ok (⟨l, m⟩, 1) := by
  have h1 : SecurityLevel.fromBits _ = some l := congrArg Prod.fst h
  have h2 : KeyIdMode.fromBits _ = some m := congrArg Prod.snd h
  have hr : R.read tryReadU8 (b :: rest) 0 = .ok (b, 1) :=
    (RDec.read Decodes.u8 [] (b :: rest) b 1).2 ⟨[b], rest, rfl, rfl, rfl⟩
  unfold SecurityControl.tryRead R.run
  rw [R.bind_apply, hr]
  simp only [R.bind_apply, h1, h2, R.okOr, R.pure_eq]

theorem SecurityControl.decodes : Decodes SecurityControl.tryRead (fun c l =>
    ∃ r < 8, l = [UInt8.ofNat (levelCode c.securityLevel + 8 * keyIdModeCode c.keyIdMode + 32 * r)]) := by
  intro bytes a n
  cases bytes with
  | nil =>
    constructor
    · intro h; cases h
    · rintro ⟨l, s, hl, ⟨r, _, rfl⟩, _⟩; simp at hl
  | cons b rest =>
    obtain ⟨l, m, r, hr, hd, hb⟩ := ctlDecode_total b
    rw [SecurityControl.tryRead_cons b rest hd]
    constructor
    · intro h
      simp only [Out.ok.injEq, Prod.mk.injEq] at h
      obtain ⟨rfl, rfl⟩ := h
      exact ⟨[b], rest, rfl, ⟨r, hr, by rw [hb]⟩, rfl⟩
    · rintro ⟨l', s, hl, ⟨r', hr', rfl⟩, rfl⟩
      simp only [List.cons_append, List.nil_append, List.cons.injEq] at hl
      have := ctlDecode_inv a.securityLevel (mem_allLevels _) a.keyIdMode (mem_allModes _) r'
        (by simpa using hr')
      rw [← hl.1, hd] at this
      simp only [Prod.mk.injEq, Option.some.injEq] at this
      rcases a with ⟨al, am⟩
      simp only at this
      simp [this.1, this.2]

theorem SecurityControl.needs : Needs SecurityControl.tryRead (fun _ => 1) := by
  intro bytes
  cases bytes with
  | nil => exact ⟨fun h => absurd h (by simp), fun _ => rfl⟩
  | cons b rest =>
    obtain ⟨l, m, r, hr, hd, hb⟩ := ctlDecode_total b
    exact ⟨fun _ => ⟨⟨l, m⟩, SecurityControl.tryRead_cons b rest hd⟩, fun h => absurd h (by simp)⟩

theorem AuxHeader.decodes (cfg : Cfg) : Decodes (AuxHeader.tryRead cfg) (fun a l =>
    a.control.keyIdMode = keyIdModeOf a.keyIdentifier ∧ ∃ r < 8,
      l = auxOctets .little cfg.native r a.control.securityLevel a.frameCounter a.keyIdentifier) := by
  refine Decodes.run (RDec.congr (RDec.bind (RDec.read SecurityControl.decodes)
    (E₂ := fun c a l => a.control = c ∧ c.keyIdMode = keyIdModeOf a.keyIdentifier ∧
      l = inOrder .little 4 a.frameCounter.toNat ++
        keyIdentifierOctets cfg.native a.keyIdentifier) fun c => ?_) ?_)
  · refine RDec.congr (RDec.readBind (Decodes.u32 .little)
      (E₂ := fun fc a l => a.control = c ∧ a.frameCounter = fc ∧
        c.keyIdMode = keyIdModeOf a.keyIdentifier ∧
        l = keyIdentifierOctets cfg.native a.keyIdentifier) fun fc => ?_) ?_
    · rcases c with ⟨lv, m⟩
      cases m
      · refine RDec.congr (RDec.pure _) ?_
        rintro ⟨c', f', _ | ⟨_ | ⟨s⟩ | ⟨s⟩, i⟩⟩ l <;>
          simp [keyIdModeOf, keyIdentifierOctets, and_assoc]
      · refine RDec.congr (RDec.readBind Decodes.u8 fun _ => RDec.pure _) ?_
        rintro ⟨c', f', _ | ⟨_ | ⟨s⟩ | ⟨s⟩, i⟩⟩ l <;>
          simp [keyIdModeOf, keyIdentifierOctets, and_assoc] <;> grind
      · simp only [ne_eq, reduceCtorEq, not_false_eq_true, if_true, R.bind_assoc, R.pure_bind]
        refine RDec.congr (RDec.readBind (Decodes.u32 cfg.native)
          fun _ => RDec.readBind Decodes.u8 fun _ => RDec.pure _) ?_
        rintro ⟨c', f', _ | ⟨_ | ⟨s⟩ | ⟨s⟩, i⟩⟩ l <;>
          simp [keyIdModeOf, keyIdentifierOctets, and_assoc] <;> grind
      · simp only [ne_eq, reduceCtorEq, not_false_eq_true, if_true, R.bind_assoc, R.pure_bind]
        refine RDec.congr (RDec.readBind (Decodes.u64 cfg.native)
          fun _ => RDec.readBind Decodes.u8 fun _ => RDec.pure _) ?_
        rintro ⟨c', f', _ | ⟨_ | ⟨s⟩ | ⟨s⟩, i⟩⟩ l <;>
          simp [keyIdModeOf, keyIdentifierOctets, and_assoc] <;> grind
    · rintro ⟨c', f', k⟩ l
      constructor
      · rintro ⟨a, l₂, rfl, rfl, rfl, h, rfl⟩; exact ⟨rfl, h, rfl⟩
      · rintro ⟨rfl, h, rfl⟩; exact ⟨_, _, rfl, rfl, rfl, h, rfl⟩
  · rintro ⟨c', f', k⟩ l
    constructor
    · rintro ⟨a, l₁, l₂, rfl, ⟨r, hr, rfl⟩, rfl, h, rfl⟩
      refine ⟨h, r, hr, ?_⟩
      simp only at h
      simp [auxOctets, ← keyIdModeCode_of, h]
    · rintro ⟨h, r, hr, rfl⟩
      refine ⟨c', _, _, ?_, ⟨r, hr, rfl⟩, rfl, h, rfl⟩
      simp only at h
      simp [auxOctets, ← keyIdModeCode_of, h]

theorem keyMode_of_ctl : ∀ l ∈ allLevels, ∀ m ∈ allModes, ∀ r ∈ List.range 8,
    (UInt8.ofNat (levelCode l + 8 * keyIdModeCode m + 32 * r)).toNat / 8 % 4 = keyIdModeCode m := by
  decide +kernel

theorem AuxHeader.needs (cfg : Cfg) : Needs (AuxHeader.tryRead cfg) auxNeed := by
  refine Needs.run (RNeeds.congr (RNeeds.bindDep (RNeeds.read SecurityControl.needs)
    (RDec.read SecurityControl.decodes)
    (need := fun l _ => auxNeed l - 1) ?_) ?_)
  · rintro ⟨lv, m⟩ l ⟨r, hr, rfl⟩
    have hk := keyMode_of_ctl lv (mem_allLevels _) m (mem_allModes _) r (by simpa using hr)
    have : auxNeed [UInt8.ofNat (levelCode lv + 8 * keyIdModeCode m + 32 * r)] - 1 =
        4 + (match m with | .none => 0 | .keyIndex => 1 | .keySource4 => 5 | .keySource8 => 9) := by
      simp only [auxNeed, hk]
      cases m <;> rfl
    simp only [this]
    refine RNeeds.bindFixed (RNeeds.read (Needs.u32 _)) fun fc => ?_
    cases m
    · exact RNeeds.pure _
    · exact RNeeds.bindFixed (RNeeds.read Needs.u8) fun _ => RNeeds.pure _
    · simp only [ne_eq, reduceCtorEq, not_false_eq_true, if_true, R.bind_assoc, R.pure_bind]
      exact RNeeds.bindFixed (RNeeds.read (Needs.u32 _)) fun _ =>
        RNeeds.bindFixed (RNeeds.read Needs.u8) fun _ => RNeeds.pure _
    · simp only [ne_eq, reduceCtorEq, not_false_eq_true, if_true, R.bind_assoc, R.pure_bind]
      exact RNeeds.bindFixed (RNeeds.read (Needs.u64 _)) fun _ =>
        RNeeds.bindFixed (RNeeds.read Needs.u8) fun _ => RNeeds.pure _
  · intro l
    cases l with
    | nil => rfl
    | cons b l =>
      have : 5 ≤ auxNeed [b] := by
        simp only [auxNeed]; split <;> omega
      have h2 : auxNeed (b :: l) = auxNeed [b] := rfl
      simp only [List.take_succ_cons, List.take_zero]
      omega

end Verif
