import Verif.Spec.DebugSpec

/-!
# C108: printed values tell which values they were
-/

namespace Verif

open Spec

theorem setsOff_nil : SetsOff [] := trivial
theorem setsOff_cons {c : Char} {r : List Char} : SetsOff (c :: r) ↔ wordChar c = false := Iff.rfl

/-- Half of `PrintsApart`: the half there is something to prove for. -/
def Legible {α : Type} (P : α → List Char) : Prop :=
  ∀ a b r s, SetsOff r → SetsOff s → P a ++ r = P b ++ s → a = b ∧ r = s

theorem Legible.apart {α : Type} {P : α → List Char} (h : Legible P) : PrintsApart P :=
  fun a b r s hr hs => ⟨h a b r s hr hs, by rintro ⟨rfl, rfl⟩; rfl⟩

/-- Two words that are set off from what follows. -/
theorem words_apart : ∀ (v w r s : List Char), v.all wordChar = true → w.all wordChar = true → SetsOff r → SetsOff s →
    v ++ r = w ++ s → v = w ∧ r = s
  | [], [], _, _, _, _, _, _, h => ⟨rfl, h⟩
  | [], d :: w, r, s, _, hw, hr, _, h => by
    subst h
    simp only [List.all_cons, Bool.and_eq_true] at hw
    have : wordChar d = false := hr
    rw [hw.1] at this; cases this
  | c :: v, [], r, s, hv, _, _, hs, h => by
    have h' : s = c :: v ++ r := h.symm
    subst h'
    simp only [List.all_cons, Bool.and_eq_true] at hv
    have : wordChar c = false := hs
    rw [hv.1] at this; cases this
  | c :: v, d :: w, r, s, hv, hw, hr, hs, h => by
    simp only [List.all_cons, Bool.and_eq_true] at hv hw
    simp only [List.cons_append, List.cons.injEq] at h
    obtain ⟨h1, h2⟩ := words_apart v w r s hv.2 hw.2 hr hs h.2
    exact ⟨by rw [h.1, h1], h2⟩

/-- Names are legible if they are different words. -/
theorem names_legible {α : Type} {P : α → List Char} (hw : ∀ a, (P a).all wordChar = true)
    (hi : ∀ a b, P a = P b → a = b) : Legible P := by
  intro a b r s hr hs h
  obtain ⟨h1, h2⟩ := words_apart _ _ r s (hw a) (hw b) hr hs h
  exact ⟨hi a b h1, h2⟩

/-! ## Numbers -/

theorem digit_inj {a b : Nat} (ha : a < 10) (hb : b < 10) (h : digitChar a = digitChar b) : a = b := by
  have : ∀ a : Fin 10, ∀ b : Fin 10, digitChar a = digitChar b → a = b := by decide
  exact congrArg Fin.val (this ⟨a, ha⟩ ⟨b, hb⟩ h)

theorem digit_word {a : Nat} (ha : a < 10) : wordChar (digitChar a) = true := by
  have : ∀ a : Fin 10, wordChar (digitChar a) = true := by decide
  exact this ⟨a, ha⟩

theorem digit_ascii {a : Nat} (ha : a < 10) : 48 ≤ (digitChar a).toNat ∧ (digitChar a).toNat ≤ 57 := by
  have : ∀ a : Fin 10, 48 ≤ (digitChar a).toNat ∧ (digitChar a).toNat ≤ 57 := by decide
  exact this ⟨a, ha⟩

theorem decimal_small {n : Nat} (h : n < 10) : decimal n = [digitChar n] := by rw [decimal, if_pos h]
theorem decimal_big {n : Nat} (h : ¬ n < 10) : decimal n = decimal (n / 10) ++ [digitChar (n % 10)] := by
  rw [decimal, if_neg h]

theorem decimal_ne (n : Nat) : decimal n ≠ [] := by
  by_cases h : n < 10
  · rw [decimal_small h]; simp
  · rw [decimal_big h]; simp

theorem decimal_digits (n : Nat) : ∀ c ∈ decimal n, ∃ d, d < 10 ∧ c = digitChar d := by
  induction n using Nat.strongRecOn with
  | ind n ih =>
    by_cases h : n < 10
    · rw [decimal_small h]; intro c hc; exact ⟨n, h, by simpa using hc⟩
    · rw [decimal_big h]; intro c hc
      rcases List.mem_append.1 hc with hc | hc
      · exact ih _ (by omega) c hc
      · exact ⟨n % 10, by omega, by simpa using hc⟩

theorem decimal_word (n : Nat) : (decimal n).all wordChar = true := by
  rw [List.all_eq_true]
  intro c hc
  obtain ⟨d, hd, rfl⟩ := decimal_digits n c hc
  exact digit_word hd

theorem decimal_inj (n : Nat) : ∀ m, decimal n = decimal m → n = m := by
  induction n using Nat.strongRecOn with
  | ind n ih =>
    intro m h
    by_cases hn : n < 10 <;> by_cases hm : m < 10
    · rw [decimal_small hn, decimal_small hm] at h
      exact digit_inj hn hm (by simpa using h)
    · rw [decimal_small hn, decimal_big hm] at h
      have := congrArg List.length h
      have h0 := List.length_pos_iff.2 (decimal_ne (m / 10))
      simp only [List.length_append, List.length_singleton] at this; omega
    · rw [decimal_big hn, decimal_small hm] at h
      have := congrArg List.length h
      have h0 := List.length_pos_iff.2 (decimal_ne (n / 10))
      simp only [List.length_append, List.length_singleton] at this; omega
    · rw [decimal_big hn, decimal_big hm] at h
      obtain ⟨h1, h2⟩ := List.append_inj' h rfl
      have e1 := ih _ (by omega) _ h1
      have e2 := digit_inj (by omega) (by omega) (List.cons.inj h2).1
      omega

theorem decimal_legible : Legible decimal := names_legible decimal_word fun a b => decimal_inj a b

/-- A type whose printed values are legible, and made of printable characters. -/
class Prints (α : Type) [RustDebug α] : Prop where
  legible : Legible (debug : α → List Char)

instance : Prints Nat := ⟨decimal_legible⟩
instance : Prints UInt8 :=
  ⟨names_legible (fun a => decimal_word a.toNat) fun _ _ h => UInt8.toNat_inj.1 (decimal_inj _ _ h)⟩
instance : Prints UInt16 :=
  ⟨names_legible (fun a => decimal_word a.toNat) fun _ _ h => UInt16.toNat_inj.1 (decimal_inj _ _ h)⟩
instance : Prints UInt32 :=
  ⟨names_legible (fun a => decimal_word a.toNat) fun _ _ h => UInt32.toNat_inj.1 (decimal_inj _ _ h)⟩
instance : Prints UInt64 :=
  ⟨names_legible (fun a => decimal_word a.toNat) fun _ _ h => UInt64.toNat_inj.1 (decimal_inj _ _ h)⟩

/-- The printed value, in front of something set off from it. -/
theorem Prints.iff {α : Type} [RustDebug α] [Prints α] {a b : α} {r s : List Char} (hr : SetsOff r) (hs : SetsOff s) :
    debug a ++ r = debug b ++ s ↔ a = b ∧ r = s := Prints.legible.apart a b r s hr hs

theorem off_comma : wordChar ',' = false := by decide
theorem off_space : wordChar ' ' = false := by decide
theorem off_paren : wordChar ')' = false := by decide
theorem off_bracket : wordChar ']' = false := by decide

/-- Takes two printed values of a struct or of variants with fields apart. -/
syntax "take_apart" "[" Lean.Parser.Tactic.simpLemma,* "]" : tactic
macro_rules
  | `(tactic| take_apart [$ls,*]) => `(tactic|
      simp (config := { contextual := false }) only [structOut, tupleOut, withCommas, List.map_cons, List.map_nil,
        List.append_assoc, List.cons_append, List.nil_append, List.cons.injEq, true_and, Prints.iff, setsOff_cons,
        off_comma, off_space, off_paren, off_bracket, and_true, and_assoc, $ls,*])

/-- A name printed by itself. -/
syntax "by_names" : term
macro_rules
  | `(by_names) => `(names_legible (by intro a; cases a <;> rfl) (by intro a b; cases a <;> cases b <;> decide))

instance : Prints Bool := ⟨by_names⟩
instance : Prints FrameType := ⟨by_names⟩
instance : Prints FrameVersion := ⟨by_names⟩
instance : Prints AddressMode := ⟨by_names⟩
instance : Prints SecurityLevel := ⟨by_names⟩
instance : Prints KeyIdMode := ⟨by_names⟩
instance : Prints Direction := ⟨by_names⟩
instance : Prints CommandId := ⟨by_names⟩
instance : Prints AssociationStatus := ⟨by_names⟩
instance : Prints DisassociationReason := ⟨by_names⟩
instance : Prints EncodeError := ⟨by_names⟩

theorem option_legible [RustDebug α] [Prints α] : Legible (optionOut : Option α → List Char) := by
  intro a b r s hr hs h
  cases a <;> cases b <;> revert h <;> simp only [optionOut] <;> take_apart [] <;> simp

instance [RustDebug α] [Prints α] : Prints (Option α) := ⟨option_legible⟩

theorem securityControl_legible : Legible SecurityControl.debugOut := by
  rintro ⟨a1, a2⟩ ⟨b1, b2⟩ r s hr hs
  take_apart [SecurityControl.debugOut]
  rintro ⟨rfl, rfl, h⟩; exact ⟨rfl, h⟩
instance : Prints SecurityControl := ⟨securityControl_legible⟩

theorem keySource_legible : Legible KeySource.debugOut := by
  rintro (a | a) (b | b) r s hr hs <;> take_apart [KeySource.debugOut] <;> simp
instance : Prints KeySource := ⟨keySource_legible⟩

theorem keyIdentifier_legible : Legible KeyIdentifier.debugOut := by
  rintro ⟨a1, a2⟩ ⟨b1, b2⟩ r s hr hs
  take_apart [KeyIdentifier.debugOut]
  rintro ⟨rfl, rfl, h⟩; exact ⟨rfl, h⟩
instance : Prints KeyIdentifier := ⟨keyIdentifier_legible⟩

theorem auxHeader_legible : Legible AuxHeader.debugOut := by
  rintro ⟨a1, a2, a3⟩ ⟨b1, b2, b3⟩ r s hr hs
  take_apart [AuxHeader.debugOut]
  rintro ⟨rfl, rfl, rfl, h⟩; exact ⟨rfl, h⟩
instance : Prints AuxHeader := ⟨auxHeader_legible⟩

/-! ## Lists -/

/-- Values in brackets: none of them starts like the end of the list. -/
theorem list_legible {α : Type} {P : α → List Char} (hP : Legible P) (hs : ∀ a r s, P a ++ r ≠ ']' :: s) :
    Legible fun l : List α => listOut (l.map P) := by
  have key : ∀ (a b : List α) (r s : List Char), withCommas (a.map P) ++ (']' :: r) = withCommas (b.map P) ++ (']' :: s) →
      a = b ∧ r = s := by
    intro a
    induction a with
    | nil =>
      intro b r s h
      cases b with
      | nil => simpa [withCommas] using h
      | cons y b =>
        cases b with
        | nil => exact (hs y _ _ (by simpa [withCommas] using h.symm)).elim
        | cons z b => exact (hs y _ _ (by simpa [withCommas] using h.symm)).elim
    | cons x a ih =>
      intro b r s h
      cases b with
      | nil =>
        cases a with
        | nil => exact (hs x _ _ (by simpa [withCommas] using h)).elim
        | cons z a => exact (hs x _ _ (by simpa [withCommas] using h)).elim
      | cons y b =>
        cases a with
        | nil =>
          cases b with
          | nil =>
            obtain ⟨h1, h2⟩ := hP x y _ _ (setsOff_cons.2 off_bracket) (setsOff_cons.2 off_bracket) h
            exact ⟨by rw [h1], (List.cons.inj h2).2⟩
          | cons z b =>
            simp only [List.map_cons, List.map_nil, withCommas, List.append_assoc, List.cons_append] at h
            obtain ⟨_, h2⟩ := hP x y _ _ (setsOff_cons.2 off_bracket) (setsOff_cons.2 off_comma) h
            exact absurd (List.cons.inj h2).1 (by decide)
        | cons z a =>
          cases b with
          | nil =>
            simp only [List.map_cons, List.map_nil, withCommas, List.append_assoc, List.cons_append] at h
            obtain ⟨_, h2⟩ := hP x y _ _ (setsOff_cons.2 off_comma) (setsOff_cons.2 off_bracket) h
            exact absurd (List.cons.inj h2).1 (by decide)
          | cons w b =>
            simp only [List.map_cons, withCommas, List.append_assoc, List.cons_append] at h
            obtain ⟨h1, h2⟩ := hP x y _ _ (setsOff_cons.2 off_comma) (setsOff_cons.2 off_comma) h
            simp only [List.nil_append, List.cons.injEq, true_and] at h2
            obtain ⟨h3, h4⟩ := ih (w :: b) r s (by simpa only [List.map_cons] using h2)
            exact ⟨by rw [h1, h3], h4⟩
  intro a b r s _ _ h
  simp only [listOut, List.cons_append, List.nil_append, List.append_assoc, List.cons.injEq, true_and] at h
  exact key a b r s h

theorem octet_starts (a : UInt8) (r s : List Char) : debug a ++ r ≠ ']' :: s := by
  have hw := decimal_word a.toNat
  show decimal a.toNat ++ r ≠ _
  cases h : decimal a.toNat with
  | nil => exact (decimal_ne _ h).elim
  | cons c t =>
    rw [h] at hw
    simp only [List.all_cons, Bool.and_eq_true] at hw
    intro e
    have : c = ']' := (List.cons.inj e).1
    rw [this] at hw
    exact absurd hw.1 (by decide)

theorem octets_legible : Legible (debug : List UInt8 → List Char) := list_legible Prints.legible octet_starts
instance : Prints (List UInt8) := ⟨octets_legible⟩

theorem panId_legible : Legible panIdOut := by
  intro a b r s hr hs; take_apart [panIdOut]; exact id
theorem shortAddress_legible : Legible shortAddressOut := by
  intro a b r s hr hs; take_apart [shortAddressOut]; exact id
theorem extendedAddress_legible : Legible extendedAddressOut := by
  intro a b r s hr hs; take_apart [extendedAddressOut]; exact id

theorem vector_legible {α : Type} {P : α → List Char} (hP : Legible P) (hs : ∀ a r s, P a ++ r ≠ ']' :: s) :
    Legible fun l : Vector α 7 => listOut (l.toList.map P) := by
  intro a b r s hr hs' h
  obtain ⟨h1, h2⟩ := list_legible hP hs a.toList b.toList r s hr hs' h
  exact ⟨Vector.toList_inj.1 h1, h2⟩

theorem address_legible : Legible Address.debugOut := by
  rintro (⟨a, a'⟩ | ⟨a, a'⟩) (⟨b, b'⟩ | ⟨b, b'⟩) r s hr hs <;>
    take_apart [Address.debugOut, panIdOut, shortAddressOut, extendedAddressOut] <;> simp
  all_goals (rintro rfl rfl h; exact ⟨⟨rfl, rfl⟩, h⟩)
instance : Prints Address := ⟨address_legible⟩

set_option maxRecDepth 4000 in
theorem header_legible : Legible Header.debugOut := by
  rintro ⟨a1, a2, a3, a4, a5, a6, a7, a8, a9, a10, a11⟩ ⟨b1, b2, b3, b4, b5, b6, b7, b8, b9, b10, b11⟩ r s hr hs
  take_apart [Header.debugOut]
  rintro ⟨rfl, rfl, rfl, rfl, rfl, rfl, rfl, rfl, rfl, rfl, rfl, h⟩; exact ⟨rfl, h⟩
instance : Prints Header := ⟨header_legible⟩

/-! ## Beacons -/

theorem beaconOrder_legible : Legible BeaconOrder.debugOut := by
  rintro (a | _) (b | _) r s hr hs <;> take_apart [BeaconOrder.debugOut] <;> simp
instance : Prints BeaconOrder := ⟨beaconOrder_legible⟩

theorem superframeOrder_legible : Legible SuperframeOrder.debugOut := by
  rintro (a | _) (b | _) r s hr hs <;> take_apart [SuperframeOrder.debugOut] <;> simp
instance : Prints SuperframeOrder := ⟨superframeOrder_legible⟩

theorem superframeSpec_legible : Legible SuperframeSpec.debugOut := by
  rintro ⟨a1, a2, a3, a4, a5, a6⟩ ⟨b1, b2, b3, b4, b5, b6⟩ r s hr hs
  take_apart [SuperframeSpec.debugOut]
  rintro ⟨rfl, rfl, rfl, rfl, rfl, rfl, h⟩; exact ⟨rfl, h⟩
instance : Prints SuperframeSpec := ⟨superframeSpec_legible⟩

theorem slot_legible : Legible GtsDescriptor.debugOut := by
  rintro ⟨a1, a2, a3, a4⟩ ⟨b1, b2, b3, b4⟩ r s hr hs
  take_apart [GtsDescriptor.debugOut, shortAddressOut]
  rintro ⟨rfl, rfl, rfl, rfl, h⟩; exact ⟨rfl, h⟩
instance : Prints GtsDescriptor := ⟨slot_legible⟩

theorem slots_iff {a b : Vector GtsDescriptor 7} {r s : List Char} (hr : SetsOff r) (hs : SetsOff s) :
    listOut (a.toList.map debug) ++ r = listOut (b.toList.map debug) ++ s ↔ a = b ∧ r = s :=
  (vector_legible Prints.legible fun a r s h => absurd (List.cons.inj h).1 (by decide)).apart a b r s hr hs

theorem shorts_iff {a b : Vector ShortAddress 7} {r s : List Char} (hr : SetsOff r) (hs : SetsOff s) :
    listOut (a.toList.map shortAddressOut) ++ r = listOut (b.toList.map shortAddressOut) ++ s ↔ a = b ∧ r = s :=
  (vector_legible shortAddress_legible fun a r s h => absurd (List.cons.inj h).1 (by decide)).apart a b r s hr hs

theorem extendeds_iff {a b : Vector ExtendedAddress 7} {r s : List Char} (hr : SetsOff r) (hs : SetsOff s) :
    listOut (a.toList.map extendedAddressOut) ++ r = listOut (b.toList.map extendedAddressOut) ++ s ↔ a = b ∧ r = s :=
  (vector_legible extendedAddress_legible fun a r s h => absurd (List.cons.inj h).1 (by decide)).apart a b r s hr hs

theorem gts_legible : Legible GtsInfo.debugOut := by
  rintro ⟨a1, a2, a3⟩ ⟨b1, b2, b3⟩ r s hr hs
  take_apart [GtsInfo.debugOut, slots_iff]
  rintro ⟨rfl, rfl, rfl, h⟩; exact ⟨rfl, h⟩
instance : Prints GtsInfo := ⟨gts_legible⟩

theorem pending_legible : Legible PendingAddress.debugOut := by
  rintro ⟨a1, a2, a3, a4⟩ ⟨b1, b2, b3, b4⟩ r s hr hs
  take_apart [PendingAddress.debugOut, shorts_iff, extendeds_iff]
  rintro ⟨rfl, rfl, rfl, rfl, h⟩; exact ⟨rfl, h⟩
instance : Prints PendingAddress := ⟨pending_legible⟩

theorem beacon_legible : Legible Beacon.debugOut := by
  rintro ⟨a1, a2, a3⟩ ⟨b1, b2, b3⟩ r s hr hs
  take_apart [Beacon.debugOut]
  rintro ⟨rfl, rfl, rfl, h⟩; exact ⟨rfl, h⟩
instance : Prints Beacon := ⟨beacon_legible⟩

/-! ## Commands, content, frames -/

theorem capability_legible : Legible CapabilityInformation.debugOut := by
  rintro ⟨a1, a2, a3, a4, a5⟩ ⟨b1, b2, b3, b4, b5⟩ r s hr hs
  take_apart [CapabilityInformation.debugOut]
  rintro ⟨rfl, rfl, rfl, rfl, rfl, h⟩; exact ⟨rfl, h⟩
instance : Prints CapabilityInformation := ⟨capability_legible⟩

theorem realignment_legible : Legible CoordinatorRealignmentData.debugOut := by
  rintro ⟨a1, a2, a3, a4, a5⟩ ⟨b1, b2, b3, b4, b5⟩ r s hr hs
  take_apart [CoordinatorRealignmentData.debugOut, panIdOut, shortAddressOut]
  rintro ⟨rfl, rfl, rfl, rfl, rfl, h⟩; exact ⟨rfl, h⟩
instance : Prints CoordinatorRealignmentData := ⟨realignment_legible⟩

theorem characteristics_legible : Legible GtsCharacteristics.debugOut := by
  rintro ⟨a1, a2, a3⟩ ⟨b1, b2, b3⟩ r s hr hs
  take_apart [GtsCharacteristics.debugOut]
  rintro ⟨rfl, rfl, rfl, h⟩; exact ⟨rfl, h⟩
instance : Prints GtsCharacteristics := ⟨characteristics_legible⟩

theorem command_legible : Legible Command.debugOut := by
  intro a b r s hr hs
  cases a <;> cases b <;> take_apart [Command.debugOut, shortAddressOut] <;> simp
  all_goals (rintro rfl rfl h; exact ⟨⟨rfl, rfl⟩, h⟩)
instance : Prints Command := ⟨command_legible⟩

theorem content_legible : Legible FrameContent.debugOut := by
  intro a b r s hr hs
  cases a <;> cases b <;> take_apart [FrameContent.debugOut] <;> simp
instance : Prints FrameContent := ⟨content_legible⟩

theorem frame_legible : Legible Frame.debugOut := by
  rintro ⟨a1, a2, a3, a4, a5⟩ ⟨b1, b2, b3, b4, b5⟩ r s hr hs
  take_apart [Frame.debugOut]
  rintro ⟨rfl, rfl, rfl, rfl, rfl, h⟩; exact ⟨rfl, h⟩
instance : Prints Frame := ⟨frame_legible⟩

/-! ## Errors -/

theorem decodeError_legible : Legible DecodeError.debugOut := by
  intro a b r s hr hs
  cases a <;> cases b <;> take_apart [DecodeError.debugOut] <;> simp
instance : Prints DecodeError := ⟨decodeError_legible⟩

theorem escaped_apart (c d : Char) (x y : List Char) (h : escaped c ++ x = escaped d ++ y) : c = d ∧ x = y := by
  unfold escaped at h
  repeat' split at h
  all_goals simp_all
  all_goals
    obtain ⟨e, -⟩ := h
    subst e
    simp_all

theorem escaped_goes_on (c : Char) (x y : List Char) : escaped c ++ x ≠ '"' :: y := by
  intro h
  unfold escaped at h
  repeat' split at h
  all_goals simp_all

theorem quoted_legible : Legible quoted := by
  have key : ∀ (a b r s : List Char), a.flatMap escaped ++ '"' :: r = b.flatMap escaped ++ '"' :: s → a = b ∧ r = s := by
    intro a
    induction a with
    | nil =>
      intro b r s h
      cases b with
      | nil => simpa using h
      | cons d b => exact (escaped_goes_on d _ _ (by simpa using h.symm)).elim
    | cons c a ih =>
      intro b r s h
      cases b with
      | nil => exact (escaped_goes_on c _ _ (by simpa using h)).elim
      | cons d b =>
        simp only [List.flatMap_cons, List.append_assoc] at h
        obtain ⟨h1, h2⟩ := escaped_apart _ _ _ _ h
        obtain ⟨h3, h4⟩ := ih _ _ _ h2
        exact ⟨by rw [h1, h3], h4⟩
  intro a b r s _ _ h
  simp only [quoted, List.cons_append, List.append_assoc, List.nil_append, List.cons.injEq, true_and] at h
  exact key a b r s h

theorem quoted_iff {a b : String} {r s : List Char} (hr : SetsOff r) (hs : SetsOff s) :
    quoted a.toList ++ r = quoted b.toList ++ s ↔ a = b ∧ r = s := by
  rw [quoted_legible.apart _ _ r s hr hs, String.toList_inj]

theorem byteErr_legible : Legible ByteErr.debugOut := by
  intro a b r s hr hs
  cases a <;> cases b <;> take_apart [ByteErr.debugOut, quoted_iff] <;> simp
instance : Prints ByteErr := ⟨byteErr_legible⟩

theorem secErr_legible : Legible SecErr.debugOut := by
  intro a b r s hr hs
  cases a <;> cases b <;> take_apart [SecErr.debugOut] <;> simp
instance : Prints SecErr := ⟨secErr_legible⟩

/-! ## Printable characters -/

instance (s : List Char) : Decidable (PrintableAscii s) := inferInstanceAs (Decidable (∀ c ∈ s, _))

theorem ascii_append {a b : List Char} (ha : PrintableAscii a) (hb : PrintableAscii b) : PrintableAscii (a ++ b) :=
  fun c hc => (List.mem_append.1 hc).elim (ha c) (hb c)

theorem decimal_printable (n : Nat) : PrintableAscii (decimal n) := by
  intro c hc
  obtain ⟨d, hd, rfl⟩ := decimal_digits n c hc
  have := digit_ascii hd
  omega

theorem commas_ascii : ∀ l : List (List Char), (∀ x ∈ l, PrintableAscii x) → PrintableAscii (withCommas l)
  | [], _ => by decide
  | [x], h => h x (by simp)
  | x :: y :: l, h => ascii_append (h x (by simp))
      (ascii_append (by decide) (commas_ascii (y :: l) fun z hz => h z (List.mem_cons_of_mem _ hz)))

theorem struct_ascii {name : List Char} {fields : List (List Char × List Char)} (hn : PrintableAscii name)
    (hf : ∀ f ∈ fields, PrintableAscii f.1 ∧ PrintableAscii f.2) : PrintableAscii (structOut name fields) := by
  refine ascii_append hn (ascii_append (by decide) (ascii_append (commas_ascii _ fun x hx => ?_) (by decide)))
  obtain ⟨f, hf', rfl⟩ := List.mem_map.1 hx
  exact ascii_append (hf f hf').1 (ascii_append (by decide) (hf f hf').2)

theorem tuple_ascii {name : List Char} {fields : List (List Char)} (hn : PrintableAscii name)
    (hf : ∀ f ∈ fields, PrintableAscii f) : PrintableAscii (tupleOut name fields) :=
  ascii_append hn (ascii_append (by decide) (ascii_append (commas_ascii _ hf) (by decide)))

theorem list_ascii {items : List (List Char)} (h : ∀ x ∈ items, PrintableAscii x) : PrintableAscii (listOut items) :=
  ascii_append (by decide) (ascii_append (commas_ascii _ h) (by decide))

/-- A type printed in printable characters. -/
class Ascii (α : Type) [RustDebug α] : Prop where
  ascii : PrintsAscii α

export Ascii (ascii)

instance : Ascii Nat := ⟨decimal_printable⟩
instance : Ascii UInt8 := ⟨fun a => decimal_printable a.toNat⟩
instance : Ascii UInt16 := ⟨fun a => decimal_printable a.toNat⟩
instance : Ascii UInt32 := ⟨fun a => decimal_printable a.toNat⟩
instance : Ascii UInt64 := ⟨fun a => decimal_printable a.toNat⟩
instance : Ascii (List UInt8) :=
  ⟨fun _ => list_ascii fun _ hx => by obtain ⟨o, -, rfl⟩ := List.mem_map.1 hx; exact ascii o⟩

syntax "by_name" : term
macro_rules
  | `(by_name) => `(fun a => by cases a <;> decide)

instance : Ascii Bool := ⟨by_name⟩
instance : Ascii FrameType := ⟨by_name⟩
instance : Ascii FrameVersion := ⟨by_name⟩
instance : Ascii AddressMode := ⟨by_name⟩
instance : Ascii SecurityLevel := ⟨by_name⟩
instance : Ascii KeyIdMode := ⟨by_name⟩
instance : Ascii Direction := ⟨by_name⟩
instance : Ascii CommandId := ⟨by_name⟩
instance : Ascii AssociationStatus := ⟨by_name⟩
instance : Ascii DisassociationReason := ⟨by_name⟩
instance : Ascii EncodeError := ⟨by_name⟩

theorem panId_ascii (a : PanId) : PrintableAscii (panIdOut a) :=
  tuple_ascii (by decide) fun x hx => by rw [List.mem_singleton.1 hx]; exact ascii _
theorem shortAddress_ascii (a : ShortAddress) : PrintableAscii (shortAddressOut a) :=
  tuple_ascii (by decide) fun x hx => by rw [List.mem_singleton.1 hx]; exact ascii _
theorem extendedAddress_ascii (a : ExtendedAddress) : PrintableAscii (extendedAddressOut a) :=
  tuple_ascii (by decide) fun x hx => by rw [List.mem_singleton.1 hx]; exact ascii _

/-- A struct whose fields are printed in printable characters. -/
syntax "by_parts" : tactic
macro_rules
  | `(tactic| by_parts) => `(tactic| (
      first
        | decide
        | (refine struct_ascii (by decide) ?_
           simp only [List.forall_mem_cons, List.not_mem_nil, false_implies, implies_true, and_true]
           repeat' apply And.intro
           all_goals first
             | decide
             | exact ascii _
             | exact shortAddress_ascii _
             | exact panId_ascii _)
        | (refine tuple_ascii (by decide) ?_
           simp only [List.forall_mem_cons, List.not_mem_nil, false_implies, implies_true, and_true]
           repeat' apply And.intro
           all_goals first
             | exact ascii _
             | exact shortAddress_ascii _
             | exact extendedAddress_ascii _
             | exact panId_ascii _)))

theorem option_ascii [RustDebug α] [Ascii α] (o : Option α) : PrintableAscii (optionOut o) := by
  cases o with
  | none => exact (by decide : PrintableAscii c!"None")
  | some a => exact tuple_ascii (by decide) fun x hx => by rw [List.mem_singleton.1 hx]; exact ascii _
instance [RustDebug α] [Ascii α] : Ascii (Option α) := ⟨option_ascii⟩

instance : Ascii SecurityControl := ⟨fun a => by
  show PrintableAscii (SecurityControl.debugOut a); unfold SecurityControl.debugOut; by_parts⟩
instance : Ascii KeySource := ⟨fun a => by
  show PrintableAscii (KeySource.debugOut a); cases a <;> unfold KeySource.debugOut <;> by_parts⟩
instance : Ascii KeyIdentifier := ⟨fun a => by
  show PrintableAscii (KeyIdentifier.debugOut a); unfold KeyIdentifier.debugOut; by_parts⟩
instance : Ascii AuxHeader := ⟨fun a => by
  show PrintableAscii (AuxHeader.debugOut a); unfold AuxHeader.debugOut; by_parts⟩
instance : Ascii Address := ⟨fun a => by
  show PrintableAscii (Address.debugOut a); cases a <;> unfold Address.debugOut <;> by_parts⟩
instance : Ascii Header := ⟨fun a => by
  show PrintableAscii (Header.debugOut a); unfold Header.debugOut; by_parts⟩
instance : Ascii BeaconOrder := ⟨fun a => by
  show PrintableAscii (BeaconOrder.debugOut a); cases a <;> unfold BeaconOrder.debugOut <;> by_parts⟩
instance : Ascii SuperframeOrder := ⟨fun a => by
  show PrintableAscii (SuperframeOrder.debugOut a); cases a <;> unfold SuperframeOrder.debugOut <;> by_parts⟩
instance : Ascii SuperframeSpec := ⟨fun a => by
  show PrintableAscii (SuperframeSpec.debugOut a); unfold SuperframeSpec.debugOut; by_parts⟩
instance : Ascii GtsDescriptor := ⟨fun a => by
  show PrintableAscii (GtsDescriptor.debugOut a); unfold GtsDescriptor.debugOut; by_parts⟩

theorem items_ascii {P : α → List Char} (h : ∀ a, PrintableAscii (P a)) (l : List α) :
    PrintableAscii (listOut (l.map P)) :=
  list_ascii fun _ hx => by obtain ⟨o, -, rfl⟩ := List.mem_map.1 hx; exact h o

instance : Ascii GtsInfo := ⟨fun a => by
  show PrintableAscii (GtsInfo.debugOut a)
  refine struct_ascii (by decide) ?_
  simp only [List.forall_mem_cons, List.not_mem_nil, false_implies, implies_true, and_true]
  exact ⟨⟨by decide, ascii _⟩, ⟨by decide, ascii _⟩, by decide, items_ascii ascii _⟩⟩
instance : Ascii PendingAddress := ⟨fun a => by
  show PrintableAscii (PendingAddress.debugOut a)
  refine struct_ascii (by decide) ?_
  simp only [List.forall_mem_cons, List.not_mem_nil, false_implies, implies_true, and_true]
  exact ⟨⟨by decide, ascii _⟩, ⟨by decide, items_ascii shortAddress_ascii _⟩, ⟨by decide, ascii _⟩, by decide,
    items_ascii extendedAddress_ascii _⟩⟩
instance : Ascii Beacon := ⟨fun a => by
  show PrintableAscii (Beacon.debugOut a); unfold Beacon.debugOut; by_parts⟩
instance : Ascii CapabilityInformation := ⟨fun a => by
  show PrintableAscii (CapabilityInformation.debugOut a); unfold CapabilityInformation.debugOut; by_parts⟩
instance : Ascii CoordinatorRealignmentData := ⟨fun a => by
  show PrintableAscii (CoordinatorRealignmentData.debugOut a); unfold CoordinatorRealignmentData.debugOut; by_parts⟩
instance : Ascii GtsCharacteristics := ⟨fun a => by
  show PrintableAscii (GtsCharacteristics.debugOut a); unfold GtsCharacteristics.debugOut; by_parts⟩
instance : Ascii Command := ⟨fun a => by
  show PrintableAscii (Command.debugOut a); cases a <;> unfold Command.debugOut <;> by_parts⟩
instance : Ascii FrameContent := ⟨fun a => by
  show PrintableAscii (FrameContent.debugOut a); cases a <;> unfold FrameContent.debugOut <;> by_parts⟩
instance : Ascii Frame := ⟨fun a => by
  show PrintableAscii (Frame.debugOut a); unfold Frame.debugOut; by_parts⟩
instance : Ascii DecodeError := ⟨fun a => by
  show PrintableAscii (DecodeError.debugOut a); cases a <;> unfold DecodeError.debugOut <;> by_parts⟩

theorem quoted_ascii {s : List Char} (h : PrintableAscii s) : PrintableAscii (quoted s) := by
  unfold quoted
  refine ascii_append (a := ['"']) (by decide) (ascii_append (fun c hc => ?_) (by decide))
  obtain ⟨d, hd, hc⟩ := List.mem_flatMap.1 hc
  have hd := h d hd
  suffices he : PrintableAscii (escaped d) from he c hc
  unfold escaped
  repeat' split
  all_goals first
    | decide
    | exact fun c hc => by rw [List.mem_singleton.1 hc]; exact hd

theorem secErr_ascii (e : SecErr) (h : ∀ m, e = .writeError (.badInput m) → PrintableAscii m.toList) :
    PrintableAscii (debug e) := by
  show PrintableAscii (SecErr.debugOut e)
  cases e with
  | writeError e =>
    refine tuple_ascii (by decide) fun x hx => ?_
    rw [List.mem_singleton.1 hx]
    show PrintableAscii (ByteErr.debugOut e)
    cases e with
    | incomplete => decide
    | badOffset n => exact tuple_ascii (by decide) fun x hx => by rw [List.mem_singleton.1 hx]; exact ascii _
    | badInput m =>
      exact struct_ascii (by decide) fun x hx => by
        rw [List.mem_singleton.1 hx]
        have : PrintableAscii c!"err" := by decide
        exact ⟨this, quoted_ascii (h m rfl)⟩
  | _ => decide

/-! ## The properties -/

theorem Prints.apart {α : Type} [RustDebug α] [Prints α] : DebugApart α := Prints.legible.apart

/-- Values apart make logs apart. -/
theorem logs_tell {α : Type} [RustDebug α] [Prints α] : LogsTell α := by
  intro a b
  refine ⟨fun h => ?_, fun h => by rw [h]⟩
  induction a generalizing b with
  | nil =>
    cases b with
    | nil => rfl
    | cons y b => simp [logOf] at h
  | cons x a ih =>
    cases b with
    | nil => simp [logOf] at h
    | cons y b =>
      have h' : debug x ++ '\n' :: logOf a = debug y ++ '\n' :: logOf b := by simpa [logOf] using h
      have off : wordChar '\n' = false := by decide
      obtain ⟨h1, h2⟩ := Prints.legible x y _ _ (setsOff_cons.2 off) (setsOff_cons.2 off) h'
      rw [h1, ih _ (List.cons.inj h2).2]

/-- **C108** Frames: what `{:?}` prints of a frame tells it from every other frame, whatever is printed after it. -/
theorem C108_frames : DebugApart Frame := Prints.apart

/-- **C108** Headers and their parts. -/
theorem C108_headers :
    DebugApart Header ∧ DebugApart AuxHeader ∧ DebugApart SecurityControl ∧ DebugApart KeyIdentifier ∧
    DebugApart KeySource ∧ DebugApart FrameType ∧ DebugApart FrameVersion ∧ DebugApart AddressMode ∧
    DebugApart SecurityLevel ∧ DebugApart KeyIdMode :=
  ⟨Prints.apart, Prints.apart, Prints.apart, Prints.apart, Prints.apart, Prints.apart, Prints.apart, Prints.apart,
    Prints.apart, Prints.apart⟩

/-- **C108** Addresses, PAN identifiers, short and extended addresses. -/
theorem C108_addresses :
    DebugApart Address ∧ PrintsApart panIdOut ∧ PrintsApart shortAddressOut ∧ PrintsApart extendedAddressOut :=
  ⟨Prints.apart, panId_legible.apart, shortAddress_legible.apart, extendedAddress_legible.apart⟩

/-- **C108** Beacons and their parts: all of them, whatever their fields, the unused entries of their arrays included. -/
theorem C108_beacons :
    DebugApart Beacon ∧ DebugApart GtsInfo ∧ DebugApart PendingAddress ∧ DebugApart GtsDescriptor ∧
    DebugApart SuperframeSpec ∧ DebugApart BeaconOrder ∧ DebugApart SuperframeOrder :=
  ⟨Prints.apart, Prints.apart, Prints.apart, Prints.apart, Prints.apart, Prints.apart, Prints.apart⟩

/-- **C108** Commands and their parts, frame content. -/
theorem C108_commands :
    DebugApart Command ∧ DebugApart CapabilityInformation ∧ DebugApart CoordinatorRealignmentData ∧
    DebugApart GtsCharacteristics ∧ DebugApart CommandId ∧ DebugApart AssociationStatus ∧
    DebugApart DisassociationReason ∧ DebugApart FrameContent :=
  ⟨Prints.apart, Prints.apart, Prints.apart, Prints.apart, Prints.apart, Prints.apart, Prints.apart, Prints.apart⟩

/-- **C108** Errors, also those that carry a `byte::Error` with any message. -/
theorem C108_errors : DebugApart DecodeError ∧ DebugApart EncodeError ∧ DebugApart SecErr :=
  ⟨Prints.apart, Prints.apart, Prints.apart⟩

/-- **C108** A log with a frame, header, beacon, command or error on each line tells what was logged, and in which order. -/
theorem C108_logs :
    LogsTell Frame ∧ LogsTell Header ∧ LogsTell Beacon ∧ LogsTell Command ∧ LogsTell DecodeError ∧
    LogsTell EncodeError ∧ LogsTell SecErr :=
  ⟨logs_tell, logs_tell, logs_tell, logs_tell, logs_tell, logs_tell, logs_tell⟩

/-- **C108** Whatever octets came off the air, what is printed of them is printable: no line breaks or control characters. -/
theorem C108_printable :
    PrintsAscii Frame ∧ PrintsAscii Header ∧ PrintsAscii Address ∧ PrintsAscii Beacon ∧ PrintsAscii Command ∧
    PrintsAscii FrameContent ∧ PrintsAscii DecodeError ∧ PrintsAscii EncodeError :=
  ⟨ascii, ascii, ascii, ascii, ascii, ascii, ascii, ascii⟩

/-- **C108** The same for the errors of security, provided a message from outside the crate is printable. -/
theorem C108_printable_security (e : SecErr)
    (h : ∀ m, e = .writeError (.badInput m) → PrintableAscii m.toList) : PrintableAscii (debug e) := secErr_ascii e h

end Verif
