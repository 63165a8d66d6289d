import Verif.Lemmas.ReaderS
import Verif.Spec.CommandSpec

namespace Verif
open Spec

theorem readShort_cons (a b : UInt8) (rest : List UInt8) :
    ShortAddress.tryRead (a :: b :: rest) = .ok (u16Of a b, 2) := by
  have h : ¬ (rest.length + 1 + 1 < 2) := by omega
  simp only [ShortAddress.tryRead, R.run, R.read, tryReadU16, tryReadNat, Out.bind, List.drop_zero,
    List.length_cons, h, if_false, bytesToNat, List.take_succ_cons, List.take_zero, leToNat, u16Of,
    Nat.not_lt_zero]
  rfl

theorem readPan_cons (a b : UInt8) (rest : List UInt8) :
    PanId.tryRead (a :: b :: rest) = .ok (u16Of a b, 2) := readShort_cons a b rest

theorem readU8_cons (a : UInt8) (rest : List UInt8) : tryReadU8 (a :: rest) = .ok (a, 1) := by
  simp [tryReadU8, tryReadNat, Out.bind, bytesToNat, leToNat]

theorem readU8_nil : tryReadU8 [] = .err .incomplete := rfl
theorem CapabilityInformation.ofU8_eq : ∀ b, CapabilityInformation.ofU8 b = capabilityOf b := by
  apply forall_u8; decide +kernel

theorem GtsCharacteristics.ofU8_eq : ∀ b, GtsCharacteristics.ofU8 b = characteristicsOf b := by
  apply forall_u8; decide +kernel

theorem AssociationStatus.optionalFrom_eq : ∀ b, AssociationStatus.optionalFrom b = statusOf b := by
  apply forall_u8; decide +kernel

theorem DisassociationReason.optionalFrom_eq : ∀ b, DisassociationReason.optionalFrom b = reasonOf b := by
  apply forall_u8; decide +kernel


theorem CommandId.optionalFrom_none (id : UInt8) (h1 : id.toNat ≠ 1) (h2 : id.toNat ≠ 2)
    (h3 : id.toNat ≠ 3) (h4 : id.toNat ≠ 4) (h5 : id.toNat ≠ 5) (h6 : id.toNat ≠ 6)
    (h7 : id.toNat ≠ 7) (h8 : id.toNat ≠ 8) (h9 : id.toNat ≠ 9) :
    CommandId.optionalFrom id = none := by
  have : ∀ k : UInt8, id.toNat ≠ k.toNat → id ≠ k := fun k h e => h (by rw [e])
  simp only [optionalFrom, table, enumOptionalFrom]
  simp only [this 1 h1, this 2 h2, this 3 h3, this 4 h4, this 5 h5, this 6 h6, this 7 h7,
    this 8 h8, this 9 h9, if_false]

theorem CoordinatorRealignmentData.tryRead_short (rest : List UInt8) (h : rest.length < 7) :
    CoordinatorRealignmentData.tryRead rest = .err .incomplete := by
  simp only [CoordinatorRealignmentData.tryRead, R.run, R.bind_apply, R.checkLen, List.drop_zero,
    h, if_true]

theorem CoordinatorRealignmentData.tryRead_none (p0 p1 c0 c1 ch d0 d1 : UInt8) :
    CoordinatorRealignmentData.tryRead [p0, p1, c0, c1, ch, d0, d1]
      = .ok (⟨u16Of p0 p1, u16Of c0 c1, ch, u16Of d0 d1, none⟩, 7) := by
  simp [CoordinatorRealignmentData.tryRead, R.run, R.bind_apply, R.checkLen, R.read, R.len, R.offset,
    readPan_cons, readShort_cons, readU8_cons, R.pure_eq]

theorem CoordinatorRealignmentData.tryRead_some (p0 p1 c0 c1 ch d0 d1 page : UInt8)
    (rest : List UInt8) :
    CoordinatorRealignmentData.tryRead (p0 :: p1 :: c0 :: c1 :: ch :: d0 :: d1 :: page :: rest)
      = .ok (⟨u16Of p0 p1, u16Of c0 c1, ch, u16Of d0 d1, some page⟩, 8) := by
  have h1 : ∀ k : Nat, k < 8 → ¬ rest.length + 1 + 1 + 1 + 1 + 1 + 1 + 1 + 1 < k := by intros; omega
  have h2 : rest.length + 1 + 1 + 1 + 1 + 1 + 1 + 1 + 1 > 7 := by omega
  simp only [CoordinatorRealignmentData.tryRead, R.run, R.bind_apply, R.checkLen, R.read, R.len,
    R.offset, readPan_cons, readShort_cons, readU8_cons, R.pure_eq, List.drop_zero,
    List.length_cons, h1, if_false, List.drop_succ_cons, Nat.zero_add, Nat.reduceAdd,
    Nat.reduceLT, h2, if_true]

/-- The decoder is exactly the specification. -/
theorem Command.tryRead_eq (bytes : List UInt8) : Command.tryRead bytes = commandRead bytes := by
  cases bytes with
  | nil => rfl
  | cons id rest =>
    simp only [Command.tryRead, R.run, R.bind_apply, R.read, List.length_cons, Nat.not_lt_zero,
      if_false, List.drop_zero, readU8_cons]
    have lit : ∀ k : UInt8, id.toNat = k.toNat → id = k := fun k h => UInt8.toNat_inj.mp h
    have h1 : ∀ n : Nat, ¬ n + 1 < 0 + 1 := by intros; omega
    symm
    simp only [commandRead]
    split <;> symm
    · rename_i h; obtain rfl := lit 1 h
      show (R.read tryReadU8 >>= fun b => _) _ _ = _
      cases rest with
      | nil => rfl
      | cons b rest =>
        simp [R.bind_apply, R.read, readU8_cons, R.pure_eq, CapabilityInformation.ofU8_eq]
    · rename_i h; obtain rfl := lit 2 h
      show (R.read ShortAddress.tryRead >>= fun b => _) _ _ = _
      match rest with
      | [] => rfl
      | [a] => rfl
      | [a, b] => simp [R.bind_apply, R.read, readU8_nil, readShort_cons]
      | a :: b :: c :: rest =>
        simp only [R.bind_apply, R.read, readShort_cons, List.length_cons,
          List.drop_succ_cons, List.drop_zero, Nat.zero_add, Nat.reduceAdd,
          AssociationStatus.optionalFrom_eq]
        simp only [show ¬ rest.length + 1 + 1 + 1 + 1 < 3 by omega,
          show ¬ rest.length + 1 + 1 + 1 + 1 < 1 by omega, if_false,
          List.drop_succ_cons, List.drop_zero, readU8_cons]
        cases statusOf c <;> rfl
    · rename_i h; obtain rfl := lit 3 h
      show (R.read tryReadU8 >>= fun b => _) _ _ = _
      cases rest with
      | nil => rfl
      | cons b rest =>
        simp only [R.bind_apply, R.read, readU8_cons, List.length_cons,
          List.drop_succ_cons, List.drop_zero, Nat.zero_add, Nat.reduceAdd,
          DisassociationReason.optionalFrom_eq]
        simp only [show ¬ rest.length + 1 + 1 < 1 by omega, if_false]
        cases reasonOf b <;> rfl
    · rename_i h; obtain rfl := lit 4 h; rfl
    · rename_i h; obtain rfl := lit 5 h; rfl
    · rename_i h; obtain rfl := lit 6 h; rfl
    · rename_i h; obtain rfl := lit 7 h; rfl
    · rename_i h; obtain rfl := lit 8 h
      show (R.read CoordinatorRealignmentData.tryRead >>= fun b => _) _ _ = _
      have hl : ¬ rest.length + 1 < 1 := by omega
      simp only [R.bind_apply, R.read, List.length_cons, Nat.zero_add, hl, if_false,
        List.drop_succ_cons, List.drop_zero]
      symm
      split <;> symm
      · simp [CoordinatorRealignmentData.tryRead_none, R.pure_eq]
      · simp [CoordinatorRealignmentData.tryRead_some, R.pure_eq]
      · rename_i h1 h2
        have : rest.length < 7 := by
          match rest with
          | [] | [_] | [_, _] | [_, _, _] | [_, _, _, _] | [_, _, _, _, _] | [_, _, _, _, _, _] =>
            simp
          | [a, b, c, d, e, f, g] => exact (h1 _ _ _ _ _ _ _ rfl).elim
          | a :: b :: c :: d :: e :: f :: g :: i :: t => exact (h2 _ _ _ _ _ _ _ _ _ rfl).elim
        rw [CoordinatorRealignmentData.tryRead_short _ this]
    · rename_i h; obtain rfl := lit 9 h
      show (R.read tryReadU8 >>= fun b => _) _ _ = _
      cases rest with
      | nil => rfl
      | cons b rest =>
        simp [R.bind_apply, R.read, readU8_cons, R.pure_eq, GtsCharacteristics.ofU8_eq]
    · rw [CommandId.optionalFrom_none id (by assumption) (by assumption) (by assumption)
        (by assumption) (by assumption) (by assumption) (by assumption) (by assumption)
        (by assumption)]
      rfl

/-! ## Writing -/

theorem CapabilityInformation.toU8_eq (c : CapabilityInformation) :
    c.toU8 = UInt8.ofNat (capabilityValue c) := by
  obtain ⟨a, b, c, d, e⟩ := c
  revert a b c d e; decide

theorem GtsCharacteristics.toU8_eq (g : GtsCharacteristics) :
    g.toU8 = UInt8.ofNat (characteristicsValue g) := by
  obtain ⟨c, a, b⟩ := g
  have : ∀ c : UInt8, ∀ a b : Bool, (GtsCharacteristics.mk c a b).toU8
      = UInt8.ofNat (characteristicsValue ⟨c, a, b⟩) := by
    apply forall_u8; decide +kernel
  exact this c a b

theorem Writes.short (a : ShortAddress) : Writes (ShortAddress.tryWrite a) (.ok ()) (le 2 a.toNat) :=
  Writes.run (WSpec.write (Writes.u16 .little a))

theorem Writes.pan (a : PanId) : Writes (PanId.tryWrite a) (.ok ()) (le 2 a.toNat) :=
  Writes.run (WSpec.write (Writes.u16 .little a))

theorem CoordinatorRealignmentData.writes (d : CoordinatorRealignmentData) :
    Writes d.tryWrite (.ok ())
      (le 2 d.panId.toNat ++ (le 2 d.coordinatorAddress.toNat ++ ([d.channel]
        ++ (le 2 d.deviceAddress.toNat ++ pageOctets d.channelPage)))) := by
  refine Writes.run (WSpec.bind (WSpec.write (Writes.pan _)) (WSpec.bind (WSpec.write (Writes.short _))
    (WSpec.bind (WSpec.write (Writes.u8 _)) (WSpec.bind (WSpec.write (Writes.short _)) ?_))))
  cases d.channelPage with
  | none => exact WSpec.pure ()
  | some p => exact WSpec.write (Writes.u8 p)

theorem Command.writes (c : Command) : Writes c.tryWrite (.ok ()) (commandOctets c) := by
  apply Writes.run
  cases c with
  | associationRequest c =>
    refine (WSpec.bind (WSpec.write (Writes.u8 _)) (WSpec.write (Writes.u8 _))).of_eq ?_
    rw [CapabilityInformation.toU8_eq]; rfl
  | associationResponse a s =>
    refine (WSpec.bind (WSpec.write (Writes.u8 _)) (WSpec.bind (WSpec.write (Writes.short _))
      (WSpec.write (Writes.u8 _)))).of_eq ?_
    cases s <;> rfl
  | disassociationNotification r =>
    refine (WSpec.bind (WSpec.write (Writes.u8 _)) (WSpec.write (Writes.u8 _))).of_eq ?_
    cases r <;> rfl
  | dataRequest => exact WSpec.write (Writes.u8 _)
  | panIdConflictNotification => exact WSpec.write (Writes.u8 _)
  | orphanNotification => exact WSpec.write (Writes.u8 _)
  | beaconRequest => exact WSpec.write (Writes.u8 _)
  | coordinatorRealignment d =>
    refine (WSpec.bind (WSpec.write (Writes.u8 _)) (WSpec.write d.writes)).of_eq ?_
    simp only [commandOctets, List.append_assoc]; rfl
  | guaranteedTimeSlotRequest g =>
    refine (WSpec.bind (WSpec.write (Writes.u8 _)) (WSpec.write (Writes.u8 _))).of_eq ?_
    rw [GtsCharacteristics.toU8_eq]; rfl

/-! ## Codes and octets -/

theorem capabilityOf_value (c : CapabilityInformation) :
    capabilityOf (UInt8.ofNat (capabilityValue c)) = c := by
  obtain ⟨a, b, c, d, e⟩ := c
  revert a b c d e; decide

theorem characteristicsOf_value (g : GtsCharacteristics) :
    characteristicsOf (UInt8.ofNat (characteristicsValue g))
      = { g with count := UInt8.ofNat (g.count.toNat % 16) } := by
  obtain ⟨c, a, b⟩ := g
  have : ∀ c : UInt8, ∀ a b : Bool, characteristicsOf (UInt8.ofNat (characteristicsValue ⟨c, a, b⟩))
      = ⟨UInt8.ofNat (c.toNat % 16), a, b⟩ := by
    apply forall_u8; decide +kernel
  exact this c a b

theorem statusOf_code (s : AssociationStatus) : statusOf (UInt8.ofNat (statusCode s)) = some s := by
  cases s <;> rfl

theorem reasonOf_code (s : DisassociationReason) : reasonOf (UInt8.ofNat (reasonCode s)) = some s := by
  cases s <;> rfl

theorem le2_eq (n : Nat) : le 2 n = [UInt8.ofNat n, UInt8.ofNat (n / 256)] := by
  simp [le, List.range_succ]

theorem u16Of_le (a : UInt16) :
    u16Of (UInt8.ofNat a.toNat) (UInt8.ofNat (a.toNat / 256)) = a := by
  unfold u16Of
  have := a.toNat_lt
  apply UInt16.toNat_inj.mp
  rw [UInt8.toNat_ofNat', UInt8.toNat_ofNat', UInt16.toNat_ofNat_of_lt' (by simp [UInt16.size]; omega)]
  omega

theorem u16Of_le' (a : UInt16) : u16Of a.toUInt8 (UInt8.ofNat (a.toNat / 256)) = a := by
  have := u16Of_le a
  simpa using this

/-- Reading what was written, followed by anything. -/
theorem commandRead_octets (c : Command) (hr : CommandInRange c) (suffix : List UInt8)
    (hp : NoPage c → suffix = []) :
    commandRead (commandOctets c ++ suffix) = .ok (c, (commandOctets c).length) := by
  cases c with
  | associationRequest c => simp [commandOctets, commandRead, capabilityOf_value]
  | associationResponse a s =>
    simp [commandOctets, commandRead, le2_eq, statusOf_code, u16Of_le']
  | disassociationNotification r => simp [commandOctets, commandRead, reasonOf_code]
  | dataRequest => rfl
  | panIdConflictNotification => rfl
  | orphanNotification => rfl
  | beaconRequest => rfl
  | coordinatorRealignment d =>
    obtain ⟨p, ca, ch, da, page⟩ := d
    cases page with
    | none =>
      obtain rfl := hp rfl
      simp [commandOctets, commandRead, le2_eq, u16Of_le', pageOctets]
    | some page => simp [commandOctets, commandRead, le2_eq, u16Of_le', pageOctets]
  | guaranteedTimeSlotRequest g =>
    have hg : g.count.toNat ≤ 15 := hr
    simp only [commandOctets, commandRead, List.cons_append, characteristicsOf_value]
    have : UInt8.ofNat (g.count.toNat % 16) = g.count := by
      rw [Nat.mod_eq_of_lt (by omega)]; simp
    rw [this]; rfl

end Verif
