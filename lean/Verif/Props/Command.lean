import Verif.Lemmas.Command
import Verif.Lemmas.Holds

/-!
# Properties of MAC commands: C18–C21
-/

namespace Verif
open Spec

/-- **C18** Every command in range round-trips exactly, followed by anything (a realignment without
channel page: followed by nothing). -/
theorem C18_command_round_trip (c : Command) (hr : CommandInRange c) (buf buf' : List UInt8) (n : Nat)
    (hw : c.tryWrite buf = (.ok n, buf')) (suffix : List UInt8) (hp : NoPage c → suffix = []) :
    Command.tryRead (buf'.take n ++ suffix) = .ok (c, n) := by
  obtain ⟨_, _, hn, _⟩ := c.writes.ok_inv hw
  rw [c.writes.ok_take hw, Command.tryRead_eq, commandRead_octets c hr suffix hp, hn]

/-- **C18** A GTS count beyond 15 is truncated to four bits; everything else about the request
survives. -/
theorem C18_gts_count_truncated (g : GtsCharacteristics) (buf buf' : List UInt8) (n : Nat)
    (hw : (Command.guaranteedTimeSlotRequest g).tryWrite buf = (.ok n, buf')) (suffix : List UInt8) :
    Command.tryRead (buf'.take n ++ suffix) =
      .ok (.guaranteedTimeSlotRequest { g with count := UInt8.ofNat (g.count.toNat % 16) }, 2) := by
  rw [(Command.writes _).ok_take hw, Command.tryRead_eq]
  simp only [commandOctets, commandRead, List.cons_append, characteristicsOf_value]
  rfl

example : CommandInRange (.guaranteedTimeSlotRequest ⟨15, true, false⟩) ∧
    (Command.guaranteedTimeSlotRequest ⟨15, true, false⟩).tryWrite [0, 0, 0]
      = (.ok 2, [9, 0x1f, 0]) := ⟨by show 15 ≤ 15; decide, by decide⟩
example : ¬ NoPage (.coordinatorRealignment ⟨0x1234, 0xabcd, 11, 0x5678, some 2⟩) ∧
    (Command.coordinatorRealignment ⟨0x1234, 0xabcd, 11, 0x5678, some 2⟩).tryWrite
      (List.replicate 10 0) = (.ok 9, [8, 0x34, 0x12, 0xcd, 0xab, 11, 0x78, 0x56, 2, 0]) :=
  ⟨by simp [NoPage], by decide⟩

/-- **C19** Every command is written, with the given layout, exactly when there is room. -/
theorem C19_command_layout (c : Command) (buf : List UInt8) :
    ((commandOctets c).length ≤ buf.length →
      c.tryWrite buf = (.ok (commandOctets c).length,
        commandOctets c ++ buf.drop (commandOctets c).length)) ∧
    (buf.length < (commandOctets c).length → (c.tryWrite buf).1 = .err .incomplete) := by
  refine ⟨c.writes.ok_of_room buf, fun h => ?_⟩
  obtain ⟨k, _, hk⟩ := (c.writes buf).2 h
  rw [hk]

/-- **C20** A realignment command without channel page followed by any octet reads back with that
octet as channel page, and one octet more is consumed than was written. -/
theorem C20_realignment_swallows (d : CoordinatorRealignmentData) (hd : d.channelPage = none)
    (buf buf' : List UInt8) (n : Nat)
    (hw : (Command.coordinatorRealignment d).tryWrite buf = (.ok n, buf'))
    (x : UInt8) (suffix : List UInt8) :
    Command.tryRead (buf'.take n ++ x :: suffix) =
      .ok (.coordinatorRealignment { d with channelPage := some x }, n + 1) := by
  obtain ⟨_, _, hn, _⟩ := (Command.writes _).ok_inv hw
  rw [(Command.writes _).ok_take hw, Command.tryRead_eq]
  have e : commandOctets (.coordinatorRealignment d) ++ x :: suffix
      = commandOctets (.coordinatorRealignment { d with channelPage := some x }) ++ suffix := by
    simp [commandOctets, hd, pageOctets]
  rw [e, commandRead_octets (.coordinatorRealignment { d with channelPage := some x }) trivial suffix
    (fun h => by cases (h : some x = none)), hn]
  simp [commandOctets, hd, pageOctets]

example : (Command.coordinatorRealignment ⟨1, 2, 3, 4, none⟩).tryWrite (List.replicate 9 7)
    = (.ok 8, [8, 1, 0, 2, 0, 3, 4, 0, 7]) := by decide

/-- **C21** Reading a command is exactly the independent specification `commandRead`. -/
theorem C21_command_read (bytes : List UInt8) : Command.tryRead bytes = commandRead bytes :=
  Command.tryRead_eq bytes

theorem statusOf_none (s : UInt8) :
    statusOf s = none ↔ s ≠ 0 ∧ s ≠ 1 ∧ s ≠ 2 ∧ s ≠ 3 ∧ s ≠ 128 := by
  revert s; apply forall_u8; decide +kernel

theorem reasonOf_none (s : UInt8) : reasonOf s = none ↔ s ≠ 1 ∧ s ≠ 2 := by
  revert s; apply forall_u8; decide +kernel

/-- Case analysis on the identifier. -/
theorem command_cases (id : UInt8) : ¬ KnownCommand id ∨ id = 1 ∨ id = 2 ∨ id = 3 ∨ id = 4 ∨ id = 5
    ∨ id = 6 ∨ id = 7 ∨ id = 8 ∨ id = 9 := by
  unfold KnownCommand
  revert id; apply forall_u8; decide +kernel

theorem commandRead_unknown (id : UInt8) (rest : List UInt8) (h : ¬ KnownCommand id) :
    commandRead (id :: rest) = .err invalidValue := by
  unfold KnownCommand at h
  unfold commandRead
  simp only
  split <;> first | omega | rfl

/-- **C21** Reading a command never panics; it fails with `InvalidValue` exactly on an unknown
identifier or a field outside its enumeration; with `Incomplete` exactly when octets are missing;
and with nothing else.  A success consumes the octets demanded by the identifier, and one more
for a realignment followed by anything. -/
theorem C21_command_acceptance (bytes : List UInt8) :
    Command.tryRead bytes ≠ .panic ∧
    (Command.tryRead bytes = .err invalidValue ↔
      (∃ id rest, bytes = id :: rest ∧ ¬ KnownCommand id) ∨ BadField bytes) ∧
    (Command.tryRead bytes = .err .incomplete ↔
      bytes = [] ∨ ∃ id rest, bytes = id :: rest ∧ KnownCommand id ∧ bytes.length < commandNeed id) ∧
    (∀ e, Command.tryRead bytes = .err e → e = invalidValue ∨ e = .incomplete) ∧
    (∀ c n, Command.tryRead bytes = .ok (c, n) → ∃ id rest, bytes = id :: rest ∧ n ≤ bytes.length ∧
      n = commandNeed id + (if id = 8 ∧ 8 < bytes.length then 1 else 0)) := by
  rw [C21_command_read]
  cases bytes with
  | nil => simp [commandRead, BadField, invalidValue]
  | cons id rest =>
    rcases command_cases id with h | h | h | h | h | h | h | h | h | h
    · rw [commandRead_unknown id rest h]
      refine ⟨by simp, ?_, ?_, ?_, ?_⟩
      · simp [h]
      · simp [h, invalidValue]
      · simp [eq_comm]
      · simp
    · subst h
      cases rest with
      | nil => simp [commandRead, BadField, invalidValue, KnownCommand, commandNeed]
      | cons a rest => simp [commandRead, BadField, KnownCommand, commandNeed]
    · subst h
      match rest with
      | [] => simp [commandRead, BadField, invalidValue, KnownCommand, commandNeed]
      | [a] => simp [commandRead, BadField, invalidValue, KnownCommand, commandNeed]
      | [a, b] => simp [commandRead, BadField, invalidValue, KnownCommand, commandNeed]
      | a :: b :: s :: rest =>
        have hs := statusOf_none s
        cases hst : statusOf s with
        | none =>
          have := hs.1 hst
          simp [commandRead, BadField, KnownCommand, commandNeed, hst, invalidValue]
          exact ⟨_, _, _, ⟨rfl, rfl, rfl⟩, this⟩
        | some x =>
          have : ¬ (s ≠ 0 ∧ s ≠ 1 ∧ s ≠ 2 ∧ s ≠ 3 ∧ s ≠ 128) := by rw [← hs, hst]; simp
          simp [commandRead, BadField, KnownCommand, commandNeed, hst]
          intro h1 h2 h3 h4
          exact Classical.byContradiction fun h5 => this ⟨h1, h2, h3, h4, h5⟩
    · subst h
      cases rest with
      | nil => simp [commandRead, BadField, invalidValue, KnownCommand, commandNeed]
      | cons s rest =>
        have hs := reasonOf_none s
        cases hst : reasonOf s with
        | none =>
          have := hs.1 hst
          simp [commandRead, BadField, KnownCommand, commandNeed, hst, invalidValue, this]
        | some x =>
          have : ¬ (s ≠ 1 ∧ s ≠ 2) := by rw [← hs, hst]; simp
          simp [commandRead, BadField, KnownCommand, commandNeed, hst, this]
    · subst h; simp [commandRead, BadField, KnownCommand, commandNeed]
    · subst h; simp [commandRead, BadField, KnownCommand, commandNeed]
    · subst h; simp [commandRead, BadField, KnownCommand, commandNeed]
    · subst h; simp [commandRead, BadField, KnownCommand, commandNeed]
    · subst h
      match rest with
      | [] | [_] | [_, _] | [_, _, _] | [_, _, _, _] | [_, _, _, _, _] | [_, _, _, _, _, _] =>
        simp [commandRead, BadField, invalidValue, KnownCommand, commandNeed]
      | [a, b, c, d, e, f, g] => simp [commandRead, BadField, KnownCommand, commandNeed]
      | a :: b :: c :: d :: e :: f :: g :: i :: t =>
        simp [commandRead, BadField, KnownCommand, commandNeed]
    · subst h
      cases rest with
      | nil => simp [commandRead, BadField, invalidValue, KnownCommand, commandNeed]
      | cons a rest => simp [commandRead, BadField, KnownCommand, commandNeed]

/-- Each outcome of C21 occurs. -/
example : Command.tryRead [2, 1, 0, 4] = .err invalidValue ∧ Command.tryRead [0] = .err invalidValue ∧
    Command.tryRead [8, 1, 2, 3] = .err .incomplete ∧
    Command.tryRead [2, 1, 0, 0x80, 9] = .ok (.associationResponse 1 .fastAssociationSuccesful, 4) := by
  decide

end Verif
