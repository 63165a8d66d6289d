import Verif.Props.Steps
import Verif.Spec.LifeSpec

/-!
# C103: everything at once

Calls cut short anywhere, lookups and ciphers that answer anything, a key lookup that changes the device table while it
is asked, and an application that sets address, counter and device table between calls.
-/

namespace Verif
open Spec

section Shape

variable {κ σ α : Type} {lookup : DevLookup σ} {euid : UInt64}

/-- A program that asks for no key any more. -/
inductive NoAsk : Prog κ α → Prop
  | done (a) : NoAsk (.done a)
  | setCounter (w c) {next} : NoAsk next → NoAsk (.setCounter w c next)
  | encrypt (w t k n a b) {next} : (∀ r, NoAsk (next r)) → NoAsk (.encrypt w t k n a b next)
  | lookupDevice (w m a) {next} : (∀ r, NoAsk (next r)) → NoAsk (.lookupDevice w m a next)
  | decrypt (w t k n a b g) {next} : (∀ r, NoAsk (next r)) → NoAsk (.decrypt w t k n a b g next)
  | storeDevice (w d) {next} : NoAsk next → NoAsk (.storeDevice w d next)

theorem AfterKey.noAsk {c : UInt32} {p : Prog κ α} (h : AfterKey euid c p) : NoAsk p := by
  cases h with
  | done a => exact .done a
  | encrypt w t key l aad buf next hn =>
    refine .encrypt _ _ _ _ _ _ fun r => ?_
    obtain ⟨a, ha⟩ := hn r
    rw [ha]; exact .done a

theorem AfterReadKey.noAsk {cfg : Cfg} {header : Header} {aux : AuxHeader} {B G : α → Prop} {p : Prog κ α}
    (h : AfterReadKey cfg header aux B G p) : NoAsk p := by
  cases h with
  | done a => exact .done a
  | lookup w src next hs h0 h =>
    refine .lookupDevice _ _ _ fun r => ?_
    rcases r with _ | d
    · obtain ⟨a, ha, -⟩ := h0
      rw [ha]; exact .done a
    · have hd := h d
      generalize next (some d) = q at hd
      cases hd with
      | done a => exact .done a
      | decrypt w fresh hd t key n a b g next hx =>
        refine .decrypt _ _ _ _ _ _ _ fun r => ?_
        rcases hx r with ⟨a, ha, -⟩ | ⟨a, c, w', -, -, ha, -⟩
        · rw [ha]; exact .done a
        · rw [ha]; exact .storeDevice _ _ (.done a)

theorem LiveSteps.of_noAsk {p q : Prog κ α} {m m' : Memory σ} {tr} (h : LiveSteps euid lookup p m tr q m')
    (hp : NoAsk p) : ∃ es, tr = es.map .effect ∧ Steps lookup p m es q m' := by
  induction h with
  | none p m => exact ⟨[], rfl, .none _ _⟩
  | @step p m e q m' tr r m'' hs _ ih =>
    have hq : NoAsk q := by
      cases hs with
      | setCounter => cases hp; assumption
      | askKey => cases hp
      | encrypt => cases hp; rename_i h; exact h _
      | lookupDevice => cases hp; rename_i h; exact h _
      | decrypt => cases hp; rename_i h; exact h _
      | storeDevice => cases hp; assumption
    obtain ⟨es, rfl, h⟩ := ih hq
    exact ⟨e :: es, rfl, .more hs h⟩
  | changing => cases hp

theorem LiveSteps.of_askKey {w mode kid addr next} {q : Prog κ α} {m m' : Memory σ} {tr}
    (h : LiveSteps euid lookup (.askKey w mode kid addr next) m tr q m') :
    ∃ cs dev, TableChanges euid m.counter m.dev cs dev ∧
      ((tr = cs ∧ q = .askKey w mode kid addr next ∧ m' = { m with dev := dev }) ∨
       ∃ r es, tr = cs ++ .effect .key :: es ∧ LiveSteps euid lookup (next r) { m with dev := dev } es q m') := by
  generalize hp : Prog.askKey w mode kid addr next = p at h
  induction h with
  | none p m => exact ⟨[], m.dev, .none _, .inl ⟨rfl, rfl, rfl⟩⟩
  | step hs hl _ =>
    subst hp
    cases hs with
    | askKey _ _ _ _ _ _ answer => exact ⟨[], _, .none _, .inr ⟨answer, _, rfl, hl⟩⟩
  | changing dev' _ ih =>
    cases hp
    obtain ⟨cs, dev, hc, h⟩ := ih rfl
    refine ⟨_, dev, .more _ dev' hc, ?_⟩
    rcases h with ⟨rfl, h1, h2⟩ | ⟨r, es, rfl, h1⟩
    · exact .inl ⟨rfl, h1, h2⟩
    · exact .inr ⟨r, es, rfl, h1⟩

theorem LiveSteps.of_done {a : α} {q : Prog κ α} {m m' : Memory σ} {tr}
    (h : LiveSteps euid lookup (.done a) m tr q m') : tr = [] ∧ q = .done a ∧ m' = m := by
  cases h with
  | none => exact ⟨rfl, rfl, rfl⟩
  | step h => cases h

theorem LiveSteps.of_setCounter {w c next} {q : Prog κ α} {m m' : Memory σ} {tr}
    (h : LiveSteps euid lookup (.setCounter w c next) m tr q m') :
    (tr = [] ∧ q = .setCounter w c next ∧ m' = m) ∨
    ∃ tr', tr = .effect (.counter c) :: tr' ∧ LiveSteps euid lookup next { m with counter := c } tr' q m' := by
  cases h with
  | none => exact .inl ⟨rfl, rfl, rfl⟩
  | step h h' => cases h; exact .inr ⟨_, rfl, h'⟩

theorem tableChanges_inv {e : UInt64} {c : UInt32} {dev dev' : σ} {cs} (h : TableChanges e c dev cs dev')
    (P : σ → Prop) (h0 : P dev) (hc : ∀ t t', .changed t t' ∈ cs → P t.dev → P t'.dev) : P dev' := by
  induction h with
  | none => exact h0
  | more dev dev' _ ih =>
    exact ih (hc _ _ (List.mem_cons_self ..) h0) fun t t' ht => hc t t' (List.mem_cons_of_mem _ ht)

theorem tableChanges_mem {e : UInt64} {c : UInt32} {dev dev' : σ} {cs} (h : TableChanges e c dev cs dev')
    (x : Live σ) (hx : x ∈ cs) : ∃ d d', x = .changed ⟨e, c, d⟩ ⟨e, c, d'⟩ := by
  induction h with
  | none => cases hx
  | more dev dev' _ ih =>
    rcases List.mem_cons.1 hx with rfl | hx
    · exact ⟨_, _, rfl⟩
    · exact ih hx

end Shape

section Calls

variable {κ σ : Type} {cfg : Cfg} {lookup : DevLookup σ}

theorem effectsOf_map (es : List Effect) : effectsOf (es.map (.effect : Effect → Live σ)) = es := by
  induction es with
  | nil => rfl
  | cons e es ih => exact congrArg (e :: ·) ih

theorem changesOf_map (es : List Effect) : changesOf (es.map (.effect : Effect → Live σ)) = [] := by
  induction es with
  | nil => rfl
  | cons e es ih => exact ih

theorem effectsOf_changes {e : UInt64} {c : UInt32} {dev dev' : σ} {cs} (h : TableChanges e c dev cs dev') :
    effectsOf cs = [] := by
  induction h with
  | none => rfl
  | more _ _ _ ih => exact ih

theorem changesOf_changes {e : UInt64} {c : UInt32} {dev dev' : σ} {cs} (h : TableChanges e c dev cs dev') :
    changesOf cs = cs := by
  induction h with
  | none => rfl
  | more _ _ _ ih => exact congrArg (_ :: ·) ih

theorem effectsOf_append (a b : List (Live σ)) : effectsOf (a ++ b) = effectsOf a ++ effectsOf b :=
  List.filterMap_append

theorem changesOf_append (a b : List (Live σ)) : changesOf (a ++ b) = changesOf a ++ changesOf b :=
  List.filter_append _ _

theorem live_of_steps {α : Type} {euid : UInt64} {p q : Prog κ α} {m m' : Memory σ} {es} (h : Steps lookup p m es q m') :
    LiveSteps euid lookup p m (es.map .effect) q m' := by
  induction h with
  | none p m => exact .none p m
  | more hs _ ih => exact .step hs ih

/-- What a reception does, with changes by the key lookup. -/
theorem live_read {euid : UInt64} {mode : FooterMode} {buf : List UInt8} {m m' : Memory σ} {tr : List (Live σ)}
    {rest : Prog κ (Out SecErr (Frame × Nat) × List UInt8)}
    (h : LiveSteps euid lookup (readProg cfg mode buf) m tr rest m') :
    ∃ cs dev es, tr = cs ++ es.map .effect ∧ TableChanges euid m.counter m.dev cs dev ∧
      Steps lookup (readProg cfg mode buf) { m with dev := dev } es rest m' := by
  obtain ⟨header, hr⟩ := tryReadP_shape (κ := κ) cfg buf mode
  change ReadShape _ _ _ _ (readProg cfg mode buf) at hr
  generalize readProg (κ := κ) cfg mode buf = p at h hr
  cases hr with
  | done a ha =>
    obtain ⟨rfl, rfl, rfl⟩ := LiveSteps.of_done h
    exact ⟨[], _, [], rfl, .none _, .none _ _⟩
  | secured w aux ha kid addr next hn =>
    obtain ⟨cs, dev, hc, ⟨rfl, rfl, rfl⟩ | ⟨r, es, rfl, h1⟩⟩ := LiveSteps.of_askKey h
    · exact ⟨tr, dev, [], by simp, hc, .none _ _⟩
    · obtain ⟨es, rfl, h2⟩ := LiveSteps.of_noAsk h1 (hn r).noAsk
      exact ⟨cs, dev, .key :: es, rfl, hc, .more (.askKey _ _ _ _ _ _ r) h2⟩

/-- What a write does, with changes by the key lookup. -/
theorem live_write {euid : UInt64} {call : WriteCall} {m m' : Memory σ} {tr : List (Live σ)}
    {rest : Prog κ (Out ByteErr Nat × List UInt8)}
    (h : LiveSteps euid lookup (writeProg cfg euid m call) m tr rest m') :
    (tr = [] ∧ m' = m ∧ Steps lookup (writeProg cfg euid m call) m [] rest m) ∨
    (m.counter ≠ maxCounter ∧ ∃ cs dev es, TableChanges euid (m.counter + 1) m.dev cs dev ∧
      m' = { m with counter := m.counter + 1, dev := dev } ∧
      tr = .effect (.counter (m.counter + 1)) :: (cs ++ es.map .effect) ∧
      (es = [] ∨ es = [.key] ∨ ∃ l, es = [.key, .encrypted (nonceOctets euid m.counter l)]) ∧
      Steps lookup (writeProg cfg euid m call) m (.counter (m.counter + 1) :: es) rest { m' with dev := m.dev }) := by
  have hw : WriteShape euid m.counter (writeProg cfg euid m call) := tryWriteP_shape cfg call.frame call.mode
    (⟨euid, m.counter, fun _ _ _ => none⟩ : SecCtx κ) call.buf
  generalize writeProg (κ := κ) cfg euid m call = p at h hw
  cases hw with
  | done a =>
    obtain ⟨rfl, rfl, rfl⟩ := LiveSteps.of_done h
    exact .inl ⟨rfl, rfl, .none _ _⟩
  | secured hc w w' kid addr next hn =>
    rcases LiveSteps.of_setCounter h with ⟨rfl, rfl, rfl⟩ | ⟨tr, rfl, h1⟩
    · exact .inl ⟨rfl, rfl, .none _ _⟩
    refine .inr ⟨hc, ?_⟩
    obtain ⟨cs, dev, hch, ⟨rfl, rfl, rfl⟩ | ⟨r, es, rfl, h2⟩⟩ := LiveSteps.of_askKey h1
    · exact ⟨tr, dev, [], hch, rfl, by simp, .inl rfl, .more (.setCounter ..) (.none _ _)⟩
    obtain ⟨es, rfl, h3⟩ := LiveSteps.of_noAsk h2 (hn r).noAsk
    have hk := hn r
    refine ⟨cs, dev, .key :: es, hch, (hk.steps h3).1, rfl, ?_, ?_⟩
    · generalize next r = q' at h3 hk
      cases hk with
      | done a => obtain ⟨rfl, -, -⟩ := Steps.of_done h3; exact .inr (.inl rfl)
      | encrypt w t key l aad buf next hnn =>
        rcases Steps.of_encrypt h3 with ⟨rfl, -, -⟩ | ⟨es', r, rfl, k4⟩
        · exact .inr (.inl rfl)
        · obtain ⟨a, ha⟩ := hnn r
          rw [ha] at k4
          obtain ⟨rfl, -, -⟩ := Steps.of_done k4
          exact .inr (.inr ⟨l, rfl⟩)
    · refine .more (.setCounter ..) (.more (.askKey _ _ _ _ _ _ r) ?_)
      generalize next r = q' at h3 hk
      cases hk with
      | done a => obtain ⟨rfl, rfl, rfl⟩ := Steps.of_done h3; exact .none _ _
      | encrypt w t key l aad buf next hnn =>
        rcases Steps.of_encrypt h3 with ⟨rfl, rfl, rfl⟩ | ⟨es', r, rfl, k4⟩
        · exact .none _ _
        · obtain ⟨a, ha⟩ := hnn r
          have k5 := k4
          rw [ha] at k5
          obtain ⟨rfl, rfl, rfl⟩ := Steps.of_done k5
          exact .more (.encrypt _ _ _ _ _ _ _ _ r) (ha ▸ .none _ _)

/-- **C103** A reception during which the key lookup changes the device table goes as the reception after the changes:
they all come before everything else it does. -/
theorem C103_reads_as_after (euid : UInt64) (mode : FooterMode) (buf : List UInt8) (m m' : Memory σ) (tr : List (Live σ))
    (rest : Prog κ (Out SecErr (Frame × Nat) × List UInt8))
    (h : LiveSteps euid lookup (readProg cfg mode buf) m tr rest m') :
    tr = changesOf tr ++ (effectsOf tr).map .effect ∧ ∃ dev, TableChanges euid m.counter m.dev (changesOf tr) dev ∧
      Steps lookup (readProg cfg mode buf) { m with dev := dev } (effectsOf tr) rest m' := by
  obtain ⟨cs, dev, es, rfl, hc, hs⟩ := live_read h
  rw [changesOf_append, effectsOf_append, changesOf_changes hc, effectsOf_changes hc, changesOf_map, effectsOf_map,
    List.append_nil, List.nil_append]
  exact ⟨rfl, dev, hc, hs⟩

/-- **C103** A write during which the key lookup changes the device table goes as it would without the changes, and
leaves the table as the key lookup did.  The counter has been stored before the key lookup can change anything. -/
theorem C103_writes_as_without (euid : UInt64) (call : WriteCall) (m m' : Memory σ) (tr : List (Live σ))
    (rest : Prog κ (Out ByteErr Nat × List UInt8))
    (h : LiveSteps euid lookup (writeProg cfg euid m call) m tr rest m') :
    Steps lookup (writeProg cfg euid m call) m (effectsOf tr) rest { m' with dev := m.dev } ∧
    TableChanges euid m'.counter m.dev (changesOf tr) m'.dev ∧
    (changesOf tr ≠ [] → ∃ tr', tr = .effect (.counter m'.counter) :: tr') := by
  rcases live_write h with ⟨rfl, rfl, hs⟩ | ⟨-, cs, dev, es, hc, rfl, rfl, -, hs⟩
  · exact ⟨hs, .none _, fun h => absurd rfl h⟩
  · have e1 : effectsOf (.effect (.counter (m.counter + 1)) :: (cs ++ es.map .effect)) = .counter (m.counter + 1) :: es := by
      change _ :: effectsOf _ = _
      rw [effectsOf_append, effectsOf_changes hc, effectsOf_map]; rfl
    have e2 : changesOf (.effect (.counter (m.counter + 1)) :: (cs ++ es.map .effect)) = cs := by
      change changesOf (cs ++ es.map .effect) = _
      rw [changesOf_append, changesOf_changes hc, changesOf_map, List.append_nil]
    rw [e1, e2]
    exact ⟨hs, hc, fun _ => ⟨_, rfl⟩⟩

/-- **C103** An ordinary call to write, with a particular cipher and key lookup, is a life: that of its own program, carried
out to the end with the call's result. -/
theorem C103_write_call (aead : Aead κ) (s : Snap σ) (keys : KeyLookup κ) (call : WriteCall) :
    let w := call.frame.tryWrite cfg aead ⟨call.mode, some ⟨s.euid, s.counter, keys⟩⟩ call.buf
    ∃ (es : List Effect) (m' : Memory σ),
      LiveSteps s.euid lookup (writeProg cfg s.euid s.memory call) s.memory (es.map .effect)
        (.done (w.1, w.2.1) : Prog κ (Out ByteErr Nat × List UInt8)) m' ∧
      w.2.2 = ⟨call.mode, some ⟨s.euid, m'.counter, keys⟩⟩ ∧ m'.dev = s.dev ∧
      Life κ cfg lookup s (es.map .effect) ⟨s.euid, m'.counter, s.dev⟩ := by
  obtain ⟨h1, h2⟩ := C81_write_refines cfg aead lookup ⟨s.euid, s.counter, keys⟩ call s.memory rfl
  obtain ⟨es, h⟩ := runToEnd_steps aead keys lookup (writeProg cfg s.euid s.memory call) s.memory
  dsimp only at h1 h2 ⊢
  have hl := Life.write call _ (live_of_steps h) (.none _)
  rw [h2, List.append_nil] at hl
  exact ⟨es, _, by rw [h1]; exact live_of_steps h, by rw [h1], h2, hl⟩

/-- **C103** So is an ordinary reception. -/
theorem C103_read_call (aead : Aead κ) (s : Snap σ) (keys : KeyLookup κ) (mode : FooterMode) (buf : List UInt8) :
    let r := Frame.tryReadAndUnsecure cfg aead buf ⟨mode, some ⟨s.euid, s.counter, keys⟩⟩ lookup s.dev
    ∃ (es : List Effect) (m' : Memory σ),
      LiveSteps s.euid lookup (readProg cfg mode buf) s.memory (es.map .effect)
        (.done (r.1, r.2.1) : Prog κ (Out SecErr (Frame × Nat) × List UInt8)) m' ∧
      r.2.2.1 = ⟨mode, some ⟨s.euid, s.counter, keys⟩⟩ ∧ m'.counter = s.counter ∧ m'.dev = r.2.2.2 ∧
      Life κ cfg lookup s (es.map .effect ++ (match r.1 with | .ok (f, _) => [.given f] | _ => []))
        ⟨s.euid, s.counter, r.2.2.2⟩ := by
  obtain ⟨h1, h2⟩ := C82_read_refines cfg aead lookup ⟨s.euid, s.counter, keys⟩ mode buf s.memory
  obtain ⟨es, h⟩ := runToEnd_steps aead keys lookup (readProg cfg mode buf) s.memory
  have h1 : Frame.tryReadAndUnsecure cfg aead buf ⟨mode, some ⟨s.euid, s.counter, keys⟩⟩ lookup s.dev = _ := h1
  dsimp only at h1 h2 ⊢
  have hl := Life.read mode buf _ (live_of_steps h) (.none _)
  rw [h2, List.append_nil] at hl
  rw [h1]
  refine ⟨es, _, live_of_steps h, rfl, h2, rfl, ?_⟩
  dsimp only
  rcases hr : (runToEnd aead keys lookup (readProg cfg mode buf) s.memory).1 with ⟨⟨f, k⟩ | e | _, out⟩ <;>
    (rw [hr] at hl; exact hl)

/-- **C103** One life may follow another. -/
theorem C103_lives_follow {s s' s'' : Snap σ} {a b : List (Live σ)} (h : Life κ cfg lookup s a s')
    (h' : Life κ cfg lookup s' b s'') : Life κ cfg lookup s (a ++ b) s'' := by
  induction h with
  | none => exact h'
  | change s s' _ ih => exact .change s s' (ih h')
  | write call rest h _ ih => rw [List.append_assoc]; exact .write call rest h (ih h')
  | read mode buf rest h _ ih => rw [List.append_assoc, List.append_assoc]; exact .read mode buf rest h (ih h')

end Calls

section Replay

variable {κ σ ι : Type} {cfg : Cfg} {lookup : DevLookup σ}

theorem tableChanges_above (table : DeviceTable ι lookup) {i : ι} {c : UInt32} {e : UInt64} {k : UInt32} {dev dev' : σ}
    {cs : List (Live σ)} (h : TableChanges e k dev cs dev')
    (h0 : ∀ d, table.get dev i = some d → c < d.frameCounter)
    (hc : ∀ t t', .changed t t' ∈ cs → KeepsAbove table i c t.dev t'.dev) :
    ∀ d, table.get dev' i = some d → c < d.frameCounter := by
  refine tableChanges_inv h (fun dev => ∀ d, table.get dev i = some d → c < d.frameCounter) h0 fun t t' ht hp d hd => ?_
  rcases hc t t' ht d hd with ⟨d₀, h1, h2⟩ | h
  · exact UInt32.lt_of_lt_of_le (hp _ h1) h2
  · exact h

theorem read_above (table : DeviceTable ι lookup) {i : ι} {c : UInt32} {mode : FooterMode} {buf : List UInt8}
    {m m' : Memory σ} {es : List Effect} {rest : Prog κ (Out SecErr (Frame × Nat) × List UInt8)}
    (h : Steps lookup (readProg cfg mode buf) m es rest m')
    (h0 : ∀ d, table.get m.dev i = some d → c < d.frameCounter)
    (hw : ∀ d, .stored d ∈ es → d.frameCounter ≠ 0) :
    ∀ d, table.get m'.dev i = some d → c < d.frameCounter := by
  intro d hd
  rcases C82_all_or_nothing table mode buf m m' es rest h with ⟨-, hk⟩ | ⟨j, e, c', hg, hmax, hle, -, hst, hg', ho⟩
  · rw [hk] at hd; exact h0 d hd
  · by_cases hij : i = j
    · subst hij
      rw [hg'] at hd
      cases hd
      have hne : c' ≠ maxCounter := by
        intro hc
        subst hc
        exact hw _ ((hst _).2 rfl) rfl
      have h1 := UInt32.lt_iff_toNat_lt.1 (h0 _ hg)
      have h2 := UInt32.le_iff_toNat_le.1 hle
      exact UInt32.lt_iff_toNat_lt.2 (by simp only [u32_succ_toNat _ hne]; omega)
    · rw [ho _ hij] at hd; exact h0 d hd

/-- Where something that is no part of the first list stands in two lists one after the other. -/
theorem append_cons_split {β : Type} {a b x y : List β} {v : β} (h : a ++ b = x ++ v :: y) (hv : v ∉ a) :
    ∃ x', x = a ++ x' ∧ b = x' ++ v :: y := by
  rcases List.append_eq_append_iff.1 h with ⟨x', h1, h2⟩ | ⟨c, h1, h2⟩
  · exact ⟨x', h1, h2⟩
  · cases c with
    | nil => exact ⟨[], by rw [h1, List.append_nil, List.append_nil], by rw [h2]; rfl⟩
    | cons w c =>
      rw [List.cons_append, List.cons.injEq] at h2
      exact absurd (by rw [h1, h2.1]; simp) hv

theorem given_not_mem_changes {e : UInt64} {c : UInt32} {dev dev' : σ} {cs} (h : TableChanges e c dev cs dev')
    (f : Frame) : Live.given f ∉ cs := fun hf => by
  obtain ⟨_, _, h⟩ := tableChanges_mem h _ hf
  cases h

theorem given_not_mem_effects (es : List Effect) (f : Frame) : Live.given f ∉ es.map (.effect : Effect → Live σ) :=
  fun hf => by
    obtain ⟨_, _, h⟩ := List.mem_map.1 hf
    cases h

theorem given_not_mem_read {euid : UInt64} {mode : FooterMode} {buf : List UInt8} {m m' : Memory σ} {tr : List (Live σ)}
    {rest : Prog κ (Out SecErr (Frame × Nat) × List UInt8)}
    (h : LiveSteps euid lookup (readProg cfg mode buf) m tr rest m') (f : Frame) : Live.given f ∉ tr := by
  obtain ⟨cs, dev, es, rfl, hc, -⟩ := live_read h
  rw [List.mem_append]
  exact fun h => h.elim (given_not_mem_changes hc f) (given_not_mem_effects es f)

theorem given_not_mem_write {euid : UInt64} {call : WriteCall} {m m' : Memory σ} {tr : List (Live σ)}
    {rest : Prog κ (Out ByteErr Nat × List UInt8)}
    (h : LiveSteps euid lookup (writeProg cfg euid m call) m tr rest m') (f : Frame) : Live.given f ∉ tr := by
  rcases live_write h with ⟨rfl, -⟩ | ⟨-, cs, dev, es, hc, -, rfl, -⟩
  · exact fun h => by cases h
  · rw [List.mem_cons, List.mem_append]
    rintro (h | h | h)
    · cases h
    · exact given_not_mem_changes hc f h
    · exact given_not_mem_effects es f h

/-- Once above, a device stays so, and frames given to the caller are above too. -/
theorem life_above (table : DeviceTable ι lookup) {i : ι} {c : UInt32} {s s'' : Snap σ} {tr : List (Live σ)}
    (h : Life κ cfg lookup s tr s'') (between after : List (Live σ)) (f : Frame) (htr : tr = between ++ .given f :: after)
    (h0 : ∀ d, table.get s.dev i = some d → c < d.frameCounter)
    (hw : ∀ d, .effect (.stored d) ∈ between → d.frameCounter ≠ 0)
    (hc : ∀ t t', .changed t t' ∈ between → KeepsAbove table i c t.dev t'.dev)
    (hs : Secured f.header) (c₂ : UInt32) (hf : ComesFrom table i c₂ f) : c < c₂ := by
  induction h generalizing between with
  | none s => cases between <;> cases htr
  | @change s s' tr s'' hl ih =>
    cases between with
    | nil => cases htr
    | cons x between =>
      cases htr
      refine ih between rfl (fun d hd => ?_) (fun d hd => hw d (.tail _ hd)) (fun t t' ht => hc t t' (.tail _ ht))
      rcases hc s s' (.head _) d hd with ⟨d₀, h1, h2⟩ | h
      · exact UInt32.lt_of_lt_of_le (h0 _ h1) h2
      · exact h
  | @write call s tr m' more s'' rest h hl ih =>
    obtain ⟨x, rfl, hx⟩ := append_cons_split htr (given_not_mem_write h f)
    refine ih x hx (fun d hd => ?_) (fun d hd => hw d (List.mem_append_right _ hd))
      (fun t t' ht => hc t t' (List.mem_append_right _ ht))
    rcases live_write h with ⟨-, rfl, -⟩ | ⟨-, cs, dev, es, hch, rfl, rfl, -⟩
    · exact h0 d hd
    · refine tableChanges_above table hch h0 (fun t t' ht => hc t t' ?_) d hd
      exact List.mem_append_left _ (.tail _ (List.mem_append_left _ ht))
  | @read mode buf s tr m' more s'' rest h hl ih =>
    obtain ⟨x, rfl, hx⟩ := append_cons_split htr (given_not_mem_read h f)
    obtain ⟨cs, dev, es, rfl, hch, hst⟩ := live_read h
    have h1 : ∀ d, table.get dev i = some d → c < d.frameCounter := tableChanges_above table hch h0 fun t t' ht =>
      hc t t' (List.mem_append_left _ (List.mem_append_left _ ht))
    have h2 := read_above table hst h1 fun d hd => hw d
      (List.mem_append_left _ (List.mem_append_right _ (List.mem_map.2 ⟨_, hd, rfl⟩)))
    have hgo : ∀ x', (x = x' ∨ ∃ g, x = .given g :: x') → more = x' ++ .given f :: after → c < c₂ := by
      intro x' hx' hm
      have hsub : ∀ y, y ∈ x' → y ∈ x := fun y hy => by
        rcases hx' with rfl | ⟨g, rfl⟩
        · exact hy
        · exact .tail _ hy
      exact ih x' hm h2 (fun d hd => hw d (List.mem_append_right _ (hsub _ hd)))
        (fun t t' ht => hc t t' (List.mem_append_right _ (hsub _ ht)))
    rcases hd : delivered rest with _ | g
    · rw [hd] at hx
      exact hgo x (.inl rfl) hx
    · rw [hd] at hx
      cases x with
      | nil =>
        cases hx
        obtain ⟨src, aux, d, n, k1, k2, k3, -, k5, -⟩ :=
          C82_stored_before_delivery table mode buf _ _ _ rest f hst hd hs
        obtain ⟨src', aux', j1, j2, j3, j4⟩ := hf
        rw [k1] at j1; cases j1
        rw [k2] at j3; cases j3
        subst j2 j4
        exact UInt32.lt_of_lt_of_le (h1 _ k3) k5
      | cons y x => cases hx; exact hgo x (.inr ⟨_, rfl⟩) rfl

/-- A secured frame that is given to the caller leaves its device above it. -/
theorem life_given (table : DeviceTable ι lookup) {i : ι} {c : UInt32} (hmax : c ≠ maxCounter) {s s'' : Snap σ}
    {tr : List (Live σ)} (h : Life κ cfg lookup s tr s'') (before after : List (Live σ)) (f : Frame)
    (htr : tr = before ++ .given f :: after) (hs : Secured f.header) (hf : ComesFrom table i c f) :
    ∃ s', Life κ cfg lookup s' after s'' ∧ ∀ d, table.get s'.dev i = some d → c < d.frameCounter := by
  induction h generalizing before with
  | none s => cases before <;> cases htr
  | @change s s' tr s'' hl ih =>
    cases before with
    | nil => cases htr
    | cons x before => cases htr; exact ih before rfl
  | @write call s tr m' more s'' rest h hl ih =>
    obtain ⟨x, rfl, hx⟩ := append_cons_split htr (given_not_mem_write h f)
    exact ih x hx
  | @read mode buf s tr m' more s'' rest h hl ih =>
    obtain ⟨x, rfl, hx⟩ := append_cons_split htr (given_not_mem_read h f)
    rcases hd : delivered rest with _ | g
    · rw [hd] at hx
      exact ih x hx
    · rw [hd] at hx
      cases x with
      | nil =>
        cases hx
        obtain ⟨cs, dev, es, rfl, hch, hst⟩ := live_read h
        obtain ⟨src, aux, d, n, k1, k2, k3, -, k5, -, -, k8, -⟩ :=
          C82_stored_before_delivery table mode buf _ _ _ rest f hst hd hs
        obtain ⟨src', aux', j1, j2, j3, j4⟩ := hf
        rw [k1] at j1; cases j1
        rw [k2] at j3; cases j3
        subst j2 j4
        refine ⟨_, hl, fun d' hd' => ?_⟩
        rw [k8] at hd'
        cases hd'
        exact UInt32.lt_iff_toNat_lt.2 (by simp only [u32_succ_toNat _ hmax]; omega)
      | cons y x => cases hx; exact ih x rfl

/-- **C103** No replay, everything at once: of two secured frames of one device given to the caller in the life of a
node, the second has the greater counter — whatever is cut short, whatever key lookup and cipher answer and whatever the
application changes in between, be it during a call, as long as no change lowers the device's counter to or below the first
frame's, or forgets the device and takes it up again at or below it; and unless a counter wrapped round. -/
theorem C103_no_replay (table : DeviceTable ι lookup) {s s' : Snap σ} (before between after : List (Live σ)) (f₁ f₂ : Frame)
    (h : Life κ cfg lookup s (before ++ .given f₁ :: (between ++ .given f₂ :: after)) s') (i : ι) (c₁ c₂ : UInt32)
    (hs₁ : Secured f₁.header) (hs₂ : Secured f₂.header)
    (hf₁ : ComesFrom table i c₁ f₁) (hf₂ : ComesFrom table i c₂ f₂)
    (hmax : c₁ ≠ maxCounter) (hw : ∀ d, .effect (.stored d) ∈ between → d.frameCounter ≠ 0)
    (hc : ∀ t t', .changed t t' ∈ between → KeepsAbove table i c₁ t.dev t'.dev) : c₁ < c₂ := by
  obtain ⟨s₁, h1, h2⟩ := life_given table hmax h before _ f₁ rfl hs₁ hf₁
  exact life_above table h1 between after f₂ rfl h2 hw hc hs₂ c₂ hf₂

/-- **C103** With overflow checks no counter wraps round: no descriptor is stored with counter 0, and no frame with the
greatest counter is given to the caller. -/
theorem C103_no_wrap {s s' : Snap σ} {tr : List (Live σ)} (h : Life κ cfg lookup s tr s')
    (ho : cfg.overflowChecks = true) :
    (∀ d, .effect (.stored d) ∈ tr → d.frameCounter ≠ 0) ∧
    ∀ f aux, .given f ∈ tr → Secured f.header → f.header.auxSec = some aux → aux.frameCounter ≠ maxCounter := by
  induction h with
  | none s => exact ⟨fun _ h => (by cases h), fun _ _ h => (by cases h)⟩
  | @change s s' tr s'' hl ih =>
    refine ⟨fun d hd => ?_, fun f aux hf => ?_⟩
    · cases hd with | tail _ hd => exact ih.1 d hd
    · cases hf with | tail _ hf => exact ih.2 f aux hf
  | @write call s tr m' more s'' rest h hl ih =>
    refine ⟨fun d hd => ?_, fun f aux hf => ?_⟩
    · rcases List.mem_append.1 hd with hd | hd
      · exfalso
        rcases live_write h with ⟨rfl, -⟩ | ⟨-, cs, dev, es, hch, -, rfl, hes, -⟩
        · cases hd
        · rcases List.mem_cons.1 hd with hd | hd
          · cases hd
          · rcases List.mem_append.1 hd with hd | hd
            · obtain ⟨_, _, h⟩ := tableChanges_mem hch _ hd
              cases h
            · rcases hes with rfl | rfl | ⟨l, rfl⟩ <;> simp at hd
      · exact ih.1 d hd
    · rcases List.mem_append.1 hf with hf | hf
      · exact absurd hf (given_not_mem_write h f)
      · exact ih.2 f aux hf
  | @read mode buf s tr m' more s'' rest h hl ih =>
    obtain ⟨cs, dev, es, htr, hch, hst⟩ := live_read h
    obtain ⟨header, hr⟩ := tryReadP_shape (κ := κ) cfg buf mode
    obtain ⟨-, -, -, hu⟩ := hr.steps hst
    refine ⟨fun d hd => ?_, fun f aux hf hsec haux => ?_⟩
    · rcases List.mem_append.1 hd with hd | hd
      · subst htr
        rcases List.mem_append.1 hd with hd | hd
        · obtain ⟨_, _, h⟩ := tableChanges_mem hch _ hd
          cases h
        · obtain ⟨e, he, hee⟩ := List.mem_map.1 hd
          cases hee
          cases hu with
          | before _ hs _ => exact absurd he (hs d)
          | looked _ _ _ hs _ => exact absurd he (hs d)
          | stored src aux e store c n hsrc ha hl fresh hmax hst hes hm hq =>
            simp only [hes, List.mem_cons, reduceCtorEq, false_or, List.not_mem_nil, or_false,
              Effect.stored.injEq] at he
            subst he
            obtain ⟨rfl, hov⟩ := hst
            intro h0
            have := congrArg UInt32.toNat h0
            simp only [u32_succ_toNat _ (hov ho)] at this
            exact absurd this (Nat.succ_ne_zero _)
      · rcases List.mem_append.1 hd with hd | hd
        · obtain ⟨_, _, h⟩ := List.mem_map.1 hd
          cases h
        · exact ih.1 d hd
    · rcases List.mem_append.1 hf with hf | hf
      · exact absurd hf (given_not_mem_read h f)
      · rcases List.mem_append.1 hf with hf | hf
        · obtain ⟨g, hg, hge⟩ := List.mem_map.1 hf
          cases hge
          have hd : delivered rest = some f := by simpa using hg
          unfold delivered at hd
          split at hd
          · rename_i g k b
            cases hd
            cases hu with
            | before _ _ hq => exact absurd hsec (hq _ rfl _ _ rfl)
            | looked _ _ _ _ hq => exact absurd hsec (hq _ rfl _ _ rfl)
            | stored src aux' d store c n hsrc ha hl fresh hd hst he hm hq =>
              have hh : f.header = header := hq _ rfl _ _ rfl
              rw [hh, ha] at haux
              cases haux
              exact hst.2 ho
          · cases hd
        · exact ih.2 f aux hf hsec haux

end Replay

section Nonces

variable {κ σ : Type} {cfg : Cfg} {lookup : DevLookup σ}

theorem encrypted_not_mem_read {euid : UInt64} {mode : FooterMode} {buf : List UInt8} {m m' : Memory σ}
    {tr : List (Live σ)} {rest : Prog κ (Out SecErr (Frame × Nat) × List UInt8)}
    (h : LiveSteps euid lookup (readProg cfg mode buf) m tr rest m') (n : List UInt8) :
    Live.effect (.encrypted n) ∉ tr ++ (delivered rest).toList.map .given := by
  obtain ⟨cs, dev, es, rfl, hc, hs⟩ := live_read h
  obtain ⟨header, hr⟩ := tryReadP_shape (κ := κ) cfg buf mode
  obtain ⟨-, hn, -⟩ := hr.steps hs
  intro hm
  rcases List.mem_append.1 hm with hm | hm
  · rcases List.mem_append.1 hm with hm | hm
    · obtain ⟨_, _, h⟩ := tableChanges_mem hc _ hm
      cases h
    · obtain ⟨e, he, hee⟩ := List.mem_map.1 hm
      cases hee
      have : n ∈ noncesOf es := List.mem_filterMap.2 ⟨_, he, rfl⟩
      rw [hn] at this
      cases this
  · obtain ⟨_, _, h⟩ := List.mem_map.1 hm
    cases h

/-- Where a write encrypts: at its end. -/
theorem write_encrypted {euid : UInt64} {call : WriteCall} {m m' : Memory σ} {tr : List (Live σ)}
    {rest : Prog κ (Out ByteErr Nat × List UInt8)}
    (h : LiveSteps euid lookup (writeProg cfg euid m call) m tr rest m') (n : List UInt8) :
    Live.effect (.encrypted n) ∉ tr ∨
    (m.counter ≠ maxCounter ∧ m'.counter = m.counter + 1 ∧ (∃ l, n = nonceOctets euid m.counter l) ∧
      ∃ tr', tr = tr' ++ [.effect (.encrypted n)] ∧ Live.effect (.encrypted n) ∉ tr') := by
  rcases live_write h with ⟨rfl, -⟩ | ⟨hmax, cs, dev, es, hc, rfl, rfl, hes, -⟩
  · exact .inl fun h => by cases h
  have hcs : Live.effect (.encrypted n) ∉ cs := fun hm => by
    obtain ⟨_, _, h⟩ := tableChanges_mem hc _ hm
    cases h
  rcases hes with rfl | rfl | ⟨l, rfl⟩
  · exact .inl (by simpa using hcs)
  · exact .inl (by simpa using hcs)
  · by_cases hn : n = nonceOctets euid m.counter l
    · subst hn
      refine .inr ⟨hmax, rfl, ⟨l, rfl⟩, .effect (.counter (m.counter + 1)) :: (cs ++ [.effect .key]), by simp, by simpa using hcs⟩
    · exact .inl (by simpa [hn] using hcs)

/-- A nonce used leaves its address above its counter. -/
theorem life_encrypted {s s'' : Snap σ} {tr : List (Live σ)} (h : Life κ cfg lookup s tr s'')
    (before after : List (Live σ)) (n : List UInt8) (htr : tr = before ++ .effect (.encrypted n) :: after) :
    ∃ s' e c l, n = nonceOctets e c l ∧ Life κ cfg lookup s' after s'' ∧ (s'.euid = e → c < s'.counter) := by
  induction h generalizing before with
  | none s => cases before <;> cases htr
  | @change s s' tr s'' hl ih =>
    cases before with
    | nil => cases htr
    | cons x before => cases htr; exact ih before rfl
  | @write call s tr m' more s'' rest h hl ih =>
    rcases write_encrypted h n with hn | ⟨hmax, hcnt, ⟨l, hn⟩, tr', rfl, hnot⟩
    · obtain ⟨x, rfl, hx⟩ := append_cons_split htr hn
      exact ih x hx
    · rw [List.append_assoc] at htr
      obtain ⟨x, rfl, hx⟩ := append_cons_split htr hnot
      cases x with
      | nil =>
        cases hx
        exact ⟨_, s.euid, s.counter, l, hn, hl, fun _ => UInt32.lt_iff_toNat_lt.2 (by
          rw [hcnt, u32_succ_toNat _ hmax]; exact Nat.lt_succ_self _)⟩
      | cons y x => cases hx; exact ih x rfl
  | @read mode buf s tr m' more s'' rest h hl ih =>
    rw [← List.append_assoc] at htr
    obtain ⟨x, rfl, hx⟩ := append_cons_split htr (encrypted_not_mem_read h n)
    exact ih x hx

/-- Once above, an address stays so, and nonces used are above too. -/
theorem life_address_above {e : UInt64} {c : UInt32} {s s'' : Snap σ} {tr : List (Live σ)} (h : Life κ cfg lookup s tr s'')
    (between after : List (Live σ)) (n : List UInt8) (htr : tr = between ++ .effect (.encrypted n) :: after)
    (h0 : s.euid = e → c < s.counter)
    (hc : ∀ t t', .changed t t' ∈ between → HoldsAddressAbove e c t t') :
    ∃ e' c' l, n = nonceOctets e' c' l ∧ (e' = e → c < c') := by
  induction h generalizing between with
  | none s => cases between <;> cases htr
  | @change s s' tr s'' hl ih =>
    cases between with
    | nil => cases htr
    | cons x between =>
      cases htr
      refine ih between rfl (fun he => ?_) (fun t t' ht => hc t t' (.tail _ ht))
      rcases hc s s' (.head _) he with ⟨h1, h2⟩ | h
      · exact UInt32.lt_of_lt_of_le (h0 h1) h2
      · exact h
  | @write call s tr m' more s'' rest h hl ih =>
    have hle : s.counter ≤ m'.counter := by
      rcases live_write h with ⟨-, rfl, -⟩ | ⟨hm, _, _, _, -, rfl, -⟩
      · exact UInt32.le_refl _
      · exact UInt32.le_iff_toNat_le.2 (by
          change s.memory.counter.toNat ≤ (s.memory.counter + 1).toNat
          rw [u32_succ_toNat _ hm]; exact Nat.le_succ _)
    have hnext : s.euid = e → c < m'.counter := fun he => UInt32.lt_of_lt_of_le (h0 he) hle
    rcases write_encrypted h n with hn | ⟨hmax, hcnt, ⟨l, hn⟩, tr', rfl, hnot⟩
    · obtain ⟨x, rfl, hx⟩ := append_cons_split htr hn
      exact ih x hx hnext fun t t' ht => hc t t' (List.mem_append_right _ ht)
    · rw [List.append_assoc] at htr
      obtain ⟨x, rfl, hx⟩ := append_cons_split htr hnot
      cases x with
      | nil => exact ⟨s.euid, s.counter, l, hn, h0⟩
      | cons y x =>
        cases hx
        exact ih x rfl hnext fun t t' ht => hc t t' (List.mem_append_right _ (.tail _ ht))
  | @read mode buf s tr m' more s'' rest h hl ih =>
    rw [← List.append_assoc] at htr
    obtain ⟨x, rfl, hx⟩ := append_cons_split htr (encrypted_not_mem_read h n)
    refine ih x hx (fun he => ?_) fun t t' ht => hc t t' (List.mem_append_right _ ht)
    obtain ⟨cs, dev, es, rfl, hch, hst⟩ := live_read h
    obtain ⟨header, hr⟩ := tryReadP_shape (κ := κ) cfg buf mode
    have := (hr.steps hst).1
    change c < m'.counter
    rw [this]
    exact h0 he

/-- **C103** Every nonce used is made of some address, counter and level. -/
theorem C103_nonces_made {s s' : Snap σ} {tr : List (Live σ)} (h : Life κ cfg lookup s tr s') (n : List UInt8)
    (hn : .effect (.encrypted n) ∈ tr) : ∃ e c level, n = nonceOctets e c level := by
  obtain ⟨a, b, rfl⟩ := List.append_of_mem hn
  obtain ⟨-, e, c, l, h, -⟩ := life_encrypted h a b n rfl
  exact ⟨e, c, l, h⟩

/-- **C103** No nonce twice, everything at once: whatever is cut short, whatever key lookup and cipher answer and whatever
the application changes in between, as long as each change after which the context has the address of the first nonce does
not lower that address's counter, or sets it above the counter of the first nonce. -/
theorem C103_no_nonce_twice {s s' : Snap σ} (before between after : List (Live σ)) (n₁ n₂ : List UInt8)
    (h : Life κ cfg lookup s (before ++ .effect (.encrypted n₁) :: (between ++ .effect (.encrypted n₂) :: after)) s')
    (e : UInt64) (c : UInt32) (level : SecurityLevel) (hn : n₁ = nonceOctets e c level)
    (hc : ∀ t t', .changed t t' ∈ between → HoldsAddressAbove e c t t') : n₁ ≠ n₂ := by
  obtain ⟨s₁, e₁, c₁, l₁, h1, h2, h3⟩ := life_encrypted h before _ n₁ rfl
  obtain ⟨rfl, rfl, -⟩ := nonceOctets_inj (hn.symm.trans h1)
  obtain ⟨e₂, c₂, l₂, h4, h5⟩ := life_address_above h2 between after n₂ rfl h3 hc
  intro he
  obtain ⟨rfl, rfl, -⟩ := nonceOctets_inj ((hn.symm.trans he).trans h4)
  exact absurd (h5 rfl) (UInt32.lt_irrefl _)

end Nonces
end Verif
