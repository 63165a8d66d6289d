import Verif.Lemmas.Steps
import Verif.Props.History
import Verif.Props.Copies

/-!
# Properties of calls cut short: C81 (sender), C82 (receiver)

A call may stop at any point between two of its effects outside the buffer — the processor is reset with
the context and the device table in retained memory, or a lookup or cipher of the application panics and
the panic is caught.  Key lookup and cipher may answer anything.  These are the properties of C30, C33, C35
and C36 for such histories.
-/

namespace Verif
open Spec

section Refinement

variable {κ σ : Type} (cfg : Cfg) (aead : Aead κ) (lookup : DevLookup σ)

/-- **C81** Carried out to its end, the program of a write is the write: same result, same octets, same
counter afterwards; and the device table is not touched. -/
theorem C81_write_refines (sc : SecCtx κ) (call : WriteCall) (m : Memory σ) (hm : m.counter = sc.frameCounter) :
    let r := runToEnd aead sc.keyProvider lookup (writeProg cfg sc.euid m call) m
    call.frame.tryWrite cfg aead ⟨call.mode, some sc⟩ call.buf =
        (r.1.1, r.1.2, ⟨call.mode, some { sc with frameCounter := r.2.counter }⟩) ∧ r.2.dev = m.dev := by
  have h := tryWriteP_run aead lookup cfg call.frame call.mode sc call.buf m hm
  have hp : writeProg (κ := κ) cfg sc.euid m call = call.frame.tryWriteP cfg ⟨call.mode, some sc⟩ call.buf := by
    rw [writeProg, hm]
    rfl
  rw [hp]
  exact h

/-- **C82** Carried out to its end, the program of a reception is the reception: same result, same octets,
same device table afterwards; and the context is not touched. -/
theorem C82_read_refines (sc : SecCtx κ) (mode : FooterMode) (buf : List UInt8) (m : Memory σ) :
    let r := runToEnd aead sc.keyProvider lookup (readProg cfg mode buf) m
    Frame.tryReadAndUnsecure cfg aead buf ⟨mode, some sc⟩ lookup m.dev =
        (r.1.1, r.1.2, ⟨mode, some sc⟩, r.2.dev) ∧ r.2.counter = m.counter := by
  refine ⟨tryReadP_run aead lookup cfg mode sc buf m, ?_⟩
  obtain ⟨es, h⟩ := runToEnd_steps aead sc.keyProvider lookup (readProg cfg mode buf) m
  obtain ⟨_, hr⟩ := tryReadP_shape (κ := κ) cfg buf mode
  exact (hr.steps h).1

/-- **C81** Without a security context a write has no effect outside the buffer at all: its program is its result. -/
theorem C81_without_context (f : Frame) (mode : FooterMode) (buf : List UInt8) :
    f.tryWriteP cfg (⟨mode, none⟩ : SerDesCtx κ) buf =
      .done ((f.tryWrite cfg aead ⟨mode, none⟩ buf).1, (f.tryWrite cfg aead ⟨mode, none⟩ buf).2.1) ∧
    (f.tryWrite cfg aead ⟨mode, none⟩ buf).2.2 = ⟨mode, none⟩ := by
  unfold Frame.tryWriteP Frame.tryWrite
  dsimp only
  rcases f.writeHead cfg (none : Option (SecCtx κ)) buf 0 with ⟨_ | _ | _, b, o⟩
  · dsimp only
    rcases f.writeTail mode false b o with ⟨_ | _ | _, b', o'⟩ <;> exact ⟨rfl, rfl⟩
  · exact ⟨rfl, rfl⟩
  · exact ⟨rfl, rfl⟩

/-- **C82** Nor does a reception without a security context. -/
theorem C82_without_context (mode : FooterMode) (buf : List UInt8) (dev : σ) :
    Frame.tryReadAndUnsecureP (κ := κ) cfg buf mode false =
      .done ((Frame.tryReadAndUnsecure cfg aead buf ⟨mode, none⟩ lookup dev).1,
        (Frame.tryReadAndUnsecure cfg aead buf ⟨mode, none⟩ lookup dev).2.1) ∧
    (Frame.tryReadAndUnsecure cfg aead buf ⟨mode, none⟩ lookup dev).2.2 = (⟨mode, none⟩, dev) := by
  unfold Frame.tryReadAndUnsecureP Frame.tryReadAndUnsecure
  rcases Frame.readHead cfg buf 0 with ⟨⟨header, content⟩, offset⟩ | e | _
  · dsimp only
    by_cases h : header.hasSecurity = true <;> simp [h]
  · exact ⟨rfl, rfl⟩
  · exact ⟨rfl, rfl⟩

end Refinement

section Sender

variable {κ σ : Type} {cfg : Cfg} {euid : UInt64} {lookup : DevLookup σ}

/-- **C81** Wherever a write stops: the counter in memory is the one it began with or the next, and the
device table is as it was; if the cipher has been called, or is about to be, then the counter has already
been moved on, and the nonce is made of the old one, which was not the greatest; and it has been called at
most once. -/
theorem C81_counter_moves_first (call : WriteCall) (m m' : Memory σ) (es : List Effect)
    (rest : Prog κ (Out ByteErr Nat × List UInt8))
    (h : Steps lookup (writeProg cfg euid m call) m es rest m') :
    m'.dev = m.dev ∧
    (m'.counter = m.counter ∨ m.counter ≠ maxCounter ∧ m'.counter = m.counter + 1) ∧
    (∀ nonce ∈ noncesOf es, m.counter ≠ maxCounter ∧ m'.counter = m.counter + 1 ∧
      ∃ level, nonce = nonceOctets euid m.counter level) ∧
    (noncesOf es).length ≤ 1 ∧
    (∀ w t key nonce aad buf next, rest = .encrypt w t key nonce aad buf next →
      m.counter ≠ maxCounter ∧ m'.counter = m.counter + 1 ∧
      ∃ level, nonce = nonceOctets euid m.counter level) := by
  obtain ⟨h1, -, ⟨h2, h3, h4⟩ | ⟨h2, h3, h4, h5⟩⟩ := (tryWriteP_shape cfg call.frame call.mode
    (⟨euid, m.counter, fun _ _ _ => none⟩ : SecCtx κ) call.buf).steps h
  · exact ⟨h1, .inl h2, by simp [h3], by simp [h3], fun _ _ _ _ _ _ _ h => absurd h (h4 _ _ _ _ _ _ _)⟩
  · refine ⟨h1, .inr ⟨h2, h3⟩, ?_, ?_, fun _ _ _ _ _ _ _ h => ⟨h2, h3, h5 _ _ _ _ _ _ _ h⟩⟩
    · rcases h4 with h4 | ⟨l, h4⟩
      · simp [h4]
      · intro n hn
        rw [h4] at hn
        exact ⟨h2, h3, l, List.mem_singleton.1 hn⟩
    · rcases h4 with h4 | ⟨l, h4⟩ <;> simp [h4]

/-- What one attempt does to the counter, and the nonces it uses. -/
theorem attempt_counter {m m' : Memory σ} {es f} (h : Attempt κ cfg euid lookup m es f m') :
    (m'.counter = m.counter ∧ noncesOf es = []) ∨
    (m.counter ≠ maxCounter ∧ m'.counter = m.counter + 1 ∧
      (noncesOf es = [] ∨ ∃ l, noncesOf es = [nonceOctets euid m.counter l])) := by
  cases h with
  | write call rest h =>
    obtain ⟨-, -, ⟨h2, h3, -⟩ | ⟨h2, h3, h4, -⟩⟩ := (tryWriteP_shape cfg call.frame call.mode
      (⟨euid, m.counter, fun _ _ _ => none⟩ : SecCtx κ) call.buf).steps h
    · exact .inl ⟨h2, h3⟩
    · exact .inr ⟨h2, h3, h4⟩
  | read mode buf rest h =>
    obtain ⟨_, hr⟩ := tryReadP_shape (κ := κ) cfg buf mode
    obtain ⟨h1, h2, -⟩ := hr.steps h
    exact .inl ⟨h1, h2⟩

/-- **C81** Over any history of writes and receptions, each cut short anywhere or not at all: the counter
never goes back, moves on by at most one an attempt, and every nonce the cipher was called with is made of
a counter from the one at the start (included) to the one at the end (excluded). -/
theorem C81_counter_over_history {m m' : Memory σ} {hist : List (List Effect × Option Frame)}
    (h : Attempts κ cfg euid lookup m hist m') :
    m.counter.toNat ≤ m'.counter.toNat ∧ m'.counter.toNat ≤ m.counter.toNat + hist.length ∧
    ∀ nonce ∈ hist.flatMap fun a => noncesOf a.1, ∃ c level, nonce = nonceOctets euid c level ∧
      m.counter ≤ c ∧ c < m'.counter := by
  induction h with
  | none m => exact ⟨Nat.le_refl _, Nat.le_refl _, by simp⟩
  | @more m es f m₁ rest m₂ ha hr ih =>
    obtain ⟨i1, i2, i3⟩ := ih
    have hc := attempt_counter ha
    have hstep : m.counter.toNat ≤ m₁.counter.toNat ∧ m₁.counter.toNat ≤ m.counter.toNat + 1 := by
      rcases hc with ⟨h, -⟩ | ⟨h, h', -⟩
      · rw [h]; omega
      · rw [h', u32_succ_toNat _ h]; omega
    refine ⟨by omega, by rw [List.length_cons]; omega, fun nonce hn => ?_⟩
    rw [List.flatMap_cons, List.mem_append] at hn
    rcases hn with hn | hn
    · rcases hc with ⟨-, h⟩ | ⟨h, h', h4 | ⟨l, h4⟩⟩
      · rw [h] at hn; cases hn
      · rw [h4] at hn; cases hn
      · rw [h4] at hn
        refine ⟨_, l, List.mem_singleton.1 hn, UInt32.le_refl _, UInt32.lt_iff_toNat_lt.2 ?_⟩
        rw [h', u32_succ_toNat _ h] at i1
        omega
    · obtain ⟨c, l, h1, h2, h3⟩ := i3 nonce hn
      refine ⟨c, l, h1, UInt32.le_iff_toNat_le.2 ?_, h3⟩
      have := UInt32.le_iff_toNat_le.1 h2
      omega

/-- **C81** Over any such history the cipher is never called to encrypt under the same nonce twice. -/
theorem C81_no_nonce_twice {m m' : Memory σ} {hist : List (List Effect × Option Frame)}
    (h : Attempts κ cfg euid lookup m hist m') : (hist.flatMap fun a => noncesOf a.1).Nodup := by
  induction h with
  | none m => exact List.nodup_nil
  | @more m es f m₁ rest m₂ ha hr ih =>
    rw [List.flatMap_cons]
    rcases attempt_counter ha with ⟨-, h⟩ | ⟨h, h', h4 | ⟨l, h4⟩⟩
    · rw [h]; exact ih
    · rw [h4]; exact ih
    · rw [h4]
      refine List.nodup_cons.2 ⟨fun hmem => ?_, ih⟩
      obtain ⟨c, l', h1, h2, -⟩ := (C81_counter_over_history hr).2.2 _ hmem
      have hc := (nonceOctets_inj h1).2.1
      subst hc
      have := UInt32.le_iff_toNat_le.1 h2
      rw [h', u32_succ_toNat _ h] at this
      omega

end Sender

section Receiver

variable {κ σ ι : Type} {cfg : Cfg} {euid : UInt64} {lookup : DevLookup σ}

/-- **C82** A secured frame reaches the caller only after everything was done: the key was looked up, the
device was looked up, the cipher found the tag right, and the device's descriptor — whose counter was neither the
greatest nor above the frame's — was stored with the frame's counter plus one.  Nothing happens after. -/
theorem C82_stored_before_delivery (table : DeviceTable ι lookup) (mode : FooterMode) (buf : List UInt8)
    (m m' : Memory σ) (es : List Effect) (rest : Prog κ (Out SecErr (Frame × Nat) × List UInt8)) (f : Frame)
    (h : Steps lookup (readProg cfg mode buf) m es rest m') (hf : delivered rest = some f)
    (hs : Secured f.header) :
    ∃ src aux d nonce, f.header.source = some src ∧ f.header.auxSec = some aux ∧
      table.get m.dev (table.identify src) = some d ∧ d.frameCounter ≠ maxCounter ∧
      d.frameCounter ≤ aux.frameCounter ∧ (cfg.overflowChecks = true → aux.frameCounter ≠ maxCounter) ∧
      es = [.key, .device, .decrypted nonce true, .stored { d with frameCounter := aux.frameCounter + 1 }] ∧
      table.get m'.dev (table.identify src) = some { d with frameCounter := aux.frameCounter + 1 } ∧
      m'.counter = m.counter := by
  obtain ⟨header, hr⟩ := tryReadP_shape (κ := κ) cfg buf mode
  obtain ⟨hc, -, -, hu⟩ := hr.steps h
  unfold delivered at hf
  split at hf
  · rename_i g k b
    cases hf
    cases hu with
    | before _ _ hq => exact absurd hs (hq _ rfl _ _ rfl)
    | looked _ _ _ _ hq => exact absurd hs (hq _ rfl _ _ rfl)
    | stored src aux d store c n hsrc ha hl fresh hd hst he hm hq =>
      have hh : f.header = header := hq _ rfl _ _ rfl
      have hfound := table.found m.dev src
      rw [hl] at hfound
      obtain ⟨rfl, hov⟩ := hst
      refine ⟨src, aux, d, n, hh ▸ hsrc, hh ▸ ha, hfound.symm, hd, fresh, hov, he, ?_, hc⟩
      rw [hm]
      exact table.stored _ _ _ _ hl _
  · cases hf

/-- **C82** A reception cut short before the store leaves every descriptor as it was — so the same frame
is still fresh when it comes again; and one cut short after it, or not at all, changes one descriptor only,
moving its counter, which was neither the greatest nor above the frame's, to the frame's plus one. -/
theorem C82_all_or_nothing (table : DeviceTable ι lookup) (mode : FooterMode) (buf : List UInt8)
    (m m' : Memory σ) (es : List Effect) (rest : Prog κ (Out SecErr (Frame × Nat) × List UInt8))
    (h : Steps lookup (readProg cfg mode buf) m es rest m') :
    ((∀ d, .stored d ∉ es) ∧ ∀ i, table.get m'.dev i = table.get m.dev i) ∨
    ∃ i d c, table.get m.dev i = some d ∧ d.frameCounter ≠ maxCounter ∧ d.frameCounter ≤ c ∧
      (cfg.overflowChecks = true → c ≠ maxCounter) ∧
      (∀ d', .stored d' ∈ es ↔ d' = { d with frameCounter := c + 1 }) ∧
      table.get m'.dev i = some { d with frameCounter := c + 1 } ∧
      ∀ j, j ≠ i → table.get m'.dev j = table.get m.dev j := by
  obtain ⟨header, hr⟩ := tryReadP_shape (κ := κ) cfg buf mode
  obtain ⟨hc, -, -, hu⟩ := hr.steps h
  cases hu with
  | before hm hs _ => exact .inl ⟨hs, fun i => by rw [hm]⟩
  | looked src _ hm hs _ => exact .inl ⟨hs, fun i => by rw [hm, table.looking]⟩
  | stored src aux d store c n hsrc ha hl fresh hd hst he hm hq =>
    have hfound := table.found m.dev src
    rw [hl] at hfound
    obtain ⟨rfl, hov⟩ := hst
    refine .inr ⟨table.identify src, d, aux.frameCounter, hfound.symm, hd, fresh, hov, ?_, ?_, ?_⟩
    · intro d'; simp [he]
    · rw [hm]; exact table.stored _ _ _ _ hl _
    · intro j hj; rw [hm]; exact table.others _ _ _ _ hl _ _ hj

/-- One attempt does not lower a device's counter. -/
theorem attempt_monotone (table : DeviceTable ι lookup) {m m' : Memory σ} {es f}
    (h : Attempt κ cfg euid lookup m es f m') (hw : ∀ d, .stored d ∈ es → d.frameCounter ≠ 0)
    (i : ι) (d : DeviceDescriptor) (hd : table.get m.dev i = some d) :
    ∃ d', table.get m'.dev i = some d' ∧ d.frameCounter ≤ d'.frameCounter := by
  cases h with
  | write call rest h =>
    exact ⟨d, by rw [(C81_counter_moves_first call m m' es rest h).1]; exact hd, UInt32.le_refl _⟩
  | read mode buf rest h =>
    rcases C82_all_or_nothing table mode buf m m' es rest h with
      ⟨-, h⟩ | ⟨j, e, c, hg, hmax, hle, -, hst, hg', ho⟩
    · exact ⟨d, by rw [h]; exact hd, UInt32.le_refl _⟩
    · by_cases hij : i = j
      · subst hij
        rw [hg] at hd
        cases hd
        refine ⟨_, hg', ?_⟩
        have hne : c ≠ maxCounter := by
          intro hc
          subst hc
          exact hw _ ((hst _).2 rfl) rfl
        have := UInt32.le_iff_toNat_le.1 hle
        exact UInt32.le_iff_toNat_le.2 (by simp only [u32_succ_toNat _ hne]; omega)
      · exact ⟨d, by rw [ho _ hij]; exact hd, UInt32.le_refl _⟩

/-- **C82** Over any history of attempts no device's counter goes back (unless one wrapped round). -/
theorem C82_counters_never_back (table : DeviceTable ι lookup) {m m' : Memory σ}
    {hist : List (List Effect × Option Frame)} (h : Attempts κ cfg euid lookup m hist m') (hw : NoWrap hist)
    (i : ι) (d : DeviceDescriptor) (hd : table.get m.dev i = some d) :
    ∃ d', table.get m'.dev i = some d' ∧ d.frameCounter ≤ d'.frameCounter := by
  induction h generalizing d with
  | none m => exact ⟨d, hd, UInt32.le_refl _⟩
  | @more m es f m₁ rest m₂ ha hr ih =>
    obtain ⟨d₁, h1, l1⟩ := attempt_monotone table ha (fun e he => hw _ (List.mem_cons_self ..) e he) i d hd
    obtain ⟨d₂, h2, l2⟩ := ih (fun a ha => hw a (List.mem_cons_of_mem _ ha)) d₁ h1
    exact ⟨d₂, h2, UInt32.le_trans l1 l2⟩

/-- **C82** With overflow checks no counter wraps round, whatever is received and wherever it stops. -/
theorem C82_no_wrap {m m' : Memory σ} {hist : List (List Effect × Option Frame)}
    (h : Attempts κ cfg euid lookup m hist m') (ho : cfg.overflowChecks = true) : NoWrap hist := by
  induction h with
  | none m => intro a ha; cases ha
  | @more m es f m₁ rest m₂ ha hr ih =>
    intro a hmem
    rcases List.mem_cons.1 hmem with rfl | hmem
    · intro d hd
      cases ha with
      | write call rest h =>
        exact absurd hd ((tryWriteP_shape cfg call.frame call.mode
          (⟨euid, m.counter, fun _ _ _ => none⟩ : SecCtx κ) call.buf).steps h |>.2.1 d)
      | read mode buf rest h =>
        obtain ⟨header, hr⟩ := tryReadP_shape (κ := κ) cfg buf mode
        obtain ⟨-, -, -, hu⟩ := hr.steps h
        cases hu with
        | before _ hs _ => exact absurd hd (hs d)
        | looked _ _ _ hs _ => exact absurd hd (hs d)
        | stored src aux e store c n hsrc ha hl fresh hmax hst he hm hq =>
          simp only [he, List.mem_cons, reduceCtorEq, false_or, List.not_mem_nil, or_false,
            Effect.stored.injEq] at hd
          subst hd
          obtain ⟨rfl, hov⟩ := hst
          intro h0
          have := congrArg UInt32.toNat h0
          simp only [u32_succ_toNat _ (hov ho)] at this
          exact absurd this (Nat.succ_ne_zero _)
    · exact ih a hmem

/-- A history in two parts. -/
theorem attempts_split {m m' : Memory σ} {a b : List (List Effect × Option Frame)}
    (h : Attempts κ cfg euid lookup m (a ++ b) m') :
    ∃ m₁, Attempts κ cfg euid lookup m a m₁ ∧ Attempts κ cfg euid lookup m₁ b m' := by
  induction a generalizing m with
  | nil => exact ⟨m, .none m, h⟩
  | cons x a ih =>
    cases h with
    | more h t =>
      obtain ⟨m₁, h1, h2⟩ := ih t
      exact ⟨m₁, .more h h1, h2⟩

/-- **C82** No replay across cuts: of two secured frames of one device given to the caller in a history of
writes and receptions, each cut short anywhere or not at all, the second has the greater counter — so none
is given twice. -/
theorem C82_no_replay (table : DeviceTable ι lookup) {m m' : Memory σ}
    (before between after : List (List Effect × Option Frame)) (es₁ es₂ : List Effect) (f₁ f₂ : Frame)
    (h : Attempts κ cfg euid lookup m (before ++ (es₁, some f₁) :: (between ++ (es₂, some f₂) :: after)) m')
    (hw : NoWrap ((es₁, some f₁) :: between)) (i : ι) (c₁ c₂ : UInt32)
    (hs₁ : Secured f₁.header) (hs₂ : Secured f₂.header)
    (hc₁ : ComesFrom table i c₁ f₁) (hc₂ : ComesFrom table i c₂ f₂) : c₁ < c₂ := by
  obtain ⟨m₁, -, h⟩ := attempts_split h
  cases h with
  | more ha h =>
    obtain ⟨m₃, hb, h⟩ := attempts_split h
    cases h with
    | more ha' _ =>
      have key : ∀ {ma mb : Memory σ} {es f}, Attempt κ cfg euid lookup ma es f mb → ∀ g, f = some g →
          Secured g.header → ∀ c, ComesFrom table i c g →
          ∃ d, table.get ma.dev i = some d ∧ d.frameCounter ≤ c ∧
            .stored { d with frameCounter := c + 1 } ∈ es ∧
            table.get mb.dev i = some { d with frameCounter := c + 1 } := by
        intro ma mb es f ha g hg hs c hc
        cases ha with
        | write call rest h => cases hg
        | read mode buf rest h =>
          obtain ⟨src, aux, d, n, h1, h2, h3, h4, h5, h6, h7, h8, -⟩ :=
            C82_stored_before_delivery table mode buf _ _ _ rest g h hg hs
          obtain ⟨src', aux', k1, k2, k3, k4⟩ := hc
          rw [h1] at k1; cases k1
          rw [h2] at k3; cases k3
          subst k2 k4
          exact ⟨d, h3, h5, by simp [h7], h8⟩
      obtain ⟨d, -, -, hst, hg⟩ := key ha f₁ rfl hs₁ c₁ hc₁
      obtain ⟨e, hg', hle, -, -⟩ := key ha' f₂ rfl hs₂ c₂ hc₂
      obtain ⟨e', hg'', hmono⟩ := C82_counters_never_back table hb
        (fun a ha => hw a (List.mem_cons_of_mem _ ha)) i _ hg
      rw [hg'] at hg''
      cases hg''
      have hne : c₁ ≠ maxCounter := by
        intro hc
        subst hc
        exact hw _ (List.mem_cons_self ..) _ hst rfl
      have h3 := UInt32.le_iff_toNat_le.1 hmono
      have h4 := UInt32.le_iff_toNat_le.1 hle
      simp only [u32_succ_toNat _ hne] at h3
      exact UInt32.lt_iff_toNat_lt.2 (by omega)

/-- **C82** A reception cut short before the store leaves no trace: whatever complete receptions follow
show what they would have shown without it — in particular the same frame, sent again, is accepted if it
would have been. -/
theorem C82_cut_leaves_no_trace (table : DeviceTable ι lookup) (mode : FooterMode) (buf : List UInt8)
    (m m' : Memory σ) (es : List Effect) (rest : Prog κ (Out SecErr (Frame × Nat) × List UInt8))
    (h : Steps lookup (readProg cfg mode buf) m es rest m') (hs : ∀ d, .stored d ∉ es)
    (aead : Aead κ) (calls : List (ReadCall κ)) :
    shown cfg aead lookup m'.dev calls = shown cfg aead lookup m.dev calls := by
  refine (C72_histories cfg aead table table rfl calls m'.dev m.dev fun i => ?_).1
  rcases C82_all_or_nothing table mode buf m m' es rest h with ⟨-, h⟩ | ⟨i, d, c, -, -, -, -, hst, -⟩
  · rw [h]
  · exact absurd ((hst _).2 rfl) (hs _)

end Receiver

/-! ## Witnesses -/

/-- A call carried out for at most `n` steps: what happened, what is left to do, and the memory. -/
def cutAfter {κ σ α : Type} (aead : Aead κ) (keys : KeyLookup κ) (lookup : DevLookup σ) :
    Nat → Prog κ α → Memory σ → List Effect × Prog κ α × Memory σ
  | 0, p, m => ([], p, m)
  | _ + 1, .done a, m => ([], .done a, m)
  | n + 1, .setCounter _ c next, m =>
    let r := cutAfter aead keys lookup n next { m with counter := c }
    (.counter c :: r.1, r.2)
  | n + 1, .askKey _ mode kid addr next, m =>
    let r := cutAfter aead keys lookup n (next (keys mode kid addr)) m
    (.key :: r.1, r.2)
  | n + 1, .encrypt _ t key nonce aad buf next, m =>
    let r := cutAfter aead keys lookup n (next (aead.encrypt t key nonce aad buf)) m
    (.encrypted nonce :: r.1, r.2)
  | n + 1, .lookupDevice _ mode addr next, m =>
    let r := cutAfter aead keys lookup n (next ((lookup m.dev mode addr).2.map (·.1)))
      { m with dev := (lookup m.dev mode addr).1, ref := (lookup m.dev mode addr).2.map (·.2) }
    (.device :: r.1, r.2)
  | n + 1, .decrypt _ t key nonce aad buf tag next, m =>
    let r := cutAfter aead keys lookup n (next (aead.decrypt t key nonce aad buf tag)) m
    (.decrypted nonce (aead.decrypt t key nonce aad buf tag).1 :: r.1, r.2)
  | n + 1, .storeDevice _ d next, m =>
    let r := cutAfter aead keys lookup n next { m with dev := m.store d }
    (.stored d :: r.1, r.2)

/-- With any key lookup and cipher, and cut after any number of steps, a call does what the steps allow. -/
theorem C81_cuts_are_steps {κ σ α : Type} (aead : Aead κ) (keys : KeyLookup κ) (lookup : DevLookup σ) (n : Nat)
    (p : Prog κ α) (m : Memory σ) :
    Steps lookup p m (cutAfter aead keys lookup n p m).1 (cutAfter aead keys lookup n p m).2.1
      (cutAfter aead keys lookup n p m).2.2 := by
  induction n generalizing p m with
  | zero => exact .none _ _
  | succ n ih =>
    cases p with
    | done a => exact .none _ _
    | setCounter w c next => exact .more (.setCounter w ..) (ih _ _)
    | askKey w mode kid addr next => exact .more (.askKey w ..) (ih _ _)
    | encrypt w t k n a b next => exact .more (.encrypt w ..) (ih _ _)
    | lookupDevice w mode addr next => exact .more (.lookupDevice w ..) (ih _ _)
    | decrypt w t k n a b g next => exact .more (.decrypt w ..) (ih _ _)
    | storeDevice w d next => exact .more (.storeDevice w ..) (ih _ _)

/-- The sample sender's and receiver's memory. -/
def sampleMemory : Memory DeviceDescriptor := ⟨0x01020304, ⟨3, false⟩, none⟩

/-- The sample write cut after `n` steps. -/
def sampleCutWrite (n : Nat) (m : Memory DeviceDescriptor) :
    List Effect × Prog Nat (Out ByteErr Nat × List UInt8) × Memory DeviceDescriptor :=
  cutAfter sampleAead sampleSender.keyProvider sampleLookup n
    (writeProg sampleCfg sampleSender.euid m ⟨sampleSecured, .none, List.replicate 40 0⟩) m

/-- The sample reception cut after `n` steps. -/
def sampleCutRead (n : Nat) (m : Memory DeviceDescriptor) :
    List Effect × Prog Nat (Out SecErr (Frame × Nat) × List UInt8) × Memory DeviceDescriptor :=
  cutAfter sampleAead sampleSender.keyProvider sampleLookup n (readProg sampleCfg .none sampleReceived) m

theorem sampleCutWrite_attempt (n : Nat) (m : Memory DeviceDescriptor) :
    Attempt Nat sampleCfg sampleSender.euid sampleLookup m (sampleCutWrite n m).1 none (sampleCutWrite n m).2.2 :=
  .write _ _ (C81_cuts_are_steps ..)

theorem sampleCutRead_attempt (n : Nat) (m : Memory DeviceDescriptor) :
    Attempt Nat sampleCfg sampleSender.euid sampleLookup m (sampleCutRead n m).1
      (delivered (sampleCutRead n m).2.1) (sampleCutRead n m).2.2 :=
  .read _ _ _ (C81_cuts_are_steps ..)

/-- Witness for C81: a write cut before the key lookup, one cut right after the cipher was called, and one
carried out; the first burns a counter, the other two use two nonces. -/
example :
    let m₁ := (sampleCutWrite 1 sampleMemory).2.2
    let m₂ := (sampleCutWrite 3 m₁).2.2
    Attempts Nat sampleCfg sampleSender.euid sampleLookup sampleMemory
      [((sampleCutWrite 1 sampleMemory).1, none), ((sampleCutWrite 3 m₁).1, none), ((sampleCutWrite 9 m₂).1, none)]
      (sampleCutWrite 9 m₂).2.2 ∧
    (sampleCutWrite 1 sampleMemory).1 = [.counter 0x01020305] ∧
    (sampleCutWrite 3 m₁).1 = [.counter 0x01020306, .key,
      .encrypted (nonceOctets sampleSender.euid 0x01020305 .encmic32)] ∧
    (sampleCutWrite 9 m₂).1 = [.counter 0x01020307, .key,
      .encrypted (nonceOctets sampleSender.euid 0x01020306 .encmic32)] :=
  ⟨.more (sampleCutWrite_attempt ..) (.more (sampleCutWrite_attempt ..) (.more (sampleCutWrite_attempt ..) (.none _))),
    by decide +kernel, by decide +kernel, by decide +kernel⟩

/-- Witness for C82: a reception cut right before the store, the same again carried out — the frame is
given to the caller —, the same a third time — refused. -/
example :
    let m₁ := (sampleCutRead 3 sampleMemory).2.2
    let m₂ := (sampleCutRead 9 m₁).2.2
    Attempts Nat sampleCfg sampleSender.euid sampleLookup sampleMemory
      [((sampleCutRead 3 sampleMemory).1, none), ((sampleCutRead 9 m₁).1, some (sampleAccepted 4)),
        ((sampleCutRead 9 m₂).1, none)] (sampleCutRead 9 m₂).2.2 ∧
    (sampleCutRead 3 sampleMemory).1 = [.key, .device, .decrypted (nonceOctets 9 0x01020304 .encmic32) true] ∧
    (sampleCutRead 9 m₁).1 = [.key, .device, .decrypted (nonceOctets 9 0x01020304 .encmic32) true,
      .stored ⟨0x01020305, false⟩] ∧
    (sampleCutRead 9 m₂).1 = [.key, .device] ∧
    Secured (sampleAccepted 4).header ∧ ComesFrom sampleTable () 0x01020304 (sampleAccepted 4) := by
  refine ⟨?_, by decide +kernel, by decide +kernel, by decide +kernel, rfl, ⟨_, _, rfl, rfl, rfl, by decide⟩⟩
  have h1 : delivered (sampleCutRead 3 sampleMemory).2.1 = none := by decide +kernel
  have h2 : delivered (sampleCutRead 9 (sampleCutRead 3 sampleMemory).2.2).2.1 = some (sampleAccepted 4) := by
    decide +kernel
  have h3 : delivered (sampleCutRead 9 (sampleCutRead 9 (sampleCutRead 3 sampleMemory).2.2).2.2).2.1 = none := by
    decide +kernel
  refine .more (h1 ▸ sampleCutRead_attempt 3 sampleMemory) (.more (h2 ▸ sampleCutRead_attempt 9 _) (.more ?_ (.none _)))
  exact h3 ▸ sampleCutRead_attempt 9 _

end Verif
