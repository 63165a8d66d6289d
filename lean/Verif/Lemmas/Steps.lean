import Verif.Spec.StepSpec
import Verif.Lemmas.SecureHistory

/-! # Lemmas: calls step by step -/

namespace Verif
open Spec

section Run

variable {κ σ α β : Type} (aead : Aead κ) (keys : KeyLookup κ) (lookup : DevLookup σ)

theorem runToEnd_bind (front : List UInt8) (f : α → Prog κ β) (p : Prog κ α) (m : Memory σ) :
    runToEnd aead keys lookup (p.bind front f) m =
      runToEnd aead keys lookup (f (runToEnd aead keys lookup p m).1) (runToEnd aead keys lookup p m).2 := by
  induction p generalizing m with
  | done a => rfl
  | setCounter w c next ih => exact ih _
  | askKey w mode kid addr next ih => exact ih _ _
  | encrypt w t k n a b next ih => exact ih _ _
  | lookupDevice w mode addr next ih => exact ih _ _
  | decrypt w t k n a b g next ih => exact ih _ _
  | storeDevice w d next ih => exact ih _

/-- `do_secure!` step by step and at once. -/
theorem doSecureP_run (key : κ) (nonce : List UInt8) (secL : SecurityLevel) (t : Nat)
    (mic encmic : SecurityLevel) (buffer : List UInt8) (offset : Nat) (m : Memory σ) :
    runToEnd aead keys lookup (doSecureP key nonce secL t mic encmic buffer offset) m =
      (doSecure aead key nonce secL t mic encmic buffer offset, m) := by
  rcases aead with ⟨enc, dec⟩
  unfold doSecureP doSecure
  dsimp only
  split
  · simp only [runToEnd]
    rcases enc t key nonce (buffer.take offset) [] with ⟨_ | tag, part⟩
    · rfl
    · dsimp only
      rcases W.write (tryWriteBytes tag) buffer offset with ⟨_ | _ | _, b, o⟩ <;> rfl
  · split
    · simp only [runToEnd]
      rcases enc t key nonce [] (buffer.take offset) with ⟨_ | tag, part⟩
      · rfl
      · dsimp only
        rcases W.write (tryWriteBytes tag) (part ++ buffer.drop offset) offset with ⟨_ | _ | _, b, o⟩ <;> rfl
    · rfl

/-- `secure_frame` step by step and at once. -/
theorem secureFrameP_run (f : Frame) (sc : SecCtx κ) (mode : FooterMode) (buffer : List UInt8) (m : Memory σ)
    (hm : m.counter = sc.frameCounter) :
    let r := runToEnd aead sc.keyProvider lookup (secureFrameP f sc.euid sc.frameCounter mode buffer) m
    secureFrame aead f sc mode buffer = (r.1.1, { sc with frameCounter := r.2.counter }, r.1.2) ∧
      r.2.dev = m.dev := by
  have hsc : sc = { sc with frameCounter := m.counter } := by rw [hm]
  unfold secureFrameP secureFrame
  cases mode with
  | explicit => exact ⟨by show _ = (_, { sc with frameCounter := m.counter }, _); rw [← hsc]; rfl, rfl⟩
  | none =>
    dsimp only
    split
    rotate_left
    · exact ⟨by show _ = (_, { sc with frameCounter := m.counter }, _); rw [← hsc]; rfl, rfl⟩
    split
    · exact ⟨by show _ = (_, { sc with frameCounter := m.counter }, _); rw [← hsc]; rfl, rfl⟩
    rcases f.header.auxSec with _ | aux
    · exact ⟨by show _ = (_, { sc with frameCounter := m.counter }, _); rw [← hsc]; rfl, rfl⟩
    dsimp only
    split
    · exact ⟨by show _ = (_, { sc with frameCounter := m.counter }, _); rw [← hsc]; rfl, rfl⟩
    rcases W.write (tryWriteBytes f.payload) buffer 0 with ⟨_ | _ | _, b, o⟩
    rotate_left
    · exact ⟨by show _ = (_, { sc with frameCounter := m.counter }, _); rw [← hsc]; rfl, rfl⟩
    · exact ⟨by show _ = (_, { sc with frameCounter := m.counter }, _); rw [← hsc]; rfl, rfl⟩
    dsimp only
    split
    · exact ⟨by show _ = (_, { sc with frameCounter := m.counter }, _); rw [← hsc]; rfl, rfl⟩
    split
    · exact ⟨by show _ = (_, { sc with frameCounter := m.counter }, _); rw [← hsc]; rfl, rfl⟩
    simp only [runToEnd]
    rcases sc.keyProvider .dst aux.keyIdentifier f.header.destination with _ | ⟨_, key⟩
    · exact ⟨rfl, rfl⟩
    dsimp only
    generalize aux.control.securityLevel = l
    cases l <;> first
      | exact ⟨rfl, rfl⟩
      | (simp only [doSecureP_run]; exact ⟨trivial, trivial⟩)

/-- `do_unsecure!` step by step and at once. -/
theorem doUnsecureP_run (cfg : Cfg) (key : κ) (nonce : List UInt8) (fc : UInt32) (secL : SecurityLevel)
    (t : Nat) (mic encmic : SecurityLevel) (device : DeviceDescriptor) (buffer : List UInt8) (m : Memory σ)
    (store : DeviceDescriptor → σ) (hm : m.ref = some store) :
    let r := runToEnd aead keys lookup (doUnsecureP cfg key nonce fc secL t mic encmic device buffer) m
    (r.1, r.2.dev) =
      match doUnsecure cfg aead key nonce fc secL t mic encmic buffer with
      | (.ok (taglen, fc'), buffer) => ((.ok taglen, buffer), store { device with frameCounter := fc' })
      | (.err e, buffer) => ((.err e, buffer), m.dev)
      | (.panic, buffer) => ((.panic, buffer), m.dev) := by
  unfold doUnsecureP doUnsecure
  dsimp only
  rcases (usub cfg buffer.length secL.micOctetSize : Out SecErr Nat) with start | e | _
  rotate_left
  · rfl
  · rfl
  dsimp only
  split
  · rfl
  split
  · rfl
  have hfin : ∀ (v : Bool) (b : List UInt8), (fun r : (Out SecErr Nat × List UInt8) × Memory σ => (r.1, r.2.dev))
      (runToEnd aead keys lookup (if v then
          (match u32Succ cfg fc with
          | .ok fc' => .storeDevice b { device with frameCounter := fc' } (.done (.ok secL.micOctetSize, b))
          | .err e => .done (.err e, b)
          | .panic => .done (.panic, b) : Prog κ (Out SecErr Nat × List UInt8))
        else .done (.err .transformationError, b)) m) =
      match (match ((.ok v : Out SecErr Bool), b) with
        | (.ok true, buffer) =>
            match u32Succ cfg fc with
            | .ok fc' => ((.ok (secL.micOctetSize, fc') : Out SecErr (Nat × UInt32)), buffer)
            | .err e => (.err e, buffer)
            | .panic => (.panic, buffer)
        | (.ok false, buffer) => (.err .transformationError, buffer)
        | (.err e, buffer) => (.err e, buffer)
        | (.panic, buffer) => (.panic, buffer)) with
      | (.ok (taglen, fc'), buffer) => ((.ok taglen, buffer), store { device with frameCounter := fc' })
      | (.err e, buffer) => ((.err e, buffer), m.dev)
      | (.panic, buffer) => ((.panic, buffer), m.dev) := by
    intro v b
    cases v with
    | false => rfl
    | true =>
      simp only [if_true]
      rcases u32Succ cfg fc with fc' | e | _
      · simp only [runToEnd, Memory.store, hm]
      · rfl
      · rfl
  split
  · simp only [runToEnd]
    exact hfin _ _
  split
  · simp only [runToEnd]
    exact hfin _ _
  · rfl

/-- `unsecure_frame` step by step and at once. -/
theorem unsecureFrameP_run (cfg : Cfg) (h : Header) (sc : SecCtx κ) (mode : FooterMode) (buffer : List UInt8)
    (m : Memory σ) :
    let r := runToEnd aead sc.keyProvider lookup (unsecureFrameP cfg h buffer mode) m
    unsecureFrame cfg aead h buffer sc mode lookup m.dev = (r.1.1, r.1.2, sc, r.2.dev) := by
  unfold unsecureFrameP unsecureFrame
  cases mode with
  | explicit => rfl
  | none =>
    dsimp only
    split
    rotate_left
    · rfl
    split
    · rfl
    split
    · rfl
    rcases h.auxSec with _ | aux
    · rfl
    dsimp only
    split
    · rfl
    simp only [runToEnd]
    rcases sc.keyProvider .src aux.keyIdentifier h.source with _ | ⟨eui, key⟩
    · rfl
    dsimp only
    rcases h.source with _ | src
    · rfl
    simp only [runToEnd]
    rcases hl : lookup m.dev .src src with ⟨dev, _ | ⟨device, store⟩⟩
    · simp only [Option.map_none, runToEnd]
    simp only [Option.map_some]
    split
    · rfl
    have hd := fun (l : SecurityLevel) (t : Nat) (mic encmic : SecurityLevel) =>
      doUnsecureP_run aead sc.keyProvider lookup cfg key (calculateNonce eui aux.frameCounter l) aux.frameCounter
        l t mic encmic device buffer ⟨m.counter, dev, some store⟩ store rfl
    dsimp only at hd
    have close : ∀ (q : Out SecErr (Nat × UInt32) × List UInt8) (p : (Out SecErr Nat × List UInt8) × Memory σ),
        (p.1, p.2.dev) = (match q with
          | (.ok (taglen, fc'), buffer) => ((.ok taglen, buffer), store { device with frameCounter := fc' })
          | (.err e, buffer) => ((.err e, buffer), dev)
          | (.panic, buffer) => ((.panic, buffer), dev)) →
        (match q with
          | (.ok (taglen, fc'), buffer) =>
            ((.ok taglen : Out SecErr Nat), buffer, sc, store { device with frameCounter := fc' })
          | (.err e, buffer) => (.err e, buffer, sc, dev)
          | (.panic, buffer) => (.panic, buffer, sc, dev)) = (p.1.1, p.1.2, sc, p.2.dev) := by
      rintro ⟨⟨_, _⟩ | _ | _, _⟩ ⟨⟨_, _⟩, _⟩ h <;>
        simp only [Prod.mk.injEq] at h <;> obtain ⟨⟨rfl, rfl⟩, h⟩ := h <;> (dsimp only; rw [h])
    generalize aux.control.securityLevel = l at *
    cases l
    · rfl
    · exact close _ _ (hd _ 4 .mic32 .encmic32)
    · exact close _ _ (hd _ 8 .mic64 .encmic64)
    · exact close _ _ (hd _ 16 .mic128 .encmic128)
    · rfl
    · exact close _ _ (hd _ 4 .mic32 .encmic32)
    · exact close _ _ (hd _ 8 .mic64 .encmic64)
    · exact close _ _ (hd _ 16 .mic128 .encmic128)

/-- `Frame::try_write` step by step and at once. -/
theorem tryWriteP_run (cfg : Cfg) (f : Frame) (mode : FooterMode) (sc : SecCtx κ) (buf : List UInt8) (m : Memory σ)
    (hm : m.counter = sc.frameCounter) :
    let r := runToEnd aead sc.keyProvider lookup (f.tryWriteP cfg ⟨mode, some sc⟩ buf) m
    f.tryWrite cfg aead ⟨mode, some sc⟩ buf =
        (r.1.1, r.1.2, ⟨mode, some { sc with frameCounter := r.2.counter }⟩) ∧ r.2.dev = m.dev := by
  have hsc : sc = { sc with frameCounter := m.counter } := by rw [hm]
  unfold Frame.tryWriteP Frame.tryWrite
  dsimp only
  rcases f.writeHead cfg (some sc) buf 0 with ⟨_ | _ | _, b, o⟩
  rotate_left
  · exact ⟨by show _ = (_, _, SerDesCtx.mk mode (some { sc with frameCounter := m.counter })); rw [← hsc]; rfl, rfl⟩
  · exact ⟨by show _ = (_, _, SerDesCtx.mk mode (some { sc with frameCounter := m.counter })); rw [← hsc]; rfl, rfl⟩
  dsimp only
  rw [runToEnd_bind]
  obtain ⟨h1, h2⟩ := secureFrameP_run aead lookup f sc mode (b.drop o) m hm
  rw [h1]
  generalize runToEnd aead sc.keyProvider lookup (secureFrameP f sc.euid sc.frameCounter mode (b.drop o)) m = r at h2 ⊢
  rcases r with ⟨⟨n | e | _, sub⟩, m'⟩
  · dsimp only
    rcases f.writeTail mode true (b.take o ++ sub) (o + n) with ⟨_ | _ | _, _, _⟩ <;> exact ⟨rfl, h2⟩
  · cases e <;> dsimp only <;> first
      | exact ⟨rfl, h2⟩
      | (rcases f.writeTail mode false (b.take o ++ sub) o with ⟨_ | _ | _, _, _⟩ <;> exact ⟨rfl, h2⟩)
  · exact ⟨rfl, h2⟩

/-- `Frame::try_read_and_unsecure` step by step and at once. -/
theorem tryReadP_run (cfg : Cfg) (mode : FooterMode) (sc : SecCtx κ) (buf : List UInt8) (m : Memory σ) :
    let r := runToEnd aead sc.keyProvider lookup (Frame.tryReadAndUnsecureP cfg buf mode true) m
    Frame.tryReadAndUnsecure cfg aead buf ⟨mode, some sc⟩ lookup m.dev =
        (r.1.1, r.1.2, ⟨mode, some sc⟩, r.2.dev) := by
  unfold Frame.tryReadAndUnsecureP Frame.tryReadAndUnsecure
  rcases Frame.readHead cfg buf 0 with ⟨⟨header, content⟩, offset⟩ | e | _
  rotate_left
  · rfl
  · rfl
  dsimp only
  split
  rotate_left
  · rfl
  simp only [if_true]
  rw [runToEnd_bind, unsecureFrameP_run aead lookup cfg header sc mode (buf.drop offset) m]
  generalize runToEnd aead sc.keyProvider lookup (unsecureFrameP cfg header (buf.drop offset) mode) m = r
  rcases r with ⟨⟨n | e | _, sub⟩, m'⟩
  · rfl
  · cases e <;> rfl
  · rfl

/-- A run to the end is one of the things the steps allow. -/
theorem runToEnd_steps (p : Prog κ α) (m : Memory σ) :
    ∃ es, Steps lookup p m es (.done (runToEnd aead keys lookup p m).1) (runToEnd aead keys lookup p m).2 := by
  induction p generalizing m with
  | done a => exact ⟨[], .none _ _⟩
  | setCounter w c next ih => obtain ⟨es, h⟩ := ih _; exact ⟨_, .more (.setCounter ..) h⟩
  | askKey w mode kid addr next ih => obtain ⟨es, h⟩ := ih _ _; exact ⟨_, .more (.askKey ..) h⟩
  | encrypt w t k n a b next ih => obtain ⟨es, h⟩ := ih _ _; exact ⟨_, .more (.encrypt ..) h⟩
  | lookupDevice w mode addr next ih => obtain ⟨es, h⟩ := ih _ _; exact ⟨_, .more (.lookupDevice ..) h⟩
  | decrypt w t k n a b g next ih => obtain ⟨es, h⟩ := ih _ _; exact ⟨_, .more (.decrypt ..) h⟩
  | storeDevice w d next ih => obtain ⟨es, h⟩ := ih _; exact ⟨_, .more (.storeDevice ..) h⟩

end Run

/-! ## Inversion -/

section Inversion

variable {κ σ α : Type} {lookup : DevLookup σ}

theorem Steps.of_done {a : α} {m m' : Memory σ} {es q} (h : Steps lookup (.done a : Prog κ α) m es q m') :
    es = [] ∧ q = .done a ∧ m' = m := by
  cases h with
  | none => exact ⟨rfl, rfl, rfl⟩
  | more s _ => cases s

theorem Steps.of_setCounter {c next} {m m' : Memory σ} {es} {q : Prog κ α}
    (h : Steps lookup (.setCounter w c next) m es q m') :
    (es = [] ∧ q = .setCounter w c next ∧ m' = m) ∨
    ∃ es', es = .counter c :: es' ∧ Steps lookup next { m with counter := c } es' q m' := by
  cases h with
  | none => exact .inl ⟨rfl, rfl, rfl⟩
  | more s t => cases s; exact .inr ⟨_, rfl, t⟩

theorem Steps.of_askKey {mode kid addr next} {m m' : Memory σ} {es} {q : Prog κ α}
    (h : Steps lookup (.askKey w mode kid addr next) m es q m') :
    (es = [] ∧ q = .askKey w mode kid addr next ∧ m' = m) ∨
    ∃ es' r, es = .key :: es' ∧ Steps lookup (next r) m es' q m' := by
  cases h with
  | none => exact .inl ⟨rfl, rfl, rfl⟩
  | more s t => cases s; exact .inr ⟨_, _, rfl, t⟩

theorem Steps.of_encrypt {t k n a b next} {m m' : Memory σ} {es} {q : Prog κ α}
    (h : Steps lookup (.encrypt w t k n a b next) m es q m') :
    (es = [] ∧ q = .encrypt w t k n a b next ∧ m' = m) ∨
    ∃ es' r, es = .encrypted n :: es' ∧ Steps lookup (next r) m es' q m' := by
  cases h with
  | none => exact .inl ⟨rfl, rfl, rfl⟩
  | more s t => cases s; exact .inr ⟨_, _, rfl, t⟩

theorem Steps.of_lookupDevice {mode addr next} {m m' : Memory σ} {es} {q : Prog κ α}
    (h : Steps lookup (.lookupDevice w mode addr next) m es q m') :
    (es = [] ∧ q = .lookupDevice w mode addr next ∧ m' = m) ∨
    ∃ es', es = .device :: es' ∧ Steps lookup (next ((lookup m.dev mode addr).2.map (·.1)))
      { m with dev := (lookup m.dev mode addr).1, ref := (lookup m.dev mode addr).2.map (·.2) } es' q m' := by
  cases h with
  | none => exact .inl ⟨rfl, rfl, rfl⟩
  | more s t => cases s; exact .inr ⟨_, rfl, t⟩

theorem Steps.of_decrypt {t k n a b g next} {m m' : Memory σ} {es} {q : Prog κ α}
    (h : Steps lookup (.decrypt w t k n a b g next) m es q m') :
    (es = [] ∧ q = .decrypt w t k n a b g next ∧ m' = m) ∨
    ∃ es' r, es = .decrypted n r.1 :: es' ∧ Steps lookup (next r) m es' q m' := by
  cases h with
  | none => exact .inl ⟨rfl, rfl, rfl⟩
  | more s t => cases s; exact .inr ⟨_, _, rfl, t⟩

theorem Steps.of_storeDevice {d next} {m m' : Memory σ} {es} {q : Prog κ α}
    (h : Steps lookup (.storeDevice w d next) m es q m') :
    (es = [] ∧ q = .storeDevice w d next ∧ m' = m) ∨
    ∃ es', es = .stored d :: es' ∧ Steps lookup next { m with dev := m.store d } es' q m' := by
  cases h with
  | none => exact .inl ⟨rfl, rfl, rfl⟩
  | more s t => cases s; exact .inr ⟨_, rfl, t⟩

end Inversion

/-! ## The shape of a write -/

section WriteShape

variable {κ α : Type}

/-- What a write does once it has asked for the key. -/
inductive AfterKey (euid : UInt64) (c : UInt32) : Prog κ α → Prop
  | done (a) : AfterKey euid c (.done a)
  | encrypt (w t key l aad buf next) (h : ∀ r, ∃ a, next r = .done a) :
      AfterKey euid c (.encrypt w t key (nonceOctets euid c l) aad buf next)

/-- What a write does. -/
inductive WriteShape (euid : UInt64) (c : UInt32) : Prog κ α → Prop
  | done (a) : WriteShape euid c (.done a)
  | secured (hc : c ≠ maxCounter) (w w' kid addr next) (h : ∀ r, AfterKey euid c (next r)) :
      WriteShape euid c (.setCounter w (c + 1) (.askKey w' .dst kid addr next))

theorem WriteShape.bind {β : Type} {euid : UInt64} {c : UInt32} {p : Prog κ α} (hp : WriteShape euid c p)
    (front : List UInt8) (f : α → Prog κ β) (hf : ∀ a, ∃ b, f a = .done b) : WriteShape euid c (p.bind front f) := by
  cases hp with
  | done a => obtain ⟨b, hb⟩ := hf a; rw [Prog.bind, hb]; exact .done b
  | secured hc w w' kid addr next h =>
    refine .secured hc _ _ kid addr _ fun r => ?_
    generalize next r = q, h r = hq
    cases hq with
    | done a => obtain ⟨b, hb⟩ := hf a; rw [Prog.bind, hb]; exact .done b
    | encrypt w t key l aad buf next hn =>
      refine .encrypt _ t key l aad buf _ fun r => ?_
      obtain ⟨a, ha⟩ := hn r
      obtain ⟨b, hb⟩ := hf a
      exact ⟨b, by rw [ha, Prog.bind, hb]⟩

theorem doSecureP_shape (euid : UInt64) (c : UInt32) (key : κ) (l secL : SecurityLevel) (t : Nat)
    (mic encmic : SecurityLevel) (buffer : List UInt8) (offset : Nat) :
    AfterKey euid c (doSecureP key (nonceOctets euid c l) secL t mic encmic buffer offset) := by
  have hf : ∀ (tag : Option (List UInt8)) (b : List UInt8), ∃ a : Out SecErr Nat × List UInt8,
      (match tag with
      | some tag =>
        match W.write (tryWriteBytes tag) b offset with
        | (.ok (), buffer, offset) => (.done (.ok offset, buffer) : Prog κ (Out SecErr Nat × List UInt8))
        | (.err e, buffer, _) => .done (.err (.writeError e), buffer)
        | (.panic, buffer, _) => .done (.panic, buffer)
      | none => .done (.err .transformationError, b) : Prog κ (Out SecErr Nat × List UInt8)) = .done a := by
    intro tag b
    cases tag with
    | none => exact ⟨_, rfl⟩
    | some tag =>
      dsimp only
      rcases W.write (tryWriteBytes tag) b offset with ⟨_ | _ | _, _, _⟩ <;> exact ⟨_, rfl⟩
  unfold doSecureP
  dsimp only
  split
  · exact .encrypt _ _ _ _ _ _ _ fun r => hf _ _
  split
  · exact .encrypt _ _ _ _ _ _ _ fun r => hf _ _
  · exact .done _

theorem secureFrameP_shape (f : Frame) (euid : UInt64) (c : UInt32) (mode : FooterMode) (buffer : List UInt8) :
    WriteShape euid c (secureFrameP (κ := κ) f euid c mode buffer) := by
  unfold secureFrameP
  cases mode with
  | explicit => exact .done _
  | none =>
    dsimp only
    split
    rotate_left
    · exact .done _
    split
    · exact .done _
    split
    · exact .done _
    split
    · exact .done _
    split
    · exact .done _
    · exact .done _
    split
    · exact .done _
    split
    · exact .done _
    rename_i hc
    refine .secured hc _ _ _ _ _ fun r => ?_
    rcases r with _ | ⟨_, key⟩
    · exact .done _
    dsimp only
    rw [calculateNonce_eq]
    split <;> first
      | exact .done _
      | exact doSecureP_shape ..

theorem tryWriteP_shape (cfg : Cfg) (f : Frame) (mode : FooterMode) (sc : SecCtx κ) (buf : List UInt8) :
    WriteShape sc.euid sc.frameCounter (f.tryWriteP cfg ⟨mode, some sc⟩ buf) := by
  have hf : ∀ (s : Bool) (b : List UInt8) (o : Nat), ∃ a : Out ByteErr Nat × List UInt8,
      (match f.writeTail mode s b o with
      | (.ok (), bytes, offset) => (.done (.ok offset, bytes) : Prog κ (Out ByteErr Nat × List UInt8))
      | (.err e, bytes, _) => .done (.err e, bytes)
      | (.panic, bytes, _) => .done (.panic, bytes) : Prog κ (Out ByteErr Nat × List UInt8)) = .done a := by
    intro s b o
    rcases f.writeTail mode s b o with ⟨_ | _ | _, _, _⟩ <;> exact ⟨_, rfl⟩
  unfold Frame.tryWriteP
  dsimp only
  split
  · exact .done _
  · exact .done _
  · refine (secureFrameP_shape ..).bind _ _ fun r => ?_
    rcases r with ⟨n | e | _, sub⟩
    · exact hf _ _ _
    · cases e <;> first
        | exact ⟨_, rfl⟩
        | exact hf _ _ _
    · exact ⟨_, rfl⟩

end WriteShape

/-! ## The shape of a reception -/

section ReadShape

variable {κ α : Type}

/-- The counter stored for a frame with counter `c`: its successor, if that can be computed. -/
def Stores (cfg : Cfg) (c c' : UInt32) : Prop := c' = c + 1 ∧ (cfg.overflowChecks = true → c ≠ maxCounter)

/-- What a reception does once it has a device: it decrypts at most once and then stores at most once. `B`
holds of results without storing, `G` of results after. -/
inductive AfterDevice (cfg : Cfg) (aux : AuxHeader) (B G : α → Prop) (d : DeviceDescriptor) : Prog κ α → Prop
  | done (a) (h : B a) : AfterDevice cfg aux B G d (.done a)
  | decrypt (w) (fresh : d.frameCounter ≤ aux.frameCounter) (hd : d.frameCounter ≠ maxCounter)
      (t key n a b g next)
      (h : ∀ r, (∃ a, next r = .done a ∧ B a) ∨
        ∃ a c w', r.1 = true ∧ Stores cfg aux.frameCounter c ∧
          next r = .storeDevice w' { d with frameCounter := c } (.done a) ∧ G a) :
      AfterDevice cfg aux B G d (.decrypt w t key n a b g next)

/-- What a reception does once it has a key. -/
inductive AfterReadKey (cfg : Cfg) (header : Header) (aux : AuxHeader) (B G : α → Prop) : Prog κ α → Prop
  | done (a) (h : B a) : AfterReadKey cfg header aux B G (.done a)
  | lookup (w src next) (hs : header.source = some src) (h0 : ∃ a, next none = .done a ∧ B a)
      (h : ∀ d, AfterDevice cfg aux B G d (next (some d))) :
      AfterReadKey cfg header aux B G (.lookupDevice w .src src next)

/-- What a reception does. -/
inductive ReadShape (cfg : Cfg) (header : Header) (B G : α → Prop) : Prog κ α → Prop
  | done (a) (h : B a) : ReadShape cfg header B G (.done a)
  | secured (w aux) (ha : header.auxSec = some aux) (kid addr next)
      (h : ∀ r, AfterReadKey cfg header aux B G (next r)) :
      ReadShape cfg header B G (.askKey w .src kid addr next)

theorem ReadShape.bind {β : Type} {cfg : Cfg} {header : Header} {B G : α → Prop} {B' G' : β → Prop}
    {p : Prog κ α} (hp : ReadShape cfg header B G p) (front : List UInt8) (f : α → Prog κ β)
    (hB : ∀ a, B a → ∃ b, f a = .done b ∧ B' b) (hG : ∀ a, G a → ∃ b, f a = .done b ∧ G' b) :
    ReadShape cfg header B' G' (p.bind front f) := by
  cases hp with
  | done a h => obtain ⟨b, hb, h⟩ := hB a h; rw [Prog.bind, hb]; exact .done b h
  | secured w aux ha kid addr next h =>
    refine .secured _ aux ha kid addr _ fun r => ?_
    generalize next r = q, h r = hq
    cases hq with
    | done a h => obtain ⟨b, hb, h⟩ := hB a h; rw [Prog.bind, hb]; exact .done b h
    | lookup w src next hs h0 h =>
      refine .lookup _ src _ hs ?_ fun d => ?_
      · obtain ⟨a, h1, h2⟩ := h0
        obtain ⟨b, hb, h3⟩ := hB a h2
        exact ⟨b, by rw [h1, Prog.bind, hb], h3⟩
      generalize next (some d) = q, h d = hq
      cases hq with
      | done a h => obtain ⟨b, hb, h⟩ := hB a h; rw [Prog.bind, hb]; exact .done b h
      | decrypt w fresh hd t key n a b g next h =>
        refine .decrypt _ fresh hd _ _ _ _ _ _ _ fun r => ?_
        rcases h r with ⟨a, h1, h2⟩ | ⟨a, c, w', hv, hc, h1, h2⟩
        · obtain ⟨b, hb, h3⟩ := hB a h2
          exact .inl ⟨b, by rw [h1, Prog.bind, hb], h3⟩
        · obtain ⟨b, hb, h3⟩ := hG a h2
          exact .inr ⟨b, c, _, hv, hc, by rw [h1, Prog.bind, Prog.bind, hb], h3⟩

/-- Results of unsecuring that let no frame through. -/
def Refusal (r : Out SecErr Nat × List UInt8) : Prop :=
  (∀ n, r.1 ≠ .ok n) ∧ r.1 ≠ .err .securityNotEnabled

theorem doUnsecureP_shape (cfg : Cfg) (aux : AuxHeader) (key : κ) (nonce : List UInt8) (secL : SecurityLevel)
    (t : Nat) (mic encmic : SecurityLevel) (d : DeviceDescriptor) (buffer : List UInt8)
    (fresh : d.frameCounter ≤ aux.frameCounter) (hd : d.frameCounter ≠ maxCounter) :
    AfterDevice cfg aux Refusal (fun _ => True) d
      (doUnsecureP cfg key nonce aux.frameCounter secL t mic encmic d buffer) := by
  have hp : ∀ b, Refusal (.panic, b) := fun b => ⟨fun _ h => (by cases h), fun h => (by cases h)⟩
  have hf : ∀ (v : Bool) (b : List UInt8) (tl : Nat) (q : Prog κ (Out SecErr Nat × List UInt8)),
      q = (if v then
          match u32Succ cfg aux.frameCounter with
          | .ok fc' => .storeDevice b { d with frameCounter := fc' } (.done (.ok tl, b))
          | .err e => .done (.err e, b)
          | .panic => .done (.panic, b)
        else .done (.err .transformationError, b)) →
      (∃ a, q = .done a ∧ Refusal a) ∨
        ∃ a c w', v = true ∧ Stores cfg aux.frameCounter c ∧ q = .storeDevice w' { d with frameCounter := c } (.done a) ∧ True := by
    intro v b tl q hq
    cases v with
    | false => exact .inl ⟨_, hq, fun _ h => (by cases h), fun h => (by cases h)⟩
    | true =>
      simp only [if_true, u32Succ] at hq
      split at hq
      · rename_i h
        split at h
        · cases h
        · rename_i h'
          cases h
          exact .inr ⟨_, _, _, rfl, ⟨rfl, fun ho hm => h' ⟨hm, ho⟩⟩, hq, trivial⟩
      · rename_i h
        split at h <;> cases h
      · exact .inl ⟨_, hq, hp _⟩
  unfold doUnsecureP
  dsimp only
  rcases hu : (usub cfg buffer.length secL.micOctetSize : Out SecErr Nat) with start | e | _
  rotate_left
  · exfalso
    unfold usub at hu
    split at hu
    · cases hu
    · split at hu <;> cases hu
  · exact .done _ (hp _)
  dsimp only
  split
  · exact .done _ (hp _)
  split
  · exact .done _ (hp _)
  split
  · exact .decrypt _ fresh hd _ _ _ _ _ _ _ fun r => hf _ _ _ _ rfl
  split
  · exact .decrypt _ fresh hd _ _ _ _ _ _ _ fun r => hf _ _ _ _ rfl
  · exact .done _ (hp _)

theorem unsecureFrameP_shape (cfg : Cfg) (h : Header) (hs : h.hasSecurity = true) (buffer : List UInt8)
    (mode : FooterMode) :
    ReadShape cfg h Refusal (fun _ => True) (unsecureFrameP (κ := κ) cfg h buffer mode) := by
  have hp : ∀ b, Refusal (.panic, b) := fun b => ⟨fun _ h => (by cases h), fun h => (by cases h)⟩
  have he : ∀ e b, e ≠ SecErr.securityNotEnabled → Refusal (.err e, b) :=
    fun e b he => ⟨fun _ h => (by cases h), fun h => he (by cases h; rfl)⟩
  unfold unsecureFrameP
  cases mode with
  | explicit => exact .done _ (hp _)
  | none =>
    dsimp only
    rw [if_pos hs]
    split
    · exact .done _ (he _ _ (by decide))
    split
    · exact .done _ (he _ _ (by decide))
    split
    · exact .done _ (he _ _ (by decide))
    rename_i aux ha
    split
    · exact .done _ (he _ _ (by decide))
    rename_i hl
    refine .secured _ aux ha _ _ _ fun r => ?_
    rcases r with _ | ⟨eui, key⟩
    · exact .done _ (he _ _ (by decide))
    dsimp only
    split
    · exact .done _ (he _ _ (by decide))
    rename_i src hsrc
    refine .lookup _ src _ hsrc ⟨_, rfl, he _ _ (by decide)⟩ fun d => ?_
    dsimp only
    split
    · exact .done _ (he _ _ (by decide))
    rename_i hc
    have hd : d.frameCounter ≠ maxCounter := fun h => hc (.inl h)
    have hf : d.frameCounter ≤ aux.frameCounter := UInt32.not_lt.1 fun h => hc (.inr h)
    split
    · rename_i h; exact absurd h hl
    · exact .done _ (he _ _ (by decide))
    all_goals exact doUnsecureP_shape cfg aux key _ _ _ _ _ d buffer hf hd

/-- The frame read has the header read. -/
theorem readPayload_header (cfg : Cfg) (header : Header) (content : FrameContent) (t : Nat) (buf : List UInt8)
    (off : Nat) (f : Frame) (k : Nat) (h : Frame.readPayload cfg header content t buf off = .ok (f, k)) :
    f.header = header := by
  unfold Frame.readPayload at h
  simp only [R.bind_apply, R.len, R.offset, R.pure_eq] at h
  repeat' split at h
  all_goals first | cases h; rfl | cases h

theorem tryReadP_shape (cfg : Cfg) (buf : List UInt8) (mode : FooterMode) :
    ∃ header : Header, ReadShape cfg header
      (fun r : Out SecErr (Frame × Nat) × List UInt8 => ∀ f k, r.1 = .ok (f, k) → ¬ Secured f.header)
      (fun r => ∀ f k, r.1 = .ok (f, k) → f.header = header)
      (Frame.tryReadAndUnsecureP (κ := κ) cfg buf mode true) := by
  unfold Frame.tryReadAndUnsecureP
  rcases Frame.readHead cfg buf 0 with ⟨⟨header, content⟩, offset⟩ | e | _
  rotate_left
  · exact ⟨⟨.data, false, false, false, false, false, .ieee802154, 0, none, none, none⟩,
      .done _ fun _ _ h => by cases h⟩
  · exact ⟨⟨.data, false, false, false, false, false, .ieee802154, 0, none, none, none⟩,
      .done _ fun _ _ h => by cases h⟩
  have hfin : ∀ (t : Nat) (b : List UInt8) (f : Frame) (k : Nat),
      (Frame.readPayload cfg header content t b offset).mapErr SecErr.ofByteErr = .ok (f, k) → f.header = header := by
    intro t b f k h
    apply readPayload_header cfg header content t b offset f k
    rcases hr : Frame.readPayload cfg header content t b offset with x | e | _
    · rw [hr] at h; cases h; rfl
    · rw [hr] at h; cases h
    · rw [hr] at h; cases h
  refine ⟨header, ?_⟩
  dsimp only
  split
  rotate_left
  · rename_i hs
    refine .done _ fun f k h => ?_
    rw [hfin _ _ _ _ h]
    exact hs
  rename_i hs
  rw [if_pos rfl]
  refine (unsecureFrameP_shape cfg header hs _ mode).bind _ _ ?_ ?_
  · rintro ⟨n | e | _, sub⟩ ⟨h1, h2⟩
    · exact absurd rfl (h1 n)
    · cases e <;> first
        | exact absurd rfl h2
        | exact ⟨_, rfl, fun _ _ h => by cases h⟩
    · exact ⟨_, rfl, fun _ _ h => by cases h⟩
  · rintro ⟨n | e | _, sub⟩ _
    · exact ⟨_, rfl, hfin _ _⟩
    · cases e <;> first
        | exact ⟨_, rfl, fun _ _ h => by cases h⟩
        | exact ⟨_, rfl, hfin _ _⟩
    · exact ⟨_, rfl, fun _ _ h => by cases h⟩

end ReadShape

/-! ## What steps of these shapes do -/

section Do

variable {κ σ α : Type} {lookup : DevLookup σ}

theorem AfterKey.steps {euid : UInt64} {c : UInt32} {p q : Prog κ α} {m m' : Memory σ} {es}
    (hp : AfterKey euid c p) (h : Steps lookup p m es q m') :
    m' = m ∧ (noncesOf es = [] ∨ ∃ l, noncesOf es = [nonceOctets euid c l]) ∧
    ∀ w t k n a b next, q = .encrypt w t k n a b next → ∃ l, n = nonceOctets euid c l := by
  cases hp with
  | done a =>
    obtain ⟨rfl, rfl, rfl⟩ := Steps.of_done h
    exact ⟨rfl, .inl rfl, fun _ _ _ _ _ _ _ h => by cases h⟩
  | encrypt w t key l aad buf next hn =>
    rcases Steps.of_encrypt h with ⟨rfl, rfl, rfl⟩ | ⟨es', r, rfl, k1⟩
    · exact ⟨rfl, .inl rfl, fun _ _ _ _ _ _ _ h => by cases h; exact ⟨l, rfl⟩⟩
    · obtain ⟨a, ha⟩ := hn r
      rw [ha] at k1
      obtain ⟨rfl, rfl, rfl⟩ := Steps.of_done k1
      exact ⟨rfl, .inr ⟨l, rfl⟩, fun _ _ _ _ _ _ _ h => by cases h⟩

theorem WriteShape.steps {euid : UInt64} {p q : Prog κ α} {m m' : Memory σ} {es}
    (hp : WriteShape euid m.counter p) (h : Steps lookup p m es q m') :
    m'.dev = m.dev ∧ (∀ d, .stored d ∉ es) ∧
    ((m'.counter = m.counter ∧ noncesOf es = [] ∧ ∀ w t k n a b next, q ≠ .encrypt w t k n a b next) ∨
     (m.counter ≠ maxCounter ∧ m'.counter = m.counter + 1 ∧
      (noncesOf es = [] ∨ ∃ l, noncesOf es = [nonceOctets euid m.counter l]) ∧
      ∀ w t k n a b next, q = .encrypt w t k n a b next → ∃ l, n = nonceOctets euid m.counter l)) := by
  cases hp with
  | done a =>
    obtain ⟨rfl, rfl, rfl⟩ := Steps.of_done h
    exact ⟨rfl, fun _ h => (by cases h), .inl ⟨rfl, rfl, fun _ _ _ _ _ _ _ h => by cases h⟩⟩
  | secured hc w w' kid addr next hn =>
    rcases Steps.of_setCounter h with ⟨rfl, rfl, rfl⟩ | ⟨es', rfl, k2⟩
    · exact ⟨rfl, fun _ h => (by cases h), .inl ⟨rfl, rfl, fun _ _ _ _ _ _ _ h => by cases h⟩⟩
    rcases Steps.of_askKey k2 with ⟨rfl, rfl, rfl⟩ | ⟨es'', r, rfl, k3⟩
    · exact ⟨rfl, by simp, .inr ⟨hc, rfl, .inl rfl, fun _ _ _ _ _ _ _ h => by cases h⟩⟩
    have hs : ∀ d, Effect.stored d ∉ es'' := by
      intro d hd
      have hn' := hn r
      generalize next r = q' at k3 hn'
      cases hn' with
      | done a => obtain ⟨rfl, -, -⟩ := Steps.of_done k3; cases hd
      | encrypt w t key l aad buf next hnn =>
        rcases Steps.of_encrypt k3 with ⟨rfl, -, -⟩ | ⟨es', r, rfl, k4⟩
        · cases hd
        · obtain ⟨a, ha⟩ := hnn r
          rw [ha] at k4
          obtain ⟨rfl, -, -⟩ := Steps.of_done k4
          simp at hd
    obtain ⟨rfl, h1, h2⟩ := (hn r).steps k3
    refine ⟨rfl, fun d hd => ?_, .inr ⟨hc, rfl, h1, h2⟩⟩
    simp only [List.mem_cons, reduceCtorEq, false_or] at hd
    exact hs d hd

/-- What a reception has done up to some point. -/
inductive ReadUpTo (cfg : Cfg) (lookup : DevLookup σ) (header : Header) (B G : α → Prop) (m : Memory σ)
    (es : List Effect) (q : Prog κ α) (m' : Memory σ) : Prop
  | before (h : m'.dev = m.dev) (hs : ∀ d, .stored d ∉ es) (hq : ∀ a, q = .done a → B a)
  | looked (src) (hsrc : header.source = some src) (h : m'.dev = (lookup m.dev .src src).1)
      (hs : ∀ d, .stored d ∉ es) (hq : ∀ a, q = .done a → B a)
  | stored (src aux d store c n) (hsrc : header.source = some src) (ha : header.auxSec = some aux)
      (hl : (lookup m.dev .src src).2 = some (d, store)) (fresh : d.frameCounter ≤ aux.frameCounter)
      (hd : d.frameCounter ≠ maxCounter) (hc : Stores cfg aux.frameCounter c)
      (he : es = [.key, .device, .decrypted n true, .stored { d with frameCounter := c }])
      (h : m'.dev = store { d with frameCounter := c }) (hq : ∀ a, q = .done a → G a)

theorem ReadShape.steps {cfg : Cfg} {header : Header} {B G : α → Prop} {p q : Prog κ α} {m m' : Memory σ} {es}
    (hp : ReadShape cfg header B G p) (h : Steps lookup p m es q m') :
    m'.counter = m.counter ∧ noncesOf es = [] ∧ (∀ w t k n a b next, q ≠ .encrypt w t k n a b next) ∧
    ReadUpTo cfg lookup header B G m es q m' := by
  cases hp with
  | done a hB =>
    obtain ⟨rfl, rfl, rfl⟩ := Steps.of_done h
    exact ⟨rfl, rfl, fun _ _ _ _ _ _ _ h => (by cases h),
      .before rfl (fun _ h => by cases h) fun _ h => by cases h; exact hB⟩
  | secured w aux ha kid addr next hn =>
    rcases Steps.of_askKey h with ⟨rfl, rfl, rfl⟩ | ⟨es, r, rfl, k5⟩
    · exact ⟨rfl, rfl, fun _ _ _ _ _ _ _ h => (by cases h),
        .before rfl (fun _ h => by cases h) fun _ h => by cases h⟩
    have hn' := hn r
    generalize next r = q' at k5 hn'
    cases hn' with
    | done a hB =>
      obtain ⟨rfl, rfl, rfl⟩ := Steps.of_done k5
      exact ⟨rfl, rfl, fun _ _ _ _ _ _ _ h => (by cases h),
        .before rfl (by simp) fun _ h => by cases h; exact hB⟩
    | lookup w src next hsrc h0 hd =>
      rcases Steps.of_lookupDevice k5 with ⟨rfl, rfl, rfl⟩ | ⟨es, rfl, k6⟩
      · exact ⟨rfl, rfl, fun _ _ _ _ _ _ _ h => (by cases h), .before rfl (by simp) fun _ h => by cases h⟩
      rcases hl : (lookup m.dev .src src).2 with _ | ⟨d, store⟩
      · rw [hl] at k6
        obtain ⟨a, ha, hB⟩ := h0
        rw [Option.map_none, ha] at k6
        obtain ⟨rfl, rfl, rfl⟩ := Steps.of_done k6
        exact ⟨rfl, rfl, fun _ _ _ _ _ _ _ h => (by cases h),
          .looked src hsrc rfl (by simp) fun _ h => by cases h; exact hB⟩
      rw [hl] at k6
      simp only [Option.map_some] at k6
      have hd' := hd d
      generalize next (some d) = q' at k6 hd'
      cases hd' with
      | done a hB =>
        obtain ⟨rfl, rfl, rfl⟩ := Steps.of_done k6
        exact ⟨rfl, rfl, fun _ _ _ _ _ _ _ h => (by cases h),
          .looked src hsrc rfl (by simp) fun _ h => by cases h; exact hB⟩
      | decrypt w fresh hmax t key n a b g next hx =>
        rcases Steps.of_decrypt k6 with ⟨rfl, rfl, rfl⟩ | ⟨es, r', rfl, k7⟩
        · exact ⟨rfl, rfl, fun _ _ _ _ _ _ _ h => (by cases h),
            .looked src hsrc rfl (by simp) fun _ h => by cases h⟩
        rcases hx r' with ⟨a, hdone, hB⟩ | ⟨a, c, w', hv, hc, hst, hG⟩
        · rw [hdone] at k7
          obtain ⟨rfl, rfl, rfl⟩ := Steps.of_done k7
          exact ⟨rfl, rfl, fun _ _ _ _ _ _ _ h => (by cases h),
            .looked src hsrc rfl (by simp) fun _ h => by cases h; exact hB⟩
        · rw [hst] at k7
          rcases Steps.of_storeDevice k7 with ⟨rfl, rfl, rfl⟩ | ⟨es, rfl, k8⟩
          · exact ⟨rfl, rfl, fun _ _ _ _ _ _ _ h => (by cases h),
              .looked src hsrc rfl (by simp) fun _ h => by cases h⟩
          obtain ⟨rfl, rfl, rfl⟩ := Steps.of_done k8
          exact ⟨rfl, rfl, fun _ _ _ _ _ _ _ h => (by cases h),
            .stored src aux d store c n hsrc ha hl fresh hmax hc (by rw [hv]) rfl fun _ h => by cases h; exact hG⟩

end Do

end Verif
