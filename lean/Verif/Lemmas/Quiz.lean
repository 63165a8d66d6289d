import Verif.Spec.QuizSpec
import Verif.Spec.StepSpec
import Verif.Lemmas.Steps

/-!
# CCM and the calls as computations that ask for block encryptions
-/

namespace Verif

open Spec

variable {κ σ α β : Type}

def Spec.Quiz.bind (f : α → Quiz κ β) : Quiz κ α → Quiz κ β
  | .done a => f a
  | .ask k b next => .ask k b fun x => (next x).bind f

theorem Quiz.result_bind (e : BlockCipher κ) (f : α → Quiz κ β) (q : Quiz κ α) :
    (q.bind f).result e = (f (q.result e)).result e := by
  induction q with
  | done a => rfl
  | ask k b next ih => exact ih _

theorem Spec.Quiz.AtMost.mono {q : Quiz κ α} {n m : Nat} (h : Quiz.AtMost n q) (hm : n ≤ m) : Quiz.AtMost m q := by
  induction h generalizing m with
  | done n a => exact .done _ _
  | ask h ih =>
    obtain ⟨m, rfl⟩ : ∃ m', m = m' + 1 := ⟨m - 1, by omega⟩
    exact .ask fun x => ih x (by omega)

theorem Spec.Quiz.AtMost.bind {q : Quiz κ α} {f : α → Quiz κ β} {n m : Nat} (h : Quiz.AtMost n q)
    (hf : ∀ a, Quiz.AtMost m (f a)) : Quiz.AtMost (n + m) (q.bind f) := by
  induction h with
  | done n a => exact (hf a).mono (by omega)
  | @ask n k b next h ih =>
    rw [show n + 1 + m = (n + m) + 1 by omega]
    exact .ask ih

/-- Whatever the answers are, the result has the property. -/
inductive QuizAll (P : α → Prop) : Quiz κ α → Prop
  | done {a} (h : P a) : QuizAll P (.done a)
  | ask {k b next} (h : ∀ x, QuizAll P (next x)) : QuizAll P (.ask k b next)

theorem QuizAll.bind {P : α → Prop} {P' : β → Prop} {q : Quiz κ α} {f : α → Quiz κ β} (h : QuizAll P q)
    (hf : ∀ a, P a → QuizAll P' (f a)) : QuizAll P' (q.bind f) := by
  induction h with
  | done h => exact hf _ h
  | ask h ih => exact .ask ih

theorem Spec.Quiz.AtMost.bindAll {P : α → Prop} {q : Quiz κ α} {f : α → Quiz κ β} {n m : Nat} (h : Quiz.AtMost n q)
    (ha : QuizAll P q) (hf : ∀ a, P a → Quiz.AtMost m (f a)) : Quiz.AtMost (n + m) (q.bind f) := by
  induction h with
  | done n a => cases ha with | done ha => exact (hf a ha).mono (by omega)
  | @ask n k b next h ih =>
    cases ha with
    | ask ha =>
      rw [show n + 1 + m = (n + m) + 1 by omega]
      exact .ask fun x => ih x (ha x)

def Spec.Quiz.map (f : α → β) (q : Quiz κ α) : Quiz κ β := q.bind fun a => .done (f a)

theorem Quiz.result_map (e : BlockCipher κ) (f : α → β) (q : Quiz κ α) : (q.map f).result e = f (q.result e) :=
  Quiz.result_bind e _ q

theorem Spec.Quiz.AtMost.map {q : Quiz κ α} {n : Nat} (h : Quiz.AtMost n q) (f : α → β) : Quiz.AtMost n (q.map f) :=
  h.bind (m := 0) fun _ => .done _ _

/-! ## CCM -/

namespace QCcm

def step (k : κ) (x b : Vector UInt8 16) : Quiz κ (Vector UInt8 16) := .ask k (Ccm.xorBlock x b) .done

def update (k : κ) : Nat → Vector UInt8 16 → List UInt8 → Quiz κ (Vector UInt8 16)
  | 0, x, _ => .done x
  | _ + 1, x, [] => .done x
  | fuel + 1, x, a :: l => (step k x (Ccm.block ((a :: l).take 16))).bind fun y => update k fuel y ((a :: l).drop 16)

def mac (k : κ) (t : Nat) (nonce aad msg : List UInt8) : Quiz κ (Vector UInt8 16) :=
  (step k (Vector.replicate 16 0) (Ccm.b0 t nonce aad msg)).bind fun x =>
  (if aad.isEmpty then .done x
    else update k ((Ccm.aadHeader aad.length ++ aad).length + 1) x (Ccm.aadHeader aad.length ++ aad)).bind fun x =>
  update k (msg.length + 1) x msg

def stream (k : κ) (nonce : List UInt8) (i : Nat) : Nat → Quiz κ (List UInt8)
  | 0 => .done []
  | n + 1 => (stream k nonce i n).bind fun s => .ask k (Ccm.ctrBlock nonce (i + n)) fun b => .done (s ++ b.toList)

def ctr (k : κ) (nonce buf : List UInt8) : Quiz κ (List UInt8) :=
  (stream k nonce 1 ((buf.length + 15) / 16)).map (Ccm.xorBytes buf)

def tag (k : κ) (t : Nat) (nonce aad msg : List UInt8) : Quiz κ (List UInt8) :=
  (mac k t nonce aad msg).bind fun m => .ask k (Ccm.ctrBlock nonce 0) fun b =>
    .done ((Ccm.xorBytes m.toList b.toList).take t)

def encrypt (t : Nat) (k : κ) (nonce aad buf : List UInt8) : Quiz κ (Option (List UInt8) × List UInt8) :=
  if Ccm.maxLen < buf.length then .done (none, buf)
  else (tag k t nonce aad buf).bind fun g => (ctr k nonce buf).map fun c => (some g, c)

def decrypt (t : Nat) (k : κ) (nonce aad buf tag' : List UInt8) : Quiz κ (Bool × List UInt8) :=
  (ctr k nonce buf).bind fun msg =>
    if Ccm.maxLen < buf.length then .done (false, msg)
    else (tag k t nonce aad msg).map fun g =>
      if g = tag' then (true, msg) else (false, List.replicate buf.length 0)

theorem update_result (e : BlockCipher κ) (k : κ) (fuel : Nat) : ∀ x l,
    (update k fuel x l).result e = Ccm.macUpdate (e k) fuel x l := by
  induction fuel with
  | zero => intro x l; rfl
  | succ fuel ih =>
    intro x l
    cases l with
    | nil => rfl
    | cons a l =>
      unfold update Ccm.macUpdate
      rw [Quiz.result_bind, ih]
      rfl

theorem mac_result (e : BlockCipher κ) (k : κ) (t : Nat) (nonce aad msg : List UInt8) :
    (mac k t nonce aad msg).result e = Ccm.mac (e k) t nonce aad msg := by
  unfold mac Ccm.mac
  rw [Quiz.result_bind, Quiz.result_bind, update_result]
  cases h : aad.isEmpty
  · simp only [Bool.false_eq_true, if_false]
    rw [update_result]
    rfl
  · rfl

theorem stream_result (e : BlockCipher κ) (k : κ) (nonce : List UInt8) (i n : Nat) :
    (stream k nonce i n).result e = Ccm.keystream (e k) nonce i n := by
  induction n with
  | zero => rfl
  | succ n ih =>
    unfold stream
    rw [Quiz.result_bind, ih]
    unfold Ccm.keystream
    rw [List.range_succ, List.flatMap_append]
    simp [Quiz.result]

theorem ctr_result (e : BlockCipher κ) (k : κ) (nonce buf : List UInt8) :
    (ctr k nonce buf).result e = Ccm.ctr (e k) nonce buf := by
  unfold ctr Ccm.ctr
  rw [Quiz.result_map, stream_result]

theorem tag_result (e : BlockCipher κ) (k : κ) (t : Nat) (nonce aad msg : List UInt8) :
    (tag k t nonce aad msg).result e = Ccm.tag (e k) t nonce aad msg := by
  unfold tag Ccm.tag
  rw [Quiz.result_bind, mac_result]
  rfl

theorem encrypt_result (e : BlockCipher κ) (t : Nat) (k : κ) (nonce aad buf : List UInt8) :
    (encrypt t k nonce aad buf).result e = (Ccm.aead e).encrypt t k nonce aad buf := by
  unfold encrypt
  show _ = Ccm.encrypt (e k) t nonce aad buf
  unfold Ccm.encrypt
  split
  · rfl
  · rw [Quiz.result_bind, Quiz.result_map, tag_result, ctr_result]

theorem decrypt_result (e : BlockCipher κ) (t : Nat) (k : κ) (nonce aad buf tag' : List UInt8) :
    (decrypt t k nonce aad buf tag').result e = (Ccm.aead e).decrypt t k nonce aad buf tag' := by
  unfold decrypt
  show _ = Ccm.decrypt (e k) t nonce aad buf tag'
  unfold Ccm.decrypt
  rw [Quiz.result_bind, ctr_result]
  dsimp only
  split
  · rfl
  · rw [Quiz.result_map, tag_result]

theorem update_cost (k : κ) (fuel : Nat) : ∀ x l, Quiz.AtMost ((l.length + 15) / 16) (update (κ := κ) k fuel x l) := by
  induction fuel with
  | zero => intro x l; exact .done _ _
  | succ fuel ih =>
    intro x l
    cases l with
    | nil => exact .done _ _
    | cons a l =>
      unfold update
      have h1 : Quiz.AtMost 1 (step k x (Ccm.block ((a :: l).take 16))) := .ask fun _ => .done _ _
      refine (h1.bind (m := (((a :: l).drop 16).length + 15) / 16) fun y => ih _ _).mono ?_
      rw [List.length_drop]
      simp only [List.length_cons]
      omega

/-- The number of block encryptions for a tag. -/
def macBlocks (aad msg : Nat) : Nat :=
  1 + (if aad = 0 then 0 else (aad + 2 + 15) / 16) + (msg + 15) / 16

theorem mac_cost (k : κ) (t : Nat) (nonce aad msg : List UInt8) (h : aad.length < 0xFF00) :
    Quiz.AtMost (macBlocks aad.length msg.length) (mac (κ := κ) k t nonce aad msg) := by
  unfold mac macBlocks
  have h1 : Quiz.AtMost 1 (step k (Vector.replicate 16 0) (Ccm.b0 t nonce aad msg)) := .ask fun _ => .done _ _
  rw [Nat.add_assoc]
  refine h1.bind fun x => ?_
  refine Quiz.AtMost.bind ?_ fun x => update_cost k _ _ _
  cases aad with
  | nil => exact .done _ _
  | cons a aad =>
    simp only [List.isEmpty_cons, Bool.false_eq_true, if_false]
    refine (update_cost k _ _ _).mono ?_
    have : (Ccm.aadHeader (a :: aad).length).length = 2 := by
      unfold Ccm.aadHeader
      rw [if_pos h]
      simp [Ccm.be, natToLE]
    rw [List.length_append, this]
    simp only [List.length_cons]
    simp
    omega

theorem stream_cost (k : κ) (nonce : List UInt8) (i n : Nat) : Quiz.AtMost n (stream (κ := κ) k nonce i n) := by
  induction n with
  | zero => exact .done _ _
  | succ n ih => exact ih.bind fun s => .ask fun _ => .done _ _

theorem ctr_cost (k : κ) (nonce buf : List UInt8) : Quiz.AtMost ((buf.length + 15) / 16) (ctr (κ := κ) k nonce buf) :=
  (stream_cost k nonce _ _).map _

theorem tag_cost (k : κ) (t : Nat) (nonce aad msg : List UInt8) (h : aad.length < 0xFF00) :
    Quiz.AtMost (macBlocks aad.length msg.length + 1) (tag (κ := κ) k t nonce aad msg) :=
  (mac_cost k t nonce aad msg h).bind fun _ => .ask fun _ => .done _ _

theorem stream_length (k : κ) (nonce : List UInt8) (i n : Nat) :
    QuizAll (fun s => s.length = 16 * n) (stream (κ := κ) k nonce i n) := by
  induction n with
  | zero => exact .done rfl
  | succ n ih => exact ih.bind fun s hs => .ask fun b => .done (by simp [hs]; omega)

theorem ctr_length (k : κ) (nonce buf : List UInt8) :
    QuizAll (fun c => c.length = buf.length) (ctr (κ := κ) k nonce buf) :=
  (stream_length k nonce 1 _).bind fun s hs => .done (by
    unfold Ccm.xorBytes
    rw [List.length_zipWith, hs]
    omega)

/-- The number of block encryptions for a call of the AEAD. -/
def blocks (aad msg : Nat) : Nat := macBlocks aad msg + 1 + (msg + 15) / 16

theorem encrypt_cost (t : Nat) (k : κ) (nonce aad buf : List UInt8) (h : aad.length < 0xFF00) :
    Quiz.AtMost (blocks aad.length buf.length) (encrypt (κ := κ) t k nonce aad buf) := by
  unfold encrypt
  split
  · exact .done _ _
  · exact (tag_cost k t nonce aad buf h).bind fun _ => (ctr_cost k nonce buf).map _

theorem decrypt_cost (t : Nat) (k : κ) (nonce aad buf tag' : List UInt8) (h : aad.length < 0xFF00) :
    Quiz.AtMost (blocks aad.length buf.length) (decrypt (κ := κ) t k nonce aad buf tag') := by
  unfold decrypt blocks
  rw [Nat.add_comm]
  refine (ctr_cost k nonce buf).bindAll (ctr_length k nonce buf) fun msg hm => ?_
  split
  · exact .done _ _
  · rw [← hm]
    exact (tag_cost k t nonce aad msg h).map _

end QCcm

/-! ## Calls -/

/-- A call carried out with a key lookup and a device lookup, asking for block encryptions. -/
def Prog.quiz (keys : KeyLookup κ) (lookup : DevLookup σ) : Prog κ α → Memory σ → Quiz κ (α × Memory σ)
  | .done a, m => .done (a, m)
  | .setCounter _ c next, m => next.quiz keys lookup { m with counter := c }
  | .askKey _ mode kid addr next, m => (next (keys mode kid addr)).quiz keys lookup m
  | .encrypt _ t key nonce aad buf next, m =>
      (QCcm.encrypt t key nonce aad buf).bind fun r => (next r).quiz keys lookup m
  | .lookupDevice _ mode addr next, m =>
      (next ((lookup m.dev mode addr).2.map (·.1))).quiz keys lookup
        { m with dev := (lookup m.dev mode addr).1, ref := (lookup m.dev mode addr).2.map (·.2) }
  | .decrypt _ t key nonce aad buf tag next, m =>
      (QCcm.decrypt t key nonce aad buf tag).bind fun r => (next r).quiz keys lookup m
  | .storeDevice _ d next, m => next.quiz keys lookup { m with dev := m.store d }

theorem Prog.quiz_result (e : BlockCipher κ) (keys : KeyLookup κ) (lookup : DevLookup σ) (p : Prog κ α) (m : Memory σ) :
    (p.quiz keys lookup m).result e = runToEnd (Ccm.aead e) keys lookup p m := by
  induction p generalizing m with
  | done a => rfl
  | setCounter w c next ih => exact ih _
  | askKey w mode kid addr next ih => exact ih _ _
  | encrypt w t key nonce aad buf next ih =>
    unfold Prog.quiz runToEnd
    rw [Quiz.result_bind, ih, QCcm.encrypt_result]
  | lookupDevice w mode addr next ih => exact ih _ _
  | decrypt w t key nonce aad buf tag next ih =>
    unfold Prog.quiz runToEnd
    rw [Quiz.result_bind, ih, QCcm.decrypt_result]
  | storeDevice w d next ih => exact ih _

/-- The call uses the AEAD at most once (`c = 1`) or not at all (`c = 0`), on at most `n` octets. -/
inductive Prog.Once (n : Nat) : Nat → Prog κ α → Prop
  | done (c a) : Once n c (.done a)
  | setCounter {c w x next} (h : Once n c next) : Once n c (.setCounter w x next)
  | askKey {c w mode kid addr next} (h : ∀ r, Once n c (next r)) : Once n c (.askKey w mode kid addr next)
  | encrypt {w t key nonce aad buf next} (hl : aad = [] ∧ buf.length ≤ n ∨ aad.length ≤ n ∧ buf = [])
      (h : ∀ r, Once n 0 (next r)) : Once n 1 (.encrypt w t key nonce aad buf next)
  | lookupDevice {c w mode addr next} (h : ∀ r, Once n c (next r)) : Once n c (.lookupDevice w mode addr next)
  | decrypt {w t key nonce aad buf tag next} (hl : aad = [] ∧ buf.length ≤ n ∨ aad.length ≤ n ∧ buf = [])
      (h : ∀ r, Once n 0 (next r)) : Once n 1 (.decrypt w t key nonce aad buf tag next)
  | storeDevice {c w d next} (h : Once n c next) : Once n c (.storeDevice w d next)

theorem blocks_le {n x y : Nat} (h : x = 0 ∧ y ≤ n ∨ x ≤ n ∧ y = 0) : QCcm.blocks x y ≤ 2 * ((n + 31) / 16) := by
  unfold QCcm.blocks QCcm.macBlocks
  split <;> omega

theorem Prog.Once.cost {n c : Nat} {p : Prog κ α} (h : p.Once n c) (hn : n < 0xFF00) (keys : KeyLookup κ) (lookup : DevLookup σ)
    (m : Memory σ) : Quiz.AtMost (c * (2 * ((n + 31) / 16))) (p.quiz keys lookup m) := by
  induction h generalizing m with
  | done c a => exact .done _ _
  | setCounter h ih => exact ih _
  | askKey h ih => exact ih _ _
  | @encrypt w t key nonce aad buf next hl h ih =>
    refine ((QCcm.encrypt_cost t key nonce aad buf ?_).bind fun r => ih r m).mono ?_
    · rcases hl with ⟨rfl, _⟩ | ⟨h, _⟩
      · decide
      · omega
    · have := blocks_le (n := n) (x := aad.length) (y := buf.length) (by
        rcases hl with ⟨rfl, h⟩ | ⟨h, rfl⟩
        · exact .inl ⟨rfl, h⟩
        · exact .inr ⟨h, rfl⟩)
      omega
  | lookupDevice h ih => exact ih _ _
  | @decrypt w t key nonce aad buf tag next hl h ih =>
    refine ((QCcm.decrypt_cost t key nonce aad buf tag ?_).bind fun r => ih r m).mono ?_
    · rcases hl with ⟨rfl, _⟩ | ⟨h, _⟩
      · decide
      · omega
    · have := blocks_le (n := n) (x := aad.length) (y := buf.length) (by
        rcases hl with ⟨rfl, h⟩ | ⟨h, rfl⟩
        · exact .inl ⟨rfl, h⟩
        · exact .inr ⟨h, rfl⟩)
      omega
  | storeDevice h ih => exact ih _

theorem Prog.Once.bind {n c : Nat} {p : Prog κ α} (h : p.Once n c) (front : List UInt8) (f : α → Prog κ β)
    (hf : ∀ c a, (f a).Once n c) : (p.bind front f).Once n c := by
  induction h with
  | done c a => exact hf c a
  | setCounter h ih => exact .setCounter ih
  | askKey h ih => exact .askKey ih
  | encrypt hl h ih => exact .encrypt hl ih
  | lookupDevice h ih => exact .lookupDevice ih
  | decrypt hl h ih => exact .decrypt hl ih
  | storeDevice h ih => exact .storeDevice ih

theorem doSecureP_once (key : κ) (nonce : List UInt8) (secL : SecurityLevel) (t : Nat) (mic encmic : SecurityLevel)
    (buffer : List UInt8) (offset n : Nat) (hn : offset ≤ n) :
    (doSecureP key nonce secL t mic encmic buffer offset).Once n 1 := by
  have hlen : (buffer.take offset).length ≤ n := by rw [List.length_take]; omega
  unfold doSecureP
  dsimp only
  split
  · refine .encrypt (.inr ⟨hlen, rfl⟩) fun r => ?_
    rcases r.1 with _ | tag
    · exact .done _ _
    · dsimp only; split <;> exact .done _ _
  · split
    · refine .encrypt (.inl ⟨rfl, hlen⟩) fun r => ?_
      rcases r.1 with _ | tag
      · exact .done _ _
      · dsimp only; split <;> exact .done _ _
    · exact .done _ _

theorem secureFrameP_once (f : Frame) (euid : UInt64) (c : UInt32) (mode : FooterMode) (buffer : List UInt8) :
    (secureFrameP (κ := κ) f euid c mode buffer).Once 125 1 := by
  unfold secureFrameP
  split
  · exact .done _ _
  dsimp only
  split
  rotate_left
  · exact .done _ _
  split
  · exact .done _ _
  split
  · exact .done _ _
  split
  · exact .done _ _
  rename_i hlen
  have hlen : f.payload.length ≤ 125 := by omega
  split
  · exact .done _ _
  · exact .done _ _
  rename_i b o hw
  have ho : o ≤ 125 := by
    unfold W.write tryWriteBytes at hw
    by_cases hb : (buffer.drop 0).length < f.payload.length
    · simp only [hb, if_true] at hw
      split at hw <;> simp at hw
    · simp only [hb, if_false] at hw
      split at hw
      · simp at hw
      · simp only [Prod.mk.injEq, true_and] at hw
        omega
  split
  · exact .done _ _
  split
  · exact .done _ _
  refine .setCounter (.askKey fun found => ?_)
  split
  · exact .done _ _
  split
  · exact .done _ _
  · exact .done _ _
  all_goals exact doSecureP_once _ _ _ _ _ _ _ _ _ ho

theorem tryWriteP_once (cfg : Cfg) (f : Frame) (ctx : SerDesCtx κ) (buf : List UInt8) :
    (f.tryWriteP cfg ctx buf).Once 125 1 := by
  have hf : ∀ (se : Bool) (b : List UInt8) (o c : Nat), Prog.Once 125 c
      (match f.writeTail ctx.footerMode se b o with
      | (.ok (), bytes, offset) => (.done (.ok offset, bytes) : Prog κ (Out ByteErr Nat × List UInt8))
      | (.err e, bytes, _) => .done (.err e, bytes)
      | (.panic, bytes, _) => .done (.panic, bytes)) := by
    intro se b o c
    split <;> exact .done _ _
  unfold Frame.tryWriteP
  dsimp only
  split
  · exact .done _ _
  · exact .done _ _
  split
  · exact hf _ _ _ _
  refine (secureFrameP_once f _ _ _ _).bind _ _ fun c r => ?_
  split
  · exact hf _ _ _ _
  · exact hf _ _ _ _
  · exact .done _ _
  · exact .done _ _

theorem doUnsecureP_once (cfg : Cfg) (key : κ) (nonce : List UInt8) (fc : UInt32) (secL : SecurityLevel) (t : Nat)
    (mic encmic : SecurityLevel) (d : DeviceDescriptor) (buffer : List UInt8) (n : Nat) (hn : buffer.length ≤ n) :
    (doUnsecureP cfg key nonce fc secL t mic encmic d buffer).Once n 1 := by
  have hf : ∀ (v : Bool) (b : List UInt8) (c : Nat), Prog.Once n c
      (if v = true then
          match (u32Succ cfg fc : Out SecErr UInt32) with
          | .ok fc' => (.storeDevice b { d with frameCounter := fc' } (.done (.ok secL.micOctetSize, b)) :
              Prog κ (Out SecErr Nat × List UInt8))
          | .err e => .done (.err e, b)
          | .panic => .done (.panic, b)
        else .done (.err .transformationError, b)) := by
    intro v b c
    split
    · split
      · exact .storeDevice (.done _ _)
      · exact .done _ _
      · exact .done _ _
    · exact .done _ _
  unfold doUnsecureP
  dsimp only
  split
  · exact .done _ _
  · exact .done _ _
  rename_i start hs
  have hlen : (buffer.take start).length ≤ n := by rw [List.length_take]; omega
  split
  · exact .done _ _
  split
  · exact .done _ _
  split
  · exact .decrypt (.inr ⟨hlen, rfl⟩) fun r => hf _ _ _
  split
  · exact .decrypt (.inl ⟨rfl, hlen⟩) fun r => hf _ _ _
  · exact .done _ _

theorem unsecureFrameP_once (cfg : Cfg) (h : Header) (buffer : List UInt8) (mode : FooterMode) (n : Nat)
    (hn : buffer.length ≤ n) : (unsecureFrameP (κ := κ) cfg h buffer mode).Once n 1 := by
  unfold unsecureFrameP
  split
  · exact .done _ _
  split
  rotate_left
  · exact .done _ _
  split
  · exact .done _ _
  split
  · exact .done _ _
  split
  · exact .done _ _
  split
  · exact .done _ _
  refine .askKey fun found => ?_
  split
  · exact .done _ _
  split
  · exact .done _ _
  refine .lookupDevice fun dev => ?_
  split
  · exact .done _ _
  split
  · exact .done _ _
  dsimp only
  split
  · exact .done _ _
  · exact .done _ _
  all_goals exact doUnsecureP_once _ _ _ _ _ _ _ _ _ _ _ hn

theorem tryReadP_once (cfg : Cfg) (buf : List UInt8) (mode : FooterMode) (b : Bool) (n : Nat) (hn : buf.length ≤ n) :
    (Frame.tryReadAndUnsecureP (κ := κ) cfg buf mode b).Once n 1 := by
  unfold Frame.tryReadAndUnsecureP
  split
  · exact .done _ _
  · exact .done _ _
  dsimp only
  split
  rotate_left
  · exact .done _ _
  split
  rotate_left
  · exact .done _ _
  refine (unsecureFrameP_once cfg _ _ mode n ?_).bind _ _ fun c r => ?_
  · rw [List.length_drop]; omega
  split <;> exact .done _ _

end Verif
