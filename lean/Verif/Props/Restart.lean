import Verif.Props.History
import Verif.Props.Cipher
import Verif.Spec.RestartSpec

/-!
# C65: restarts of the sender; C66: what a receiver must keep
-/

namespace Verif
open Spec

theorem Spec.Session.uses_counter {κ : Type} (s : Session κ) (ht : AeadTyped s.aead) (nonce : List UInt8)
    (h : s.Uses nonce) : ∃ c l, nonce = nonceOctets s.start.euid c l ∧
      s.start.frameCounter.toNat ≤ c.toNat ∧ c.toNat < s.stop.frameCounter.toNat := by
  obtain ⟨before, call, after, hc, hu⟩ := h
  obtain ⟨⟨l, -, -, hn⟩, hstep⟩ := C31_nonce_of_call s.cfg _ call nonce hu
  have h1 := C31_counter_monotone s.cfg s.aead ht before s.start
  refine ⟨_, l.control.securityLevel, ?_, h1.1, ?_⟩
  · rw [hn, h1.2.2.1]
  · have h2 := hstep s.aead ht
    have h3 := (C31_counter_monotone s.cfg s.aead ht after
      (contextAfterCall s.cfg s.aead (contextAfter s.cfg s.aead s.start before) call)).1
    have h4 : s.stop = contextAfter s.cfg s.aead
        (contextAfterCall s.cfg s.aead (contextAfter s.cfg s.aead s.start before) call) after := by
      simp [Session.stop, contextAfter, hc, List.foldl_append]
    rw [h4]; omega

/-- **C65** If every session starts with a counter not below the ones at which the earlier sessions
stopped, no nonce is used in two sessions, whatever the sessions do and wherever they stop — also
if the program was replaced by another build in between. -/
theorem C65_restart_safe {κ : Type} (sessions : List (Session κ))
    (ht : ∀ s ∈ sessions, AeadTyped s.aead)
    (hresume : sessions.Pairwise fun s t => s.stop.frameCounter ≤ t.start.frameCounter) :
    sessions.Pairwise fun s t => ∀ nonce, s.Uses nonce → ¬ t.Uses nonce := by
  refine List.Pairwise.imp_of_mem ?_ hresume
  intro s t hs ht' hle nonce h1 h2
  obtain ⟨c, l, e, _, hc⟩ := s.uses_counter (ht s hs) nonce h1
  obtain ⟨c', l', e', hc', _⟩ := t.uses_counter (ht t ht') nonce h2
  rw [e] at e'
  have := (nonceOctets_inj e').2.1
  subst this
  have := UInt32.le_iff_toNat_le.1 hle
  omega

/-- **C65** It suffices to reserve counters ahead: a session that makes at most `k` calls stops at most
`k` above its start, so a stored counter `k` above the start may be used for the next start, wherever
the session stopped. -/
theorem C65_reserve_ahead {κ : Type} (s : Session κ) (ht : AeadTyped s.aead) (stored : UInt32)
    (h : s.start.frameCounter.toNat + s.calls.length ≤ stored.toNat) :
    s.stop.frameCounter ≤ stored := by
  have := (C31_counter_monotone s.cfg s.aead ht s.calls s.start).2.1
  apply UInt32.le_iff_toNat_le.2
  have h2 : s.stop = contextAfter s.cfg s.aead s.start s.calls := rfl
  rw [h2]; omega

theorem xorBytes_xorBytes (a b k : List UInt8) (h : min a.length b.length ≤ k.length) :
    xorOctets (Ccm.xorBytes a k) (Ccm.xorBytes b k) = xorOctets a b := by
  induction k generalizing a b with
  | nil =>
    cases a with
    | nil => simp [Ccm.xorBytes, xorOctets]
    | cons x a =>
      cases b with
      | nil => simp [Ccm.xorBytes, xorOctets]
      | cons y b => simp at h
  | cons z k ih =>
    cases a with
    | nil => simp [Ccm.xorBytes, xorOctets]
    | cons x a =>
      cases b with
      | nil => simp [Ccm.xorBytes, xorOctets]
      | cons y b =>
        have := ih a b (by simp at h ⊢; omega)
        simp only [Ccm.xorBytes, xorOctets, List.zipWith_cons_cons] at this ⊢
        rw [this]
        congr 1
        have : ∀ x y z : UInt8, (x ^^^ z) ^^^ (y ^^^ z) = x ^^^ y := by
          intro x y z
          rw [UInt8.xor_comm y z, UInt8.xor_assoc, ← UInt8.xor_assoc z z y, UInt8.xor_self, UInt8.zero_xor]
        exact this x y z

theorem zipWith_prefix {a k r : List UInt8} (h : a.length ≤ k.length) :
    Ccm.xorBytes a (k ++ r) = Ccm.xorBytes a k := by
  induction k generalizing a with
  | nil => cases a with
    | nil => simp [Ccm.xorBytes]
    | cons x a => simp at h
  | cons z k ih => cases a with
    | nil => simp [Ccm.xorBytes]
    | cons x a =>
      have := ih (a := a) (by simpa using h)
      simp only [Ccm.xorBytes, List.cons_append, List.zipWith_cons_cons] at this ⊢
      rw [this]

theorem keystream_add (e : Vector UInt8 16 → Vector UInt8 16) (nonce : List UInt8) (i m k : Nat) :
    Ccm.keystream e nonce i (m + k) =
      Ccm.keystream e nonce i m ++ Ccm.keystream e nonce (i + m) k := by
  simp only [Ccm.keystream, List.range_add, List.flatMap_append, List.flatMap_map, Nat.add_assoc]

/-- Encrypting with more keystream than needed is the same. -/
theorem ctr_more (e : Vector UInt8 16 → Vector UInt8 16) (nonce buf : List UInt8) (m : Nat)
    (h : (buf.length + 15) / 16 ≤ m) :
    Ccm.ctr e nonce buf = Ccm.xorBytes buf (Ccm.keystream e nonce 1 m) := by
  obtain ⟨k, rfl⟩ := Nat.le.dest h
  rw [keystream_add, zipWith_prefix (by rw [Ccm.keystream_length]; omega)]
  rfl

theorem ctr_xor (e : Vector UInt8 16 → Vector UInt8 16) (nonce a b : List UInt8) :
    xorOctets (Ccm.ctr e nonce a) (Ccm.ctr e nonce b) = xorOctets a b := by
  have ha : (a.length + 15) / 16 ≤ max ((a.length + 15) / 16) ((b.length + 15) / 16) := by omega
  have hb : (b.length + 15) / 16 ≤ max ((a.length + 15) / 16) ((b.length + 15) / 16) := by omega
  rw [ctr_more e nonce a _ ha, ctr_more e nonce b _ hb]
  apply xorBytes_xorBytes
  rw [Ccm.keystream_length]; omega

theorem protect_ccm_body {κ : Type} (cipher : BlockCipher κ) (l : SecurityLevel) (hl : EncMic l) (key : κ)
    (nonce payload body tag : List UInt8)
    (h : protect (Ccm.aead cipher) l key nonce payload = some (body, tag)) :
    body = Ccm.ctr (cipher key) nonce payload := by
  have hm : ¬ MicOnly l := by cases l <;> simp_all [MicOnly, EncMic]
  simp only [protect, if_neg hm, if_pos hl] at h
  split at h
  · rename_i t b he
    simp only [Option.some.injEq, Prod.mk.injEq] at h
    simp only [Ccm.aead, Ccm.encrypt] at he
    split at he
    · cases he
    · cases he; exact h.1.symm
  · cases h

/-- **C65** Otherwise confidentiality is lost: two successful writes at the same ENC-MIC level with
contexts of the same address, the same counter and the same key, under CCM with any block cipher,
reveal the exclusive or of the two payloads. -/
theorem C65_reuse_leaks {κ : Type} (cfg cfg' : Cfg) (cipher : BlockCipher κ) (f f' : Frame) (aux aux' : AuxHeader)
    (hf : SecuredData f aux) (hf' : SecuredData f' aux') (hl : EncMic aux.control.securityLevel)
    (hsame : aux'.control.securityLevel = aux.control.securityLevel) (sc sc' : SecCtx κ)
    (heui : sc'.euid = sc.euid) (hctr : sc'.frameCounter = sc.frameCounter) (eui eui' : UInt64) (key : κ)
    (hkey : sc.keyProvider .dst aux.keyIdentifier f.header.destination = some (eui, key))
    (hkey' : sc'.keyProvider .dst aux'.keyIdentifier f'.header.destination = some (eui', key))
    (buf buf' out out' : List UInt8) (n n' : Nat) (ctx ctx' : SerDesCtx κ)
    (hw : f.tryWrite cfg (Ccm.aead cipher) ⟨.none, some sc⟩ buf = (.ok n, out, ctx))
    (hw' : f'.tryWrite cfg' (Ccm.aead cipher) ⟨.none, some sc'⟩ buf' = (.ok n', out', ctx')) :
    ∃ body tag body' tag',
      out.take n = securedHead cfg sc.frameCounter f ++ body ++ tag ∧ body.length = f.payload.length ∧
      out'.take n' = securedHead cfg' sc'.frameCounter f' ++ body' ++ tag' ∧ body'.length = f'.payload.length ∧
      xorOctets body body' = xorOctets f.payload f'.payload := by
  have ht : AeadTyped (Ccm.aead cipher) := (C50_ccm_laws cipher).toAeadTyped
  obtain ⟨_, _, e1, k1, body, tag, hk1, hp, hn, _, hout, _⟩ :=
    (C40_secured_write_iff cfg _ ht f aux hf (.inr hl) sc buf out n ctx).1 hw
  obtain ⟨_, _, e2, k2, body', tag', hk2, hp', hn', _, hout', _⟩ :=
    (C40_secured_write_iff cfg' _ ht f' aux' hf' (.inr (hsame ▸ hl)) sc' buf' out' n' ctx').1 hw'
  rw [hkey] at hk1
  rw [hkey'] at hk2
  simp only [Option.some.injEq, Prod.mk.injEq] at hk1 hk2
  obtain ⟨_, rfl⟩ := hk1
  obtain ⟨_, rfl⟩ := hk2
  have hb := protect_ccm_body cipher _ hl _ _ _ _ _ hp
  have hb' := protect_ccm_body cipher _ (hsame ▸ hl) _ _ _ _ _ hp'
  rw [hsame, heui, hctr] at hb'
  refine ⟨body, tag, body', tag', ?_, by rw [hb, Ccm.ctr_length], ?_, by rw [hb', Ccm.ctr_length], ?_⟩
  · rw [hout, hn]; rw [List.take_left' (by simp; omega)]
  · rw [hout', hn']; rw [List.take_left' (by simp; omega)]
  · rw [hb, hb', ctr_xor]

end Verif
