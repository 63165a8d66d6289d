import Verif.Props.Unforgeable
import Verif.Props.Channel

/-!
# C89, C90 Attackers who see the receiver's answers
-/

namespace Verif

open Spec Rfc3610

section
variable {κ σ : Type} {net : List (Sender κ)}

/-- A reception depends on the cipher only by whether, and as what, one guess verifies. -/
theorem receive_congr (cfg : Cfg) (aead aead' : Aead κ) (buf : List UInt8) (ctx : SerDesCtx κ) (lookup : DevLookup σ) (dev : σ)
    (h : ∀ g, headerGuess cfg ctx buf = some g → g.tag.length = tagLength g.level →
      unprotect aead g.level g.key g.nonce g.body g.tag = unprotect aead' g.level g.key g.nonce g.body g.tag ∧
      checkArea aead g.level g.key g.nonce g.body g.tag = checkArea aead' g.level g.key g.nonce g.body g.tag) :
    Frame.tryReadAndUnsecure cfg aead buf ctx lookup dev = Frame.tryReadAndUnsecure cfg aead' buf ctx lookup dev := by
  unfold Frame.tryReadAndUnsecure
  cases hr : Frame.readHead cfg buf 0 with
  | err e => rfl
  | panic => rfl
  | ok v =>
    obtain ⟨⟨hd, c⟩, offset⟩ := v
    simp only
    by_cases hs : hd.hasSecurity = true
    · simp only [hs, if_true]
      cases hc : ctx.securityCtx with
      | none => rfl
      | some sc =>
        simp only
        have hsome : hd.auxSec.isSome = true := by simpa [Header.hasSecurity] using hs
        obtain ⟨aux, ha⟩ := Option.isSome_iff_exists.1 hsome
        have key : unsecureFrame cfg aead hd (buf.drop offset) sc ctx.footerMode lookup dev =
            unsecureFrame cfg aead' hd (buf.drop offset) sc ctx.footerMode lookup dev := by
          rw [unsecureFrame_cases cfg aead hd aux ha, unsecureFrame_cases cfg aead' hd aux ha]
          cases ctx.footerMode with
          | explicit => rfl
          | none =>
            simp only
            by_cases h1 : hd.frameType ≠ .data
            · rw [if_pos h1, if_pos h1]
            rw [if_neg h1, if_neg h1]
            have h1 : hd.frameType = .data := by simpa using h1
            by_cases h2 : hd.version = .ieee802154_2003
            · rw [if_pos h2, if_pos h2]
            rw [if_neg h2, if_neg h2]
            obtain ⟨n, m, hread, hoff⟩ := Frame.readHead_ok.1 hr
            obtain ⟨rfl, rfl⟩ := data_head_unique hread h1
            rw [Nat.add_zero] at hoff
            subst hoff
            unfold unsecureData
            simp only
            by_cases h3 : aux.control.securityLevel = .none
            · rw [if_pos h3, if_pos h3]
            rw [if_neg h3, if_neg h3]
            cases hk : sc.keyProvider .src aux.keyIdentifier hd.source with
            | none => rfl
            | some ek =>
              obtain ⟨eui, k⟩ := ek
              simp only
              cases hsrc : hd.source with
              | none => rfl
              | some src =>
                simp only
                rcases lookup dev .src src with ⟨dev1, _ | ⟨device, store⟩⟩
                · rfl
                simp only
                split
                · rfl
                split
                · rfl
                split
                · rfl
                rename_i hlen
                rw [hsrc] at hk
                have hg := headerGuess_eq cfg ctx buf sc hd _ aux src eui k
                  ((buf.drop offset).take ((buf.drop offset).length - tagLength aux.control.securityLevel))
                  ((buf.drop offset).drop ((buf.drop offset).length - tagLength aux.control.securityLevel))
                  hc hread.1 ha hsrc hk (List.take_append_drop _ _).symm (by rw [List.length_drop]; omega)
                have := h _ hg (by simp only [List.length_drop] at *; omega)
                simp only [Guess.nonce, ← calculateNonce_eq] at this
                rw [this.1, this.2]
        rw [key]
    · simp [hs]

/-- What a write puts on the air, in the terms of RFC 3610. -/
theorem sends_onAir (cfg : Cfg) (e : BlockCipher κ) (sc : SecCtx κ) (calls : List WriteCall)
    (hc : ∀ c ∈ calls, ContentFromApi c.frame.content) (p : Nat) (key : κ) (level : SecurityLevel) (nonce payload : List UInt8)
    (hs : Sends cfg e sc calls p key level nonce payload) :
    ∃ call, calls[p]? = some call ∧ onAir cfg (Ccm.aead e) sc calls p =
      some (securedHead cfg (contextAfter cfg (Ccm.aead e) sc (calls.take p)).frameCounter call.frame ++
        (protected_ (e key) level nonce payload).1 ++ (protected_ (e key) level nonce payload).2) := by
  have hs0 := hs
  obtain ⟨h1, call, aux, eui, h2, h3, h4, h5, h6, h7, h8⟩ := hs
  obtain ⟨a, n, w1, w2, w3, w4⟩ := sends_write cfg e sc calls hc p key level nonce payload hs0 call h2
  obtain rfl : a = aux := by
    have := w1.aux
    rw [h3] at this
    exact (Option.some.inj this).symm
  have ht := (C50_ccm_laws e).toAeadTyped
  have hm := C31_counter_monotone cfg (Ccm.aead e) ht (calls.take p) sc
  have hw := C79_written cfg e call.frame a w1 (by rw [w2]; exact h5) (contextAfter cfg (Ccm.aead e) sc (calls.take p)) call.buf n
    eui key (by rw [hm.2.2.2]; exact h6) w4
  refine ⟨call, h2, ?_⟩
  unfold onAir
  rw [h2]
  simp only
  rw [w3]
  rcases hr : call.frame.tryWrite cfg (Ccm.aead e) ⟨.none, some (contextAfter cfg (Ccm.aead e) sc (calls.take p))⟩ call.buf
    with ⟨r, b, c⟩
  rw [hr] at w4 hw
  simp only at w4
  subst w4
  simp only at hw ⊢
  rw [hw, w2, hm.2.2.1, h7, h8]

theorem checkArea_failed (e : BlockCipher κ) (level : SecurityLevel) (key : κ) (nonce body tag : List UInt8)
    (hb : body.length < 65280) (h : unprotect (Ccm.aead e) level key nonce body tag = none) :
    checkArea (Ccm.aead e) level key nonce body tag = if EncMic level then List.replicate body.length 0 else body := by
  unfold checkArea
  split
  · rename_i he
    unfold unprotect at h
    rw [if_neg (by intro h; revert h he; cases level <;> simp [MicOnly, EncMic]), if_pos he] at h
    have hm : Ccm.maxLen = 65535 := rfl
    simp only [Ccm.aead, Ccm.decrypt] at h ⊢
    rw [if_neg (by omega)] at h ⊢
    by_cases ht : Ccm.tag (e key) (tagLength level) nonce [] (Ccm.ctr (e key) nonce body) = tag
    · rw [if_pos ht] at h; cases h
    · rw [if_neg ht]
  · rfl

/-- The payload was sent with this key and nonce, and went over the air as `body` and `tag`. -/
def WentOut (net : List (Sender κ)) (o : Nat → Nat → Option (List UInt8)) (t : Nat) (key : κ) (nonce body tag payload : List UInt8) :
    Prop :=
  ∃ i s p level octets, net[i]? = some s ∧ Sends s.cfg unimplementedCipher s.context s.calls p key level nonce payload ∧
    tagLength level = t ∧ o i p = some octets ∧ (body ++ tag) <:+ octets ∧ body.length = payload.length ∧ tag.length = t

open Classical in
/-- Lets through what went over the air, and nothing else. -/
noncomputable def tableAead (net : List (Sender κ)) (o : Nat → Nat → Option (List UInt8)) : Aead κ where
  encrypt := fun _ _ _ _ buf => (none, buf)
  decrypt := fun t key nonce aad buf tag =>
    if h : ∃ payload, WentOut net o t key nonce (aad ++ buf) tag payload then
      (true, if aad = [] then h.choose else buf)
    else (false, List.replicate buf.length 0)

theorem wentOut_unique (hn : Fleet net) {o : Nat → Nat → Option (List UInt8)} {t : Nat} {key : κ} {nonce body tag p p' : List UInt8}
    (h : WentOut net o t key nonce body tag p) (h' : WentOut net o t key nonce body tag p') : p = p' := by
  obtain ⟨i, s, c, level, _, h1, h2, _⟩ := h
  obtain ⟨i', s', c', level', _, h1', h2', _⟩ := h'
  have := sent_unique hn (e := unimplementedCipher) (m := (key, level, nonce, p)) (m' := (key, level', nonce, p'))
    ⟨s, List.mem_of_getElem? h1, c, h2⟩ ⟨s', List.mem_of_getElem? h1', c', h2'⟩ rfl
  simp only [Prod.mk.injEq] at this
  exact this.2.2.2

theorem tableAead_true (hn : Fleet net) {o : Nat → Nat → Option (List UInt8)} {t : Nat} {key : κ} {nonce aad buf body tag p : List UInt8}
    (hb : aad ++ buf = body) (h : WentOut net o t key nonce body tag p) :
    (tableAead net o).decrypt t key nonce aad buf tag = (true, if aad = [] then p else buf) := by
  subst hb
  have hp : ∃ p, WentOut net o t key nonce (aad ++ buf) tag p := ⟨p, h⟩
  unfold tableAead
  simp only
  rw [dif_pos hp, wentOut_unique hn hp.choose_spec h]

theorem tableAead_false {o : Nat → Nat → Option (List UInt8)} {t : Nat} {key : κ} {nonce aad buf body tag : List UInt8}
    (hb : aad ++ buf = body) (h : ∀ p, ¬ WentOut net o t key nonce body tag p) :
    (tableAead net o).decrypt t key nonce aad buf tag = (false, List.replicate buf.length 0) := by
  subst hb
  unfold tableAead
  simp only
  rw [dif_neg (fun ⟨p, hp⟩ => h p hp)]

/-- What went over the air is what protecting it gives. -/
theorem wentOut_iff (hn : Fleet net) (e : BlockCipher κ) (level : SecurityLevel) (key : κ) (eui : UInt64) (counter : UInt32)
    (body tag p : List UInt8) :
    WentOut net (observed e net) (tagLength level) key (nonceOctets eui counter level) body tag p ↔
      Sent e net key level (nonceOctets eui counter level) p ∧
      (body, tag) = protected_ (e key) level (nonceOctets eui counter level) p := by
  have hpl : ∀ (E : Block → Block) l N p, (protected_ E l N p).1.length = p.length := by
    intro E l N p
    unfold protected_
    split
    · rfl
    · simp [encrypted]
  have htl : ∀ (E : Block → Block) l N p, (protected_ E l N p).2.length = tagLength l := by
    intro E l N p; rw [Job.authValue_at]; simp
  constructor
  · rintro ⟨i, s, c, level', octets, h1, h2, h3, h4, h5, h6, h7⟩
    have hmem := List.mem_of_getElem? h1
    have hse := sends_indep s.cfg e unimplementedCipher s.context s.calls (hn.api s hmem) c _ _ _ _ h2
    obtain ⟨ctr, hnn⟩ := sends_nonce h2
    obtain rfl : level = level' := (nonceOctets_inj hnn).2.2
    obtain ⟨call, g1, g2⟩ := sends_onAir s.cfg e s.context s.calls (hn.api s hmem) c _ _ _ _ hse
    have h4' : onAir s.cfg (Ccm.aead e) s.context s.calls c = some octets := by
      unfold observed at h4; rw [h1] at h4; exact h4
    rw [g2] at h4'
    have h4' := Option.some.inj h4'
    refine ⟨⟨s, hmem, c, hse⟩, ?_⟩
    rw [← h4', List.append_assoc] at h5
    have hlen : (body ++ tag).length = ((protected_ (e key) level (nonceOctets eui counter level) p).1 ++
        (protected_ (e key) level (nonceOctets eui counter level) p).2).length := by
      rw [List.length_append, List.length_append, hpl, htl, h6, h7]
    have heq := (List.suffix_of_suffix_length_le h5 (List.suffix_append _ _) (Nat.le_of_eq hlen)).eq_of_length hlen
    obtain ⟨e1, e2⟩ := List.append_inj heq (by rw [hpl, h6])
    exact Prod.ext e1 e2
  · rintro ⟨⟨s, hmem, c, hse⟩, hp⟩
    obtain ⟨i, hi⟩ := List.getElem?_of_mem hmem
    obtain ⟨call, g1, g2⟩ := sends_onAir s.cfg e s.context s.calls (hn.api s hmem) c _ _ _ _ hse
    have g3 : observed e net i c = onAir s.cfg (Ccm.aead e) s.context s.calls c := by
      unfold observed; rw [hi]; rfl
    rw [g2] at g3
    refine ⟨i, s, c, level, _, hi, sends_indep s.cfg unimplementedCipher e s.context s.calls (hn.api s hmem) c _ _ _ _ hse, rfl, g3,
      ?_, ?_, ?_⟩
    · rw [← hp, List.append_assoc]; exact List.suffix_append _ _
    · rw [← hpl (e key) level (nonceOctets eui counter level) p, ← hp]
    · rw [← htl (e key) level (nonceOctets eui counter level) p, ← hp]

/-- Unless something unsent verifies, verifying is looking up what went over the air. -/
theorem table_unprotect (hn : Fleet net) (e : BlockCipher κ) (level : SecurityLevel) (key : κ) (eui : UInt64) (counter : UInt32)
    (body tag : List UInt8) (htag : tag.length = tagLength level) (hb : body.length < 65280)
    (h : ∀ p, unprotect (Ccm.aead e) level key (nonceOctets eui counter level) body tag = some p →
      Sent e net key level (nonceOctets eui counter level) p) :
    unprotect (Ccm.aead e) level key (nonceOctets eui counter level) body tag =
      unprotect (tableAead net (observed e net)) level key (nonceOctets eui counter level) body tag ∧
    checkArea (Ccm.aead e) level key (nonceOctets eui counter level) body tag =
      checkArea (tableAead net (observed e net)) level key (nonceOctets eui counter level) body tag := by
  have hN : (nonceOctets eui counter level).length = 13 := by simp [nonceOctets]
  have hio := fun p => wentOut_iff hn e level key eui counter body tag p
  generalize nonceOctets eui counter level = N at *
  have hex : ∀ p, unprotect (Ccm.aead e) level key N body tag = some p ↔ WentOut net (observed e net) (tagLength level) key N body tag p := by
    intro p
    rw [hio p]
    constructor
    · intro hp
      obtain ⟨_, _, h3, h4⟩ := unprotect_ccm e level key N body tag p hN htag hp
      exact ⟨h p hp, Prod.ext h3 h4⟩
    · rintro ⟨hs, hp⟩
      have hprops := sent_props hn hs
      apply unprotect_protect (C50_ccm_laws e)
      rw [protect_rfc e level hprops.2.2.1 key N p hN (fun _ => by omega), hp]
  by_cases ha : Authenticating level
  swap
  · have h1 : ¬ MicOnly level := fun h => ha (.inl h)
    have h2 : ¬ EncMic level := fun h => ha (.inr h)
    unfold unprotect checkArea
    rw [if_neg h1, if_neg h2, if_neg h1, if_neg h2, if_neg h2, if_neg h2]
    exact ⟨rfl, rfl⟩
  cases hu : unprotect (Ccm.aead e) level key N body tag with
  | some p =>
    have hw := (hex p).1 hu
    have hut : unprotect (tableAead net (observed e net)) level key N body tag = some p := by
      unfold unprotect
      by_cases hm : MicOnly level
      · rw [if_pos hm, tableAead_true hn (List.append_nil body) hw, if_pos rfl]
        have := (unprotect_ccm e level key N body tag p hN htag hu).2.1
        rw [this]
        unfold unmasked
        rw [if_pos hm]
      · rw [if_neg hm, if_pos (ha.resolve_left hm), tableAead_true hn (List.nil_append body) hw]
        rfl
    rw [hut]
    exact ⟨rfl, by rw [unprotect_area hu, unprotect_area hut]⟩
  | none =>
    have hno : ∀ p, ¬ WentOut net (observed e net) (tagLength level) key N body tag p := by
      intro p hp
      rw [(hex p).2 hp] at hu
      cases hu
    constructor
    · unfold unprotect
      by_cases hm : MicOnly level
      · rw [if_pos hm, tableAead_false (List.append_nil body) hno]
        rfl
      · rw [if_neg hm, if_pos (ha.resolve_left hm), tableAead_false (List.nil_append body) hno]
    · rw [checkArea_failed e _ _ _ _ _ hb hu]
      unfold checkArea
      split
      · rw [tableAead_false (List.nil_append body) hno]
      · rfl

/-- The answer to a slice that is no hit, as far as what is seen on the air tells. -/
noncomputable def idealAnswer (net : List (Sender κ)) (o : Nat → Nat → Option (List UInt8)) (a : Offer κ σ) : Answer κ σ :=
  Frame.tryReadAndUnsecure a.cfg (tableAead net o) a.slice a.ctx a.lookup a.device

theorem headerGuess_tag {M : Nat} {a : Offer κ σ} (hM : TagAtLeast M a) {g : Guess κ}
    (hg : headerGuess a.cfg a.ctx a.slice = some g) (ha : Authenticating g.level) : M ≤ tagLength g.level := by
  have hg0 := hg
  unfold headerGuess at hg0
  repeat' split at hg0
  all_goals first
    | (cases hg0; done)
    | (have := Option.some.inj hg0
       rw [← this] at ha ⊢
       exact hM _ _ _ (by assumption) (by assumption) ha)

theorem answer_ideal (hn : Fleet net) (e : BlockCipher κ) (M : Nat) (a : Offer κ σ) (hlen : a.slice.length < 65280)
    (hM : TagAtLeast M a) (h : ∀ g, headerGuess a.cfg a.ctx a.slice = some g → ¬ g.Hits e net M) :
    answer e a = idealAnswer net (observed e net) a := by
  unfold answer idealAnswer
  apply receive_congr
  intro g hg htag
  refine table_unprotect hn e g.level g.key g.eui g.counter g.body g.tag htag
    (Nat.lt_of_le_of_lt (headerGuess_short _ _ _ g hg) hlen) (fun p hp => ?_)
  apply Classical.byContradiction
  intro hs
  exact h g hg (hits_of_unprotect e M g p htag hp
    (headerGuess_tag hM hg (unprotect_ccm e _ _ _ _ _ _ g.nonce_length htag hp).1) hs)

/-- The answers to the first offers, as long as none is a hit. -/
noncomputable def idealAnswers (net : List (Sender κ)) (o : Nat → Nat → Option (List UInt8))
    (A : List (Answer κ σ) → Offer κ σ) : Nat → List (Answer κ σ)
  | 0 => []
  | n + 1 => idealAnswers net o A n ++ [idealAnswer net o (A (idealAnswers net o A n))]

theorem answers_ideal (hn : Fleet net) (M : Nat) (A : List (Answer κ σ) → Offer κ σ)
    (hlen : ∀ h, (A h).slice.length < 65280) (hM : ∀ h, TagAtLeast M (A h)) (e : BlockCipher κ) (n : Nat)
    (h : ∀ k, k < n → ∀ g, headerGuess (A (answers e A k)).cfg (A (answers e A k)).ctx (A (answers e A k)).slice = some g →
      ¬ g.Hits e net M) :
    answers e A n = idealAnswers net (observed e net) A n := by
  induction n with
  | zero => rfl
  | succ n ih =>
    have ih := ih (fun k hk => h k (by omega))
    have hh := h n (by omega)
    unfold answers idealAnswers
    rw [← ih]
    congr 2
    have hl := hlen (answers e A n)
    have hm := hM (answers e A n)
    generalize A (answers e A n) = a at hh hl hm ⊢
    exact answer_ideal hn e M a hl hm hh

/-- The chance that one of the slices of an attacker who sees the answers is a hit. -/
theorem hits_chance [Finite κ] (hn : Fleet net) (v : Nat)
    (A : (Nat → Nat → Option (List UInt8)) → List (Answer κ σ) → Offer κ σ) (limit : Nat)
    (hA : ∀ o h, (A o h).slice.length ≤ limit) (hl : limit < 65280) (M : Nat) (hM : M ≤ 16)
    (htags : ∀ o h, TagAtLeast M (A o h)) :
    ChanceAtMost (fun e => ∃ n, n < v ∧ ∃ g,
        (let a := A (observed e net) (answers e (A (observed e net)) n)
         headerGuess a.cfg a.ctx a.slice = some g) ∧ g.Hits e net M)
      (v * (2 ^ (128 - 8 * M) + 4 * (9 * writes net + (limit + 33) / 16) ^ 2)) (2 ^ 128) := by
  refine chance_mono ?_ (chance_exists (fun n e => ∃ g,
      (let a := A (observed e net) (idealAnswers net (observed e net) (A (observed e net)) n)
       headerGuess a.cfg a.ctx a.slice = some g) ∧ g.Hits e net M) _ _ v (by decide) (fun n _ => ?_))
  · intro e he
    classical
    have hwf := Nat.find_spec he
    have hmin := fun k => Nat.find_min (m := k) he
    generalize Nat.find he = n at hwf hmin
    obtain ⟨hv, g, hg, hh⟩ := hwf
    refine ⟨n, hv, g, ?_, hh⟩
    rw [← answers_ideal hn M (A (observed e net)) (fun h => Nat.lt_of_le_of_lt (hA _ h) hl) (htags _) e n
      (fun k hk g hg hh => hmin k hk ⟨by omega, g, hg, hh⟩)]
    exact hg
  · exact guess_chance (fun o => headerGuess (A o (idealAnswers net o (A o) n)).cfg (A o (idealAnswers net o (A o) n)).ctx
        (A o (idealAnswers net o (A o) n)).slice) limit hn
      (fun o g hg => Nat.le_trans (headerGuess_short _ _ _ g hg) (hA o _)) hl M hM

/-- **C89** The chance that an attacker who sees all that goes over the air, and the receiver's answers to the slices
he offered before, gets one of `v` slices accepted that nobody has sent, when all are at levels with tags of at least
`M` octets. -/
theorem C89_interactive_long_tags [Finite κ] (net : List (Sender κ)) (hn : Fleet net) (v : Nat)
    (A : (Nat → Nat → Option (List UInt8)) → List (Answer κ σ) → Offer κ σ) (limit : Nat)
    (hA : ∀ o h, (A o h).slice.length ≤ limit) (hl : limit < 65280) (M : Nat) (hM : M ≤ 16)
    (htags : ∀ o h, TagAtLeast M (A o h)) :
    ChanceAtMost (fun e => ∃ n, n < v ∧ Forged e net M (A (observed e net) (answers e (A (observed e net)) n)))
      (v * (2 ^ (128 - 8 * M) + 4 * (9 * writes net + (limit + 33) / 16) ^ 2)) (2 ^ 128) :=
  chance_mono (fun e ⟨n, hv, hf⟩ => by
    obtain ⟨g, h1, h2⟩ := forged_hits e M _ hf
    exact ⟨n, hv, g, h1, h2⟩) (hits_chance hn v A limit hA hl M hM htags)

/-- **C89** The same at any levels. -/
theorem C89_interactive_forgeries [Finite κ] (net : List (Sender κ)) (hn : Fleet net) (v : Nat)
    (A : (Nat → Nat → Option (List UInt8)) → List (Answer κ σ) → Offer κ σ) (limit : Nat)
    (hA : ∀ o h, (A o h).slice.length ≤ limit) (hl : limit < 65280) :
    ChanceAtMost (fun e => ∃ n, n < v ∧ Forged e net 0 (A (observed e net) (answers e (A (observed e net)) n)))
      (v * (2 ^ 96 + 4 * (9 * writes net + (limit + 33) / 16) ^ 2)) (2 ^ 128) := by
  refine chance_mono ?_ (C89_interactive_long_tags net hn v A limit hA hl 4 (by decide) ?_)
  · rintro e ⟨n, hv, f, k, rc, x, h1, h2, h3, h4, _, h5⟩
    refine ⟨n, hv, f, k, rc, x, h1, h2, h3, h4, ?_, h5⟩
    have := h4.level
    revert this
    cases x.level <;> simp [Authenticating, MicOnly, EncMic, tagLength]
  · intro o h hd n aux _ _ ha
    revert ha
    cases aux.control.securityLevel <;> simp [Authenticating, MicOnly, EncMic, tagLength]

/-! ## The channel -/

/-- The device lookup's state after the last answer. -/
def lastState (dev : σ) (h : List (Answer κ σ)) : σ :=
  match h.getLast? with
  | none => dev
  | some a => a.2.2.2

theorem answersTo_append (cfg : Cfg) (aead : Aead κ) (lookup : DevLookup σ) (calls : List (ReadCall κ)) (c : ReadCall κ) :
    ∀ dev, answersTo cfg aead lookup dev (calls ++ [c]) = answersTo cfg aead lookup dev calls ++
      [Frame.tryReadAndUnsecure cfg aead c.buf c.ctx lookup (lastState dev (answersTo cfg aead lookup dev calls))] := by
  induction calls with
  | nil => intro dev; rfl
  | cons a calls ih =>
    intro dev
    simp only [List.cons_append, answersTo, ih]
    congr 4
    unfold lastState
    rw [List.getLast?_cons]
    cases (answersTo cfg aead lookup (Frame.tryReadAndUnsecure cfg aead a.buf a.ctx lookup dev).2.2.2 calls).getLast? <;> rfl

/-- The offers of an attacker who makes up the calls of one receiver. -/
def offers (cfg : Cfg) (lookup : DevLookup σ) (dev : σ) (D : List (Answer κ σ) → ReadCall κ) (h : List (Answer κ σ)) : Offer κ σ :=
  ⟨cfg, (D h).ctx, lookup, lastState dev h, (D h).buf⟩

theorem answers_offers (cfg : Cfg) (e : BlockCipher κ) (lookup : DevLookup σ) (dev : σ) (D : List (Answer κ σ) → ReadCall κ) (n : Nat) :
    answers e (offers cfg lookup dev D) n = answersTo cfg (Ccm.aead e) lookup dev (handedOver cfg (Ccm.aead e) lookup dev D n) := by
  induction n with
  | zero => rfl
  | succ n ih =>
    unfold answers handedOver
    rw [answersTo_append, ih]
    rfl

theorem mem_handedOver (cfg : Cfg) (aead : Aead κ) (lookup : DevLookup σ) (dev : σ) (D : List (Answer κ σ) → ReadCall κ) (n : Nat)
    (c : ReadCall κ) (h : c ∈ handedOver cfg aead lookup dev D n) :
    ∃ k, k < n ∧ c = D (answersTo cfg aead lookup dev (handedOver cfg aead lookup dev D k)) := by
  induction n with
  | zero => cases h
  | succ n ih =>
    unfold handedOver at h
    rcases List.mem_append.1 h with h | h
    · obtain ⟨k, hk, h⟩ := ih h
      exact ⟨k, by omega, h⟩
    · exact ⟨n, by omega, List.mem_singleton.1 h⟩

theorem sentUnder_of_sends (s : Sender κ) (e : BlockCipher κ) (hc : ∀ c ∈ s.calls, ContentFromApi c.frame.content) (p : Nat) (key : κ)
    (level : SecurityLevel) (nonce payload : List UInt8) (hs : Sends s.cfg e s.context s.calls p key level nonce payload) :
    SentUnder s.cfg (Ccm.aead e) s.context s.calls level key nonce (protected_ (e key) level nonce payload).1
      (protected_ (e key) level nonce payload).2 := by
  have hs0 := hs
  obtain ⟨h1, call, aux, eui, h2, h3, h4, h5, h6, h7, h8⟩ := hs
  obtain ⟨a, n, w1, w2, w3, w4⟩ := sends_write s.cfg e s.context s.calls hc p key level nonce payload hs0 call h2
  obtain rfl : a = aux := by
    have := w1.aux
    rw [h3] at this
    exact (Option.some.inj this).symm
  have ht := (C50_ccm_laws e).toAeadTyped
  have hm := C31_counter_monotone s.cfg (Ccm.aead e) ht (s.calls.take p) s.context
  have hw := C79_written s.cfg e call.frame a w1 (by rw [w2]; exact h5)
    (contextAfter s.cfg (Ccm.aead e) s.context (s.calls.take p)) call.buf n
    eui key (by rw [hm.2.2.2]; exact h6) w4
  obtain ⟨hp, hcall⟩ := List.getElem?_eq_some_iff.1 h2
  refine ⟨s.calls.take p, call, s.calls.drop (p + 1), a, eui, n, _, _, ?_, w3, w1, w2, h6, h7, Prod.ext w4 rfl, ?_⟩
  · conv => lhs; rw [← List.take_append_drop p s.calls]
    rw [List.drop_eq_getElem_cons hp, hcall]
  · rw [hw, w2, hm.2.2.1, h7, h8]

/-- Without a hit under a key for the device there is no forgery of it. -/
theorem noForgery_of_no_hit_for {ι : Type} (hn : Fleet net) (e : BlockCipher κ) (s : Sender κ) (hs : s ∈ net) (rcfg : Cfg)
    {lookup : DevLookup σ} (table : DeviceTable ι lookup) (i : ι) (calls : List (ReadCall κ)) (M : Nat)
    (hname : ∀ c ∈ calls, NamesDevice table i s.context.euid c)
    (hM : ∀ c ∈ calls, ∀ h n aux, Header.tryRead rcfg c.buf = .ok (h, n) → h.auxSec = some aux →
      Authenticating aux.control.securityLevel → M ≤ tagLength aux.control.securityLevel)
    (hno : ∀ c ∈ calls, ∀ g, headerGuess rcfg c.ctx c.buf = some g →
      (∃ rc id src, c.ctx.securityCtx = some rc ∧ table.identify src = i ∧ rc.keyProvider .src id (some src) = some (g.eui, g.key)) →
      ¬ g.Hits e net M) :
    NoForgery s.cfg rcfg (Ccm.aead e) table i s.context s.calls calls := by
  intro c hc rc h n aux src eui key body tag payload h1 h2 h3 h4 h5 h6 h7 h8 h9
  have hg := headerGuess_eq rcfg c.ctx c.buf rc h n aux src eui key body tag h1 h2 h3 h4 h6 h7 h8
  have hlen : (nonceOctets eui aux.frameCounter aux.control.securityLevel).length = 13 := by simp [nonceOctets]
  obtain ⟨u1, u2, u3, u4⟩ := unprotect_ccm e _ _ _ _ _ _ hlen h8 h9
  have hsent : Sent e net key aux.control.securityLevel (nonceOctets eui aux.frameCounter aux.control.securityLevel) payload :=
    Classical.byContradiction fun hs => hno c hc _ hg ⟨rc, _, src, h1, h5, h6⟩ (hits_of_unprotect e M _ payload h8 h9 (hM c hc _ _ _ h2 h3 u1) hs)
  obtain ⟨s', hs', p, hsend⟩ := hsent
  have heu : s'.context.euid = s.context.euid := by
    have h10 := sends_nonce hsend
    obtain ⟨ctr, h10⟩ := h10
    rw [← (nonceOctets_inj h10).1]
    exact hname c hc rc _ src eui key h1 h5 h6
  have : s' = s := by
    obtain ⟨a, ha⟩ := List.getElem?_of_mem hs'
    obtain ⟨b, hb⟩ := List.getElem?_of_mem hs
    have := network_index hn ha hb heu
    rw [this, hb] at ha
    exact (Option.some.inj ha).symm
  subst this
  rw [u3, u4]
  exact sentUnder_of_sends s' e (hn.api s' hs') p _ _ _ _ hsend

/-- Without a hit there is no forgery of a device of the fleet. -/
theorem noForgery_of_no_hit {ι : Type} (hn : Fleet net) (e : BlockCipher κ) (s : Sender κ) (hs : s ∈ net) (rcfg : Cfg)
    {lookup : DevLookup σ} (table : DeviceTable ι lookup) (i : ι) (calls : List (ReadCall κ)) (M : Nat)
    (hname : ∀ c ∈ calls, NamesDevice table i s.context.euid c)
    (hM : ∀ c ∈ calls, ∀ h n aux, Header.tryRead rcfg c.buf = .ok (h, n) → h.auxSec = some aux →
      Authenticating aux.control.securityLevel → M ≤ tagLength aux.control.securityLevel)
    (hno : ∀ c ∈ calls, ∀ g, headerGuess rcfg c.ctx c.buf = some g → ¬ g.Hits e net M) :
    NoForgery s.cfg rcfg (Ccm.aead e) table i s.context s.calls calls :=
  noForgery_of_no_hit_for hn e s hs rcfg table i calls M hname hM fun c hc g hg _ => hno c hc g hg

/-- **C90** The chance that what a receiver accepts from a device is not a part, in order and without repetition, of
what that device sent, when an attacker who sees all that goes over the air and all answers of the receiver makes up
all `v` slices it gets. -/
theorem C90_channel [Finite κ] {ι : Type} [DecidableEq ι] (net : List (Sender κ)) (hn : Fleet net) (s : Sender κ) (hs : s ∈ net)
    (rcfg : Cfg) (lookup : DevLookup σ) (table : DeviceTable ι lookup) (i : ι) (dev : σ) (v : Nat)
    (D : (Nat → Nat → Option (List UInt8)) → List (Answer κ σ) → ReadCall κ)
    (hname : ∀ o h, NamesDevice table i s.context.euid (D o h)) (limit : Nat)
    (hD : ∀ o h, (D o h).buf.length ≤ limit) (hl : limit < 65280) :
    ChanceAtMost (fun e => ¬ List.Sublist
        (acceptedFrom rcfg (Ccm.aead e) lookup table i dev (handedOver rcfg (Ccm.aead e) lookup dev (D (observed e net)) v))
        (sentBy s.cfg (Ccm.aead e) s.context s.calls))
      (v * (2 ^ 96 + 4 * (9 * writes net + (limit + 33) / 16) ^ 2)) (2 ^ 128) := by
  have ha : ∀ aux : AuxHeader, Authenticating aux.control.securityLevel → 4 ≤ tagLength aux.control.securityLevel := by
    intro aux ha
    revert ha
    cases aux.control.securityLevel <;> simp [Authenticating, MicOnly, EncMic, tagLength]
  refine chance_mono ?_ (hits_chance hn v (fun o => offers rcfg lookup dev (D o)) limit hD hl 4 (by decide)
    (fun o h hd n aux _ _ hau => ha aux hau))
  intro e hne
  apply Classical.byContradiction
  intro hno
  apply hne
  apply C68_channel s.cfg rcfg (Ccm.aead e) (C50_ccm_laws e) table i
  apply noForgery_of_no_hit hn e s hs rcfg table i _ 4
  · intro c hc
    obtain ⟨k, hk, rfl⟩ := mem_handedOver _ _ _ _ _ _ _ hc
    exact hname _ _
  · intro c _ h n aux _ _ hau
    exact ha aux hau
  · intro c hc g hg hh
    obtain ⟨k, hk, rfl⟩ := mem_handedOver _ _ _ _ _ _ _ hc
    apply hno
    refine ⟨k, hk, g, ?_, hh⟩
    rw [answers_offers]
    exact hg

end

/-! ## Witnesses -/

/-- A receiver of the sample sender's frames. -/
def sampleKeyedReceiver : SecCtx (Fin 16) := ⟨9, 0, fun _ _ _ => some (0x0102030405060708, 5)⟩

/-- An attacker who delivers the second frame seen, then the first, and then, if the receiver has accepted a frame by
then, one he made up with a tag of zeros and a higher counter (as low octet 7). -/
def sampleAttack (o : Nat → Nat → Option (List UInt8)) (h : List (Answer (Fin 16) DeviceDescriptor)) : ReadCall (Fin 16) :=
  ⟨(match h.length with
    | 0 => (o 0 1).getD []
    | 1 => (o 0 0).getD []
    | _ => if h.any (fun a => match a.1 with | .ok _ => true | _ => false) then
        channelPacket 7 9 |>.take 26 |>.append [0, 0, 0, 0] else []).take 127, ⟨.none, some sampleKeyedReceiver⟩⟩

/-- A toy cipher with keys out of a finite set. -/
def toyKeyed : BlockCipher (Fin 16) := fun k b => Vector.ofFn fun i => b[15 - i.val] * 3 + UInt8.ofNat k.val

/-- Witness for C89 and C90: the attacker meets the conditions; under one cipher the receiver accepts what he made up,
under another only the second frame sent. -/
example :
    let net := sampleFleet [1] [2]
    let accepted := fun e : BlockCipher (Fin 16) => acceptedFrom sampleCfg (Ccm.aead e) sampleLookup sampleTable () ⟨3, false⟩
      (handedOver sampleCfg (Ccm.aead e) sampleLookup ⟨3, false⟩ (sampleAttack (observed e net)) 3)
    Fleet net ∧ (∀ o h, NamesDevice sampleTable () sampleKeyed.euid (sampleAttack o h)) ∧
    (∀ o h, (sampleAttack o h).buf.length ≤ 127) ∧
    sentBy sampleCfg (Ccm.aead toyKeyed) sampleKeyed (samplePair [1] [2]) = [(0x01020304, [1]), (0x01020305, [2])] ∧
    accepted toyKeyed = [(0x01020305, [2])] ∧
    accepted (fun _ _ => Vector.replicate 16 0) = [(0x01020305, [2]), (0x01020307, [9])] := by
  refine ⟨sampleFleet_fleet _ _, ?_, ?_, by decide +kernel, by decide +kernel, by decide +kernel⟩
  · intro o h rc id src eui key h1 _ h2
    obtain rfl := Option.some.inj h1
    simp only [sampleKeyedReceiver, Option.some.injEq, Prod.mk.injEq] at h2
    exact h2.1.symm
  · intro o h
    unfold sampleAttack
    simp only [List.length_take]
    omega

end Verif
