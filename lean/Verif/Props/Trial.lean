import Verif.Props.Adaptive
import Verif.Spec.TrialSpec

/-!
# C93 An attacker cannot tell which of two payloads was encrypted
-/

namespace Verif

open Spec Rfc3610

section
variable {κ σ : Type}

/-! ## What shows of an answer -/

theorem tableAead_typed (net : List (Sender κ)) (o : Nat → Nat → Option (List UInt8)) : AeadTyped (tableAead net o) := by
  refine ⟨fun _ _ _ _ _ => rfl, fun t k n a b tag _ h => (by cases h), fun t k n a b tag => ?_⟩
  unfold tableAead
  simp only
  split
  · rename_i h
    simp only
    split
    · rename_i ha
      obtain ⟨_, _, _, _, _, _, _, _, _, _, h6, _⟩ := h.choose_spec
      rw [← h6, ha]
      rfl
    · rfl
  · simp

/-- What shows of an answer depends on the cipher only by whether one guess verifies. -/
theorem receive_visible (cfg : Cfg) (aead aead' : Aead κ) (ht : AeadTyped aead) (ht' : AeadTyped aead') (buf : List UInt8)
    (ctx : SerDesCtx κ) (lookup : DevLookup σ) (dev : σ)
    (h : ∀ g, headerGuess cfg ctx buf = some g → g.tag.length = tagLength g.level →
      (unprotect aead g.level g.key g.nonce g.body g.tag).isSome = (unprotect aead' g.level g.key g.nonce g.body g.tag).isSome) :
    visible (Frame.tryReadAndUnsecure cfg aead buf ctx lookup dev) = visible (Frame.tryReadAndUnsecure cfg aead' buf ctx lookup dev) := by
  cases hr : Frame.readHead cfg buf 0 with
  | err e => unfold Frame.tryReadAndUnsecure; rw [hr]
  | panic => unfold Frame.tryReadAndUnsecure; rw [hr]
  | ok v =>
    obtain ⟨⟨hd, c⟩, offset⟩ := v
    by_cases hs : hd.hasSecurity = true
    swap
    · unfold Frame.tryReadAndUnsecure; rw [hr]; simp [hs]
    have hsome : hd.auxSec.isSome = true := by simpa [Header.hasSecurity] using hs
    obtain ⟨aux, ha⟩ := Option.isSome_iff_exists.1 hsome
    obtain ⟨mode, sco⟩ := ctx
    cases sco with
    | none => unfold Frame.tryReadAndUnsecure; rw [hr]
    | some sc =>
      cases mode with
      | explicit =>
        unfold Frame.tryReadAndUnsecure
        rw [hr]
        simp only [hs, if_true]
        rw [unsecureFrame_cases cfg aead hd aux ha, unsecureFrame_cases cfg aead' hd aux ha]
      | none =>
        obtain ⟨n, m, hread, hoff⟩ := Frame.readHead_ok.1 hr
        rw [C56_receiving_account cfg aead ht buf sc lookup dev hd n c m hread aux ha,
          C56_receiving_account cfg aead' ht' buf sc lookup dev hd n c m hread aux ha]
        unfold receivingAccount
        simp only
        by_cases h1 : hd.frameType ≠ .data
        · simp only [if_pos h1]
        simp only [if_neg h1]
        have h1 : hd.frameType = .data := by simpa using h1
        by_cases h2 : hd.version = .ieee802154_2003
        · simp only [if_pos h2]
        simp only [if_neg h2]
        obtain ⟨rfl, rfl⟩ := data_head_unique hread h1
        by_cases h3 : aux.control.securityLevel = .none
        · simp only [if_pos h3]
        simp only [if_neg h3]
        cases hk : sc.keyProvider .src aux.keyIdentifier hd.source with
        | none => rfl
        | some ek =>
          obtain ⟨eui, k⟩ := ek
          simp only
          cases hsrc : hd.source with
          | none => rfl
          | some src =>
            simp only
            rcases lookup dev .src src with ⟨dev1, _ | ⟨device, store⟩⟩
            · rfl
            simp only
            split
            · rfl
            split
            · rfl
            split
            · rfl
            rename_i hlen
            rw [hsrc] at hk
            rw [Nat.add_zero] at hlen ⊢
            have hg := headerGuess_eq cfg ⟨.none, some sc⟩ buf sc hd n aux src eui k
              ((buf.drop n).take (buf.length - n - tagLength aux.control.securityLevel))
              (buf.drop (n + (buf.length - n - tagLength aux.control.securityLevel)))
              rfl hread.1 ha hsrc hk (by rw [← List.drop_drop, List.take_append_drop]) (by rw [List.length_drop]; omega)
            have := h _ hg (by simp only [List.length_drop]; omega)
            simp only [Guess.nonce] at this
            generalize (buf.drop n).take (buf.length - n - tagLength aux.control.securityLevel) = body at *
            generalize buf.drop (n + (buf.length - n - tagLength aux.control.securityLevel)) = tag at *
            cases hu : unprotect aead aux.control.securityLevel k (nonceOctets eui aux.frameCounter aux.control.securityLevel) body tag with
            | none =>
              rw [hu] at this
              cases hu' : unprotect aead' aux.control.securityLevel k (nonceOctets eui aux.frameCounter aux.control.securityLevel) body tag with
              | none => rfl
              | some p' => rw [hu'] at this; cases this
            | some p =>
              rw [hu] at this
              cases hu' : unprotect aead' aux.control.securityLevel k (nonceOctets eui aux.frameCounter aux.control.securityLevel) body tag with
              | none => rw [hu'] at this; cases this
              | some p' =>
                simp only
                have hl := unprotect_length ht hu
                have hl' := unprotect_length ht' hu'
                split
                · rfl
                · unfold visible
                  simp only
                  rw [hl, hl']

variable {net net' : List (Sender κ)}

/-- In alike fleets the same went over the air, with payloads as long. -/
theorem wentOut_alike (hn : Fleet net) (h : AlikeFleets net net') {o : Nat → Nat → Option (List UInt8)} {t : Nat} {key : κ}
    {nonce body tag : List UInt8} :
    (∃ p, WentOut net o t key nonce body tag p) ↔ ∃ p, WentOut net' o t key nonce body tag p := by
  constructor
  · rintro ⟨p, i, s, c, level, octets, h1, h2, h3, h4, h5, h6, h7⟩
    rcases alike_net_get h i with ⟨g1, _⟩ | ⟨s0, s', g1, g2, hcf, hcx, ha⟩
    · rw [g1] at h1; cases h1
    rw [g1] at h1
    obtain rfl := Option.some.inj h1
    rcases alike_get ha c with ⟨k1, k2⟩ | ⟨d, d', k1, k2, hd⟩
    · obtain ⟨_, call, aux, eui, m2, _⟩ := h2; rw [k1] at m2; cases m2
    obtain ⟨m1, call, aux, eui, m2, m3, m4, m5, m6, m7, m8⟩ := h2
    rw [k1] at m2
    obtain rfl := Option.some.inj m2
    refine ⟨d'.frame.payload, i, s', c, level, octets, g2, ?_, h3, h4, h5, ?_, h7⟩
    · rw [hcf, hcx]
      refine ⟨?_, d', aux, eui, k2, by rw [hd.2.2.1]; exact m3, m4, m5, by rw [hd.2.2.1]; exact m6, ?_, rfl⟩
      · rw [alike_isSome _ unimplementedCipher unimplementedCipher _ _ _ (network_api hn g1) ha c]; exact m1
      · rw [alike_context _ unimplementedCipher unimplementedCipher _ _ _ (network_api hn g1) ha c]; exact m7
    · rw [h6, m8, alike_payload hd]
  · rintro ⟨p, i, s', c, level, octets, h1, h2, h3, h4, h5, h6, h7⟩
    rcases alike_net_get h i with ⟨_, g2⟩ | ⟨s, s0, g1, g2, hcf, hcx, ha⟩
    · rw [g2] at h1; cases h1
    rw [g2] at h1
    obtain rfl := Option.some.inj h1
    rw [hcf, hcx] at h2
    obtain ⟨d, d', k1, k2, rfl, hs⟩ := sends_alike _ unimplementedCipher unimplementedCipher _ _ _ (network_api hn g1) ha c _ _ _ _ h2
    exact ⟨d.frame.payload, i, s, c, level, octets, g1, hs, h3, h4, h5, by rw [h6, alike_payload (ha.2 c _ _ k1 k2)], h7⟩

theorem unprotect_table (hn : Fleet net) (o : Nat → Nat → Option (List UInt8)) (level : SecurityLevel) (key : κ)
    (nonce body tag : List UInt8) :
    (unprotect (tableAead net o) level key nonce body tag).isSome = true ↔
      Authenticating level ∧ ∃ p, WentOut net o (tagLength level) key nonce body tag p := by
  unfold unprotect
  by_cases hm : MicOnly level
  · rw [if_pos hm]
    by_cases h : ∃ p, WentOut net o (tagLength level) key nonce body tag p
    · rw [tableAead_true hn (List.append_nil body) h.choose_spec]
      exact ⟨fun _ => ⟨.inl hm, h⟩, fun _ => rfl⟩
    · rw [tableAead_false (List.append_nil body) (fun p hp => h ⟨p, hp⟩)]
      exact ⟨fun h => (by cases h), fun h' => absurd h'.2 h⟩
  · rw [if_neg hm]
    by_cases he : EncMic level
    · rw [if_pos he]
      by_cases h : ∃ p, WentOut net o (tagLength level) key nonce body tag p
      · rw [tableAead_true hn (List.nil_append body) h.choose_spec]
        exact ⟨fun _ => ⟨.inr he, h⟩, fun _ => rfl⟩
      · rw [tableAead_false (List.nil_append body) (fun p hp => h ⟨p, hp⟩)]
        exact ⟨fun h => (by cases h), fun h' => absurd h'.2 h⟩
    · rw [if_neg he]
      exact ⟨fun h => (by cases h), fun h => absurd h.1 (fun h => h.elim hm he)⟩

theorem ideal_visible (hn : Fleet net) (h : AlikeFleets net net') (o : Nat → Nat → Option (List UInt8)) (a : Offer κ σ) :
    visible (idealAnswer net' o a) = visible (idealAnswer net o a) := by
  apply receive_visible _ _ _ (tableAead_typed _ _) (tableAead_typed _ _)
  intro g _ _
  rw [Bool.eq_iff_iff, unprotect_table (alike_network hn h), unprotect_table hn, wentOut_alike hn h]

/-! ## Both sides at once -/

/-- The devices with the left and with the right frames, and what the tester gets. -/
structure Pair (κ σ : Type) where
  left : List (Sender κ)
  right : List (Sender κ)
  log : List (Glimpse κ σ)

/-- A trial in which what is seen is given by `O`, and no slice is a hit. -/
noncomputable def pair (start : List (Sender κ)) (B : Tester κ σ)
    (O : List (Sender κ) → List (Sender κ) → Nat → Nat → Option (List UInt8)) : Nat → Pair κ σ
  | 0 => ⟨start, start, []⟩
  | n + 1 =>
    let now := pair start B O n
    match B now.log with
    | none => now
    | some (.write i l r) =>
      ⟨wrote now.left i l, wrote now.right i r,
        now.log ++ [.sent (O (wrote now.left i l) (wrote now.right i r) i (writesOf now.left i))]⟩
    | some (.offer a) =>
      ⟨now.left, now.right, now.log ++ [.answered (visible (idealAnswer now.left (O now.left now.right) a))]⟩

variable {start : List (Sender κ)} {B : Tester κ σ} {O O' : List (Sender κ) → List (Sender κ) → Nat → Nat → Option (List UInt8)}

theorem pair_sub_succ (n : Nat) : SubNet (pair start B O n).left (pair start B O (n + 1)).left ∧
    SubNet (pair start B O n).right (pair start B O (n + 1)).right := by
  conv => rhs; rhs; unfold pair
  conv => lhs; rhs; unfold pair
  simp only
  split
  · exact ⟨SubNet.refl _, SubNet.refl _⟩
  · exact ⟨SubNet.wrote _ _ _, SubNet.wrote _ _ _⟩
  · exact ⟨SubNet.refl _, SubNet.refl _⟩

theorem pair_sub {t n : Nat} (h : t ≤ n) : SubNet (pair start B O t).left (pair start B O n).left ∧
    SubNet (pair start B O t).right (pair start B O n).right := by
  obtain ⟨d, rfl⟩ := Nat.le.dest h
  clear h
  induction d with
  | zero => exact ⟨SubNet.refl _, SubNet.refl _⟩
  | succ d ih =>
    have := pair_sub_succ (start := start) (B := B) (O := O) (t + d)
    exact ⟨ih.1.trans this.1, ih.2.trans this.2⟩

theorem pair_congr (n : Nat) (h : ∀ t, t ≤ n → O (pair start B O t).left (pair start B O t).right =
      O' (pair start B O t).left (pair start B O t).right) :
    ∀ t, t ≤ n → pair start B O' t = pair start B O t := by
  intro t
  induction t with
  | zero => intro _; rfl
  | succ t ih =>
    intro ht
    have ih := ih (by omega)
    have h1 := h (t + 1) ht
    have h0 := h t (by omega)
    conv => lhs; unfold pair
    conv => rhs; unfold pair
    rw [ih]
    conv at h1 => lhs; unfold pair
    conv at h1 => rhs; unfold pair
    simp only at h1 ⊢
    split <;> rename_i hA <;> simp only [hA] at h1
    · rfl
    · rw [h1]
    · rw [h0]

theorem alike_wrote (h : AlikeFleets net net') (i : Nat) {l r : WriteCall} (ha : Alike l r) :
    AlikeFleets (wrote net i l) (wrote net' i r) := by
  refine ⟨by rw [(SubNet.wrote net' i r).1, (SubNet.wrote net i l).1, h.1], fun j s s' hs hs' => ?_⟩
  unfold wrote at hs hs'
  rw [List.getElem?_modify] at hs hs'
  rcases alike_net_get h j with ⟨g1, g2⟩ | ⟨t, t', g1, g2, h1, h2, h3⟩
  · rw [g1] at hs; simp at hs
  rw [g1] at hs
  rw [g2] at hs'
  simp only [Option.map_eq_map, Option.map_some, Option.some.injEq] at hs hs'
  subst hs
  subst hs'
  by_cases hij : i = j
  · rw [if_pos hij, if_pos hij]
    refine ⟨h1, h2, by simp [h3.1], fun p c c' hc hc' => ?_⟩
    simp only at hc hc'
    by_cases hp : p < t.calls.length
    · rw [List.getElem?_append_left hp] at hc
      rw [List.getElem?_append_left (by rw [h3.1]; exact hp)] at hc'
      exact h3.2 p c c' hc hc'
    · rw [List.getElem?_append_right (by omega)] at hc
      rw [List.getElem?_append_right (by rw [h3.1]; omega), h3.1] at hc'
      by_cases hz : p - t.calls.length = 0
      · rw [hz] at hc hc'
        simp only [List.getElem?_cons_zero, Option.some.injEq] at hc hc'
        rw [← hc, ← hc']
        exact ha
      · rw [List.getElem?_eq_none (by simp; omega)] at hc
        cases hc
  · rw [if_neg hij, if_neg hij]
    exact ⟨h1, h2, h3⟩

theorem writesOf_alike (h : AlikeFleets net net') (i : Nat) : writesOf net' i = writesOf net i := by
  unfold writesOf
  rcases alike_net_get h i with ⟨g1, g2⟩ | ⟨t, t', g1, g2, _, _, h3⟩
  · rw [g1, g2]
  · rw [g1, g2]
    exact h3.1

theorem alike_fleets_refl (net : List (Sender κ)) : AlikeFleets net net :=
  ⟨rfl, fun i s s' hs hs' => by rw [hs] at hs'; cases hs'; exact ⟨rfl, rfl, alike_histories_refl _⟩⟩

variable {q v limit M : Nat}

theorem pair_alike (hs : Fresh start) (hB : Fair B q v limit M) (n : Nat) :
    Fleet (pair start B O n).left ∧ AlikeFleets (pair start B O n).left (pair start B O n).right := by
  induction n with
  | zero => exact ⟨fresh_fleet hs, alike_fleets_refl _⟩
  | succ n ih =>
    unfold pair
    simp only
    split
    · exact ih
    · rename_i h
      have := hB.writes _ _ _ _ h
      exact ⟨fleet_wrote ih.1 _ _ this.2.1, alike_wrote ih.2 _ this.2.2⟩
    · exact ih

theorem plays_limited (hB : Fair B q v limit M) (right : Bool) : Limited (plays right B) q v limit := by
  have c1 : ∀ log : List (Sight κ σ), sentCount log = (log.map glimpse).countP fun | .sent _ => true | .answered _ => false := by
    intro log
    rw [List.countP_map]
    unfold sentCount
    congr 1
    funext x
    cases x <;> rfl
  have c2 : ∀ log : List (Sight κ σ), answerCount log = (log.map glimpse).countP fun | .sent _ => false | .answered _ => true := by
    intro log
    rw [List.countP_map]
    unfold answerCount
    congr 1
    funext x
    cases x <;> rfl
  constructor
  · intro log i call h
    unfold plays at h
    split at h
    · cases h
    · rename_i j l r hb
      have := hB.writes _ _ _ _ hb
      simp only [Option.some.injEq, Move.write.injEq] at h
      obtain ⟨_, rfl⟩ := h
      rw [c1]
      refine ⟨this.1, ?_⟩
      cases right
      · exact this.2.1
      · show ContentFromApi r.frame.content
        rw [this.2.2.2.2.2.1]
        exact this.2.1
    · cases h
  · intro log a h
    unfold plays at h
    split at h
    · cases h
    · cases h
    · rename_i hb
      have := hB.offers _ _ hb
      simp only [Option.some.injEq, Move.offer.injEq] at h
      obtain rfl := h
      rw [c2]
      exact ⟨this.1, this.2.1⟩

theorem plays_tags (hB : Fair B q v limit M) (right : Bool) (log : List (Sight κ σ)) (a : Offer κ σ)
    (h : plays right B log = some (.offer a)) : TagAtLeast M a := by
  unfold plays at h
  split at h
  · cases h
  · cases h
  · rename_i hb
    simp only [Option.some.injEq, Move.offer.injEq] at h
    obtain rfl := h
    exact (hB.offers _ _ hb).2.2

theorem pair_left (P : List (Sender κ) → Nat → Nat → Option (List UInt8)) (n : Nat) :
    (script start (plays false B) P n).net = (pair start B (fun l _ => P l) n).left ∧
    (script start (plays false B) P n).log.map glimpse = (pair start B (fun l _ => P l) n).log := by
  induction n with
  | zero => exact ⟨rfl, rfl⟩
  | succ n ih =>
    have hp : plays false B (script start (plays false B) P n).log = match B (pair start B (fun l _ => P l) n).log with
        | none => none
        | some (.write i l r) => some (.write i (if false then r else l))
        | some (.offer a) => some (.offer a) := by
      rw [← ih.2]
      rfl
    conv => enter [1, 1]; unfold script
    conv => enter [1, 2]; unfold pair
    conv => enter [2, 1]; unfold script
    conv => enter [2, 2]; unfold pair
    simp only
    rw [hp]
    cases B (pair start B (fun l _ => P l) n).log with
    | none => exact ih
    | some m =>
      cases m with
      | write i l r =>
        simp only [Bool.false_eq_true, if_false, List.map_append, List.map_cons, List.map_nil, glimpse]
        rw [ih.1, ih.2]
        exact ⟨rfl, rfl⟩
      | offer a =>
        simp only [List.map_append, List.map_cons, List.map_nil, glimpse]
        rw [ih.1, ih.2]
        exact ⟨rfl, rfl⟩

theorem pair_right (hs : Fresh start) (hB : Fair B q v limit M) (P : List (Sender κ) → Nat → Nat → Option (List UInt8)) (n : Nat) :
    (script start (plays true B) P n).net = (pair start B (fun _ r => P r) n).right ∧
    (script start (plays true B) P n).log.map glimpse = (pair start B (fun _ r => P r) n).log := by
  induction n with
  | zero => exact ⟨rfl, rfl⟩
  | succ n ih =>
    obtain ⟨hn, ha⟩ := pair_alike (O := fun _ r => P r) hs hB n
    have hp : plays true B (script start (plays true B) P n).log = match B (pair start B (fun _ r => P r) n).log with
        | none => none
        | some (.write i l r) => some (.write i (if true then r else l))
        | some (.offer a) => some (.offer a) := by
      rw [← ih.2]
      rfl
    conv => enter [1, 1]; unfold script
    conv => enter [1, 2]; unfold pair
    conv => enter [2, 1]; unfold script
    conv => enter [2, 2]; unfold pair
    simp only
    rw [hp]
    cases B (pair start B (fun _ r => P r) n).log with
    | none => exact ih
    | some m =>
      cases m with
      | write i l r =>
        simp only [if_true, List.map_append, List.map_cons, List.map_nil, glimpse]
        rw [ih.1, ih.2, writesOf_alike ha]
        exact ⟨rfl, rfl⟩
      | offer a =>
        simp only [List.map_append, List.map_cons, List.map_nil, glimpse]
        rw [ih.1, ih.2, ideal_visible hn ha]
        exact ⟨rfl, rfl⟩

/-- With a cipher in use. -/
noncomputable def pairLeft (start : List (Sender κ)) (B : Tester κ σ) (e : BlockCipher κ) : Nat → Pair κ σ :=
  pair start B (fun l _ => observed e l)

noncomputable def pairRight (start : List (Sender κ)) (B : Tester κ σ) (e : BlockCipher κ) : Nat → Pair κ σ :=
  pair start B (fun _ r => observed e r)

/-- As far as the values at the counter blocks tell, with the authentication values of the left frames mixed in. -/
noncomputable def pairIdeal (start : List (Sender κ)) (B : Tester κ σ) (e : BlockCipher κ) : Nat → Pair κ σ :=
  pair start B (fun l _ => seen l (atCounters l e))

theorem netJobs_mono {l r L R : List (Sender κ)} (h : SubNet l L) (h' : SubNet r R) {e : BlockCipher κ} {j : Job κ}
    (hj : netJobs e l r j) : netJobs e L R j := by
  obtain ⟨i, s, s', h1, h2, p, c', h3, h4, h5⟩ := hj
  obtain ⟨S, k1, k2, k3, k4⟩ := h.get h1
  obtain ⟨S', m1, m2, m3, m4⟩ := h'.get h2
  refine ⟨i, S, S', k1, m1, p, c', ?_, ?_, h5⟩
  · rw [k2, k3]; exact sends_prefix k4 h3
  · rw [(prefix_get m4 (List.getElem?_eq_some_iff.1 h4).1).1]; exact h4

/-- The other cipher: the right side with it shows what the left side shows with this one. -/
noncomputable def partner (start : List (Sender κ)) (B : Tester κ σ) (n : Nat) (e : BlockCipher κ) : BlockCipher κ :=
  Job.shift (netJobs unimplementedCipher (pairLeft start B e n).left (pairLeft start B e n).right) true e

theorem partner_pair (hs : Fresh start) (hB : Fair B q v limit M) (n : Nat) (e : BlockCipher κ)
    (hl : NoClash e (pairLeft start B e n).left) (hr : NoClash e (pairLeft start B e n).right) :
    pairRight start B (partner start B n e) n = pairLeft start B e n := by
  refine pair_congr n (fun t ht => ?_) n (Nat.le_refl _)
  obtain ⟨hn, ha⟩ := pair_alike (O := fun l _ => observed e l) hs hB t
  obtain ⟨hN, hA⟩ := pair_alike (O := fun l _ => observed e l) hs hB n
  have hg := (good_iff unimplementedCipher e hN hA).2 ⟨hl, hr⟩
  obtain ⟨s1, s2⟩ := pair_sub (start := start) (B := B) (O := fun l _ => observed e l) ht
  exact (observed_of_jobs unimplementedCipher e (partner start B n e) hn ha (fun j hj =>
    Job.protected_shift (netJobs_jobs _ hN hA) e hg j (netJobs_mono s1 s2 hj))).symm

theorem partner_inj (hs : Fresh start) (hB : Fair B q v limit M) (n : Nat) (e e' : BlockCipher κ)
    (hl : NoClash e (pairLeft start B e n).left) (hr : NoClash e (pairLeft start B e n).right)
    (hl' : NoClash e' (pairLeft start B e' n).left) (hr' : NoClash e' (pairLeft start B e' n).right)
    (h : partner start B n e = partner start B n e') : e = e' := by
  have h1 := partner_pair hs hB n e hl hr
  have h2 := partner_pair hs hB n e' hl' hr'
  rw [h, h2] at h1
  obtain ⟨hN, hA⟩ := pair_alike (O := fun l _ => observed e l) hs hB n
  have hg := (good_iff unimplementedCipher e hN hA).2 ⟨hl, hr⟩
  rw [h1] at hl' hr'
  have hg' := (good_iff unimplementedCipher e' hN hA).2 ⟨hl', hr'⟩
  unfold partner at h
  rw [h1] at h
  have hJ := netJobs_jobs unimplementedCipher hN hA
  have k1 := Job.shift_shift_of hJ true e (fun j i hj => Job.shift_mask e hg j hj i)
  have k2 := Job.shift_shift_of hJ true e' (fun j i hj => Job.shift_mask e' hg' j hj i)
  rw [← k1, ← k2]
  exact congrArg _ h

/-! ## Clashes -/

theorem sent_alike (hn : Fleet net) (h : AlikeFleets net net') {e : BlockCipher κ} {key : κ} {level : SecurityLevel}
    {nonce payload' : List UInt8} (hs : Sent e net' key level nonce payload') :
    ∃ payload, Sent e net key level nonce payload := by
  obtain ⟨s', hs', p, hp⟩ := hs
  obtain ⟨i, hi⟩ := List.getElem?_of_mem hs'
  rcases alike_net_get h i with ⟨_, g2⟩ | ⟨s, s0, g1, g2, hcf, hcx, ha⟩
  · rw [g2] at hi; cases hi
  rw [g2] at hi
  obtain rfl := Option.some.inj hi
  rw [hcf, hcx] at hp
  obtain ⟨d, d', k1, k2, _, hd⟩ := sends_alike _ e e _ _ _ (network_api hn g1) ha p _ _ _ _ hp
  exact ⟨_, s, List.mem_of_getElem? g1, p, hd⟩

theorem targets_alike (hn : Fleet net) (h : AlikeFleets net net') {a : κ × Block} (ha : a ∈ sentTargets net') :
    a ∈ sentTargets net := by
  unfold sentTargets at *
  rw [List.mem_flatMap] at *
  obtain ⟨m, h1, h2⟩ := ha
  obtain ⟨p, hp⟩ := sent_alike hn h ((mem_sentList (alike_network hn h) unimplementedCipher m).1 h1)
  exact ⟨(m.1, m.2.1, m.2.2.1, p), (mem_sentList hn unimplementedCipher _).2 hp, h2⟩

theorem clash_mixed (hn : Fleet net) (h : AlikeFleets net net') (e : BlockCipher κ) (hg : NoClash (mixed net e) net') :
    NoClash e net' := by
  have hn' := alike_network hn h
  intro key level level' nonce nonce' payload payload' hs hs' b hb i hi
  have hs := sent_indep hn' (mixed net e) _ hs
  have hs' := sent_indep hn' (mixed net e) _ hs'
  have := (chain_congr (mixed net e key) (e key) (authenticatedAt level nonce payload) (Vector.replicate 16 0) (fun b hb => by
    refine (mixed_off e key b (fun m hm hk hbb => ?_)).symm
    obtain ⟨p, hp⟩ := sent_alike hn' (alike_fleets_symm h) ((mem_sentList hn (mixed net e) m).1 hm)
    rw [hk] at hp
    exact hg _ _ _ _ _ _ _ hs hp b hb 0 (by omega) hbb)).1
  have hb : b ∈ macInputs (mixed net e key) level nonce payload := by
    unfold macInputs at hb ⊢
    rwa [this] at hb
  exact hg _ _ _ _ _ _ _ hs hs' b hb i hi

theorem pair_writes (hs : Fresh start) (hB : Fair B q v limit M) (P : List (Sender κ) → Nat → Nat → Option (List UInt8)) (n : Nat) :
    writes (pair start B (fun l _ => P l) n).left ≤ q := by
  rw [← (pair_left P n).1]
  have := script_writes (O := P) hs (plays_limited hB false) n
  exact Nat.le_trans this.1 this.2.1

theorem pair_clash_left [Finite κ] (hs : Fresh start) (hB : Fair B q v limit M) (n : Nat) :
    ChanceAtMost (fun e => ¬ NoClash e (pairLeft start B e n).left) (162 * q ^ 2) (2 ^ 128) := by
  have hA := plays_limited hB false
  have hn := fun e => script_fleet (O := fun net => seen net (atCounters net e)) hs hA n
  have ha : Adaptive (fun e => (scriptIdeal start (plays false B) e n).net) (fun _ => none) 0 :=
    ⟨hn, fun e k x y h => by
      rw [ideal_replaced hs hA e n k x y h n (Nat.le_refl _)]
      exact ⟨rfl, rfl⟩, fun e g hg => (by cases hg)⟩
  have hu : Unmixes (fun e => (scriptIdeal start (plays false B) e n).net) (fun e => (scriptReal start (plays false B) e n).net)
      (fun _ => none) (fun _ => none) :=
    ⟨fun e he => by rw [ideal_of_real hs hA e n he n (Nat.le_refl _)],
      fun e he => by rw [real_of_ideal hs hA e n he n (Nat.le_refl _)], fun _ _ => rfl⟩
  have h1 := hu.clash ha
  have h2 := adaptive_clash _ _ _ ha q (fun e => by
    have := script_writes (O := fun net => seen net (atCounters net e)) hs hA n
    exact Nat.le_trans this.1 this.2.1)
  have h3 : ∀ e, (scriptReal start (plays false B) e n).net = (pairLeft start B e n).left := fun e => (pair_left (observed e) n).1
  simp only [h3] at h1
  unfold ChanceAtMost at *
  exact Nat.le_trans (Nat.mul_le_mul_right _ h1) h2

theorem pair_ideal_of_left (hs : Fresh start) (hB : Fair B q v limit M) (e : BlockCipher κ) (n : Nat)
    (hg : NoClash e (pairLeft start B e n).left) :
    pairIdeal start B (mixed (pairLeft start B e n).left e) n = pairLeft start B e n := by
  have hn := fun t => (pair_alike (O := fun l _ => observed e l) hs hB t).1
  refine pair_congr n (fun t ht => ?_) n (Nat.le_refl _)
  have hsub : SubNet (pair start B (fun l _ => observed e l) t).left (pairLeft start B e n).left := (pair_sub ht).1
  have hg2 := mixed_noClash (hn n) e hg
  have := mixed_sub (hn t) (hn n) hsub _ hg2
  refine Eq.trans ?_ (seen_eq (hn t) _ (noClash_mono hsub hg2))
  refine Eq.trans ?_ this
  exact congrFun (congrArg observed (mixed_mixed (hn n) e hg).symm) _

theorem pair_clash_right [Finite κ] (hs : Fresh start) (hB : Fair B q v limit M) (n : Nat) :
    ChanceAtMost (fun e => NoClash e (pairLeft start B e n).left ∧ ¬ NoClash e (pairLeft start B e n).right)
      (162 * q ^ 2) (2 ^ 128) := by
  have hp := fun e => pair_alike (O := fun l _ => seen l (atCounters l e)) hs hB
  have ha : Adaptive (fun e => (pairIdeal start B e n).right) (fun _ => none) 0 := by
    refine ⟨fun e => alike_network (hp e n).1 (hp e n).2, fun e k x y h => ⟨?_, rfl⟩, fun e g hg => (by cases hg)⟩
    have h' : (k, x) ∉ sentTargets (pairIdeal start B e n).left := fun hm =>
      h (targets_alike (alike_network (hp e n).1 (hp e n).2) (alike_fleets_symm (hp e n).2) hm)
    refine congrArg Pair.right (pair_congr n (fun t ht => ?_) n (Nat.le_refl _))
    have hsub : SubNet (pair start B (fun l _ => seen l (atCounters l e)) t).left (pairIdeal start B e n).left := (pair_sub ht).1
    rw [atCounters_replaced e k x y (fun hm => h' (sentTargets_mono (hp e t).1 (hp e n).1 hsub hm))]
  have h2 := adaptive_clash _ _ _ ha q (fun e => by
    refine Nat.le_trans (Nat.le_of_eq (alike_writes (hp e n).2)) ?_
    exact pair_writes hs hB _ n)
  have h1 : howMany (fun e => NoClash e (pairLeft start B e n).left ∧ ¬ NoClash e (pairLeft start B e n).right) ≤
      howMany (fun e => ¬ NoClash e (pairIdeal start B e n).right) :=
    howMany_inj (fun e => mixed (pairLeft start B e n).left e) (fun e he => by
      show ¬ NoClash _ (pairIdeal start B _ n).right
      rw [pair_ideal_of_left hs hB e n he.1]
      obtain ⟨hN, hA⟩ := pair_alike (O := fun l _ => observed e l) hs hB n
      exact fun hc => he.2 (clash_mixed hN hA e hc)) (fun e e' he he' heq => by
      have k1 := pair_ideal_of_left hs hB e n he.1
      have k2 := pair_ideal_of_left hs hB e' n he'.1
      have heq : mixed (pairLeft start B e n).left e = mixed (pairLeft start B e' n).left e' := heq
      rw [heq, k2] at k1
      have hN := (pair_alike (O := fun l _ => observed e l) hs hB n).1
      have hN' := (pair_alike (O := fun l _ => observed e' l) hs hB n).1
      rw [← mixed_mixed hN e he.1, ← mixed_mixed hN' e' he'.1]
      show mixed (pairLeft start B e n).left _ = mixed (pairLeft start B e' n).left _
      rw [← k1]
      exact congrArg _ heq)
  unfold ChanceAtMost at *
  exact Nat.le_trans (Nat.mul_le_mul_right _ h1) h2

/-! ## Telling left from right -/

/-- With no hit, what the tester gets is what the script gives him. -/
theorem glimpses_left (hs : Fresh start) (hB : Fair B q v limit M) (hl : limit < 65280) (e : BlockCipher κ) (n : Nat)
    (h : ¬ ∃ k, HitAt e start (plays false B) M k) : glimpses e start false B n = (pairLeft start B e n).log := by
  unfold glimpses
  rw [play_script hs (plays_limited hB false) hl (plays_tags hB false) e n (fun k _ hk => h ⟨k, hk⟩)]
  exact (pair_left (observed e) n).2

theorem glimpses_right (hs : Fresh start) (hB : Fair B q v limit M) (hl : limit < 65280) (e : BlockCipher κ) (n : Nat)
    (h : ¬ ∃ k, HitAt e start (plays true B) M k) : glimpses e start true B n = (pairRight start B e n).log := by
  unfold glimpses
  rw [play_script hs (plays_limited hB true) hl (plays_tags hB true) e n (fun k _ hk => h ⟨k, hk⟩)]
  exact (pair_right hs hB (observed e) n).2

theorem trial_half [Finite κ] (hs : Fresh start) (hB : Fair B q v limit M) (hl : limit < 65280) (hM : M ≤ 16) (n : Nat)
    (D : List (Glimpse κ σ) → Prop) :
    howMany (fun e => D (glimpses e start false B n)) * 2 ^ 128 ≤ howMany (fun e => D (glimpses e start true B n)) * 2 ^ 128 +
      (324 * q ^ 2 + 2 * (v * (2 ^ (128 - 8 * M) + 4 * (9 * q + (limit + 33) / 16) ^ 2))) * howManyCiphers κ := by
  have a1 := pair_clash_left hs hB n
  have a2 := pair_clash_right hs hB n
  have a3 := play_hits hs (plays_limited hB false) hl hM (plays_tags hB false)
  have a4 := play_hits hs (plays_limited hB true) hl hM (plays_tags hB true)
  unfold ChanceAtMost at a1 a2 a3 a4
  generalize v * (2 ^ (128 - 8 * M) + 4 * (9 * q + (limit + 33) / 16) ^ 2) = H at *
  have b1 : howMany (fun e => D (glimpses e start false B n)) ≤
      howMany (fun e => ((NoClash e (pairLeft start B e n).left ∧ NoClash e (pairLeft start B e n).right) ∧ D (pairLeft start B e n).log) ∨
        ((∃ k, HitAt e start (plays false B) M k) ∨ (¬ NoClash e (pairLeft start B e n).left ∨
          (NoClash e (pairLeft start B e n).left ∧ ¬ NoClash e (pairLeft start B e n).right)))) :=
    howMany_mono (fun e he => by
      by_cases c0 : ∃ k, HitAt e start (plays false B) M k
      · exact .inr (.inl c0)
      by_cases c1 : NoClash e (pairLeft start B e n).left
      · by_cases c2 : NoClash e (pairLeft start B e n).right
        · rw [glimpses_left hs hB hl e n c0] at he
          exact .inl ⟨⟨c1, c2⟩, he⟩
        · exact .inr (.inr (.inr ⟨c1, c2⟩))
      · exact .inr (.inr (.inl c1)))
  have b2 := howMany_or (fun e => (NoClash e (pairLeft start B e n).left ∧ NoClash e (pairLeft start B e n).right) ∧
      D (pairLeft start B e n).log) (fun e => (∃ k, HitAt e start (plays false B) M k) ∨ (¬ NoClash e (pairLeft start B e n).left ∨
          (NoClash e (pairLeft start B e n).left ∧ ¬ NoClash e (pairLeft start B e n).right)))
  have b3 := howMany_or (fun e => ∃ k, HitAt e start (plays false B) M k) (fun e => ¬ NoClash e (pairLeft start B e n).left ∨
          (NoClash e (pairLeft start B e n).left ∧ ¬ NoClash e (pairLeft start B e n).right))
  have b4 := howMany_or (fun e => ¬ NoClash e (pairLeft start B e n).left)
    (fun e => NoClash e (pairLeft start B e n).left ∧ ¬ NoClash e (pairLeft start B e n).right)
  have b5 : howMany (fun e => (NoClash e (pairLeft start B e n).left ∧ NoClash e (pairLeft start B e n).right) ∧
      D (pairLeft start B e n).log) ≤ howMany (fun e => D (pairRight start B e n).log) :=
    howMany_inj (partner start B n) (fun e he => by
      show D (pairRight start B _ n).log
      rw [partner_pair hs hB n e he.1.1 he.1.2]
      exact he.2) (fun e e' he he' heq => partner_inj hs hB n e e' he.1.1 he.1.2 he'.1.1 he'.1.2 heq)
  have b6 : howMany (fun e => D (pairRight start B e n).log) ≤ howMany (fun e => D (glimpses e start true B n) ∨
      ∃ k, HitAt e start (plays true B) M k) :=
    howMany_mono (fun e he => by
      by_cases c0 : ∃ k, HitAt e start (plays true B) M k
      · exact .inr c0
      · rw [← glimpses_right hs hB hl e n c0] at he
        exact .inl he)
  have b7 := howMany_or (fun e => D (glimpses e start true B n)) (fun e => ∃ k, HitAt e start (plays true B) M k)
  have h7 : (324 * q ^ 2 + 2 * H) * howManyCiphers κ = 162 * q ^ 2 * howManyCiphers κ + 162 * q ^ 2 * howManyCiphers κ +
    H * howManyCiphers κ + H * howManyCiphers κ := by ring
  rw [h7]
  have h8 : howMany (fun e => D (glimpses e start false B n)) ≤ howMany (fun e => D (glimpses e start true B n)) +
      (howMany (fun e => ∃ k, HitAt e start (plays true B) M k) + howMany (fun e => ∃ k, HitAt e start (plays false B) M k) +
      howMany (fun e => ¬ NoClash e (pairLeft start B e n).left) +
      howMany (fun e => NoClash e (pairLeft start B e n).left ∧ ¬ NoClash e (pairLeft start B e n).right)) := by omega
  generalize 2 ^ 128 = Q at *
  have h9 := Nat.mul_le_mul_right Q h8
  rw [Nat.add_mul, Nat.add_mul, Nat.add_mul, Nat.add_mul] at h9
  omega

/-- The tester with left and right swapped. -/
def swapSides (B : Tester κ σ) : Tester κ σ := fun log =>
  match B log with
  | none => none
  | some (.write i l r) => some (.write i r l)
  | some (.offer a) => some (.offer a)

theorem alike_symm {l r : WriteCall} (h : Alike l r) : Alike r l := by
  obtain ⟨a1, a2, a3, a4, a5, a6⟩ := h
  refine ⟨a1.symm, a2.symm, a3.symm, a4.symm, a5.symm, ?_⟩
  rcases a6 with a6 | ⟨a6, aux, a7, a8⟩
  · exact .inl a6.symm
  · exact .inr ⟨a6.symm, aux, by rw [a3]; exact a7, a8⟩

theorem swapSides_fair (hB : Fair B q v limit M) : Fair (swapSides B) q v limit M := by
  constructor
  · intro log i l r h
    unfold swapSides at h
    split at h
    · cases h
    · rename_i hb
      simp only [Option.some.injEq, Choice.write.injEq] at h
      obtain ⟨rfl, rfl, rfl⟩ := h
      have := hB.writes _ _ _ _ hb
      refine ⟨this.1, ?_, alike_symm this.2.2⟩
      rw [this.2.2.2.2.2.1]
      exact this.2.1
    · cases h
  · intro log a h
    unfold swapSides at h
    split at h
    · cases h
    · cases h
    · rename_i hb
      simp only [Option.some.injEq, Choice.offer.injEq] at h
      obtain rfl := h
      exact hB.offers _ _ hb

theorem plays_swap (B : Tester κ σ) (right : Bool) : plays right (swapSides B) = plays (!right) B := by
  funext log
  unfold plays swapSides
  cases B (log.map glimpse) with
  | none => rfl
  | some m =>
    cases m with
    | write i l r => cases right <;> rfl
    | offer a => rfl

/-- **C93** Whatever a tester concludes, he concludes with almost the same chance whichever of the two payloads of each
of his choices the devices were given, although he chooses step by step what they write and what the receivers get, in
view of all that went over the air and all the answers, but for the payloads revealed. -/
theorem C93_adaptive_secrecy_long_tags [Finite κ] (start : List (Sender κ)) (hs : Fresh start) (B : Tester κ σ)
    (q v limit M : Nat) (hB : Fair B q v limit M) (hl : limit < 65280) (hM : M ≤ 16) (n : Nat)
    (D : List (Glimpse κ σ) → Prop) :
    ApartAtMost (fun e => D (glimpses e start false B n)) (fun e => D (glimpses e start true B n))
      (324 * q ^ 2 + 2 * (v * (2 ^ (128 - 8 * M) + 4 * (9 * q + (limit + 33) / 16) ^ 2))) (2 ^ 128) := by
  refine ⟨trial_half hs hB hl hM n D, ?_⟩
  have := trial_half hs (swapSides_fair hB) hl hM n D
  unfold glimpses at this ⊢
  rw [plays_swap, plays_swap] at this
  exact this

/-- **C93** The same at any levels. -/
theorem C93_adaptive_secrecy [Finite κ] (start : List (Sender κ)) (hs : Fresh start) (B : Tester κ σ)
    (q v limit : Nat) (hB : Fair B q v limit 0) (hl : limit < 65280) (n : Nat) (D : List (Glimpse κ σ) → Prop) :
    ApartAtMost (fun e => D (glimpses e start false B n)) (fun e => D (glimpses e start true B n))
      (324 * q ^ 2 + 2 * (v * (2 ^ 96 + 4 * (9 * q + (limit + 33) / 16) ^ 2))) (2 ^ 128) :=
  C93_adaptive_secrecy_long_tags start hs B q v limit 4
    ⟨hB.writes, fun log a h => ⟨(hB.offers log a h).1, (hB.offers log a h).2.1, fun _ _ _ _ _ h => tag_four h⟩⟩ hl (by decide) n D

/-- **C93** A tester who only has frames written. -/
theorem C93_chosen_payloads [Finite κ] (start : List (Sender κ)) (hs : Fresh start) (B : Tester κ σ)
    (q : Nat) (hB : Fair B q 0 0 0) (n : Nat) (D : List (Glimpse κ σ) → Prop) :
    ApartAtMost (fun e => D (glimpses e start false B n)) (fun e => D (glimpses e start true B n))
      (324 * q ^ 2) (2 ^ 128) := by
  have := C93_adaptive_secrecy start hs B q 0 0 hB (by decide) n D
  simpa using this

end

/-! ## Witness -/

/-- A tester who has the sample sender send one of two octets, then the last octet that went over the air or a zero;
and who delivers the second frame. -/
def sampleTester : Tester (Fin 16) DeviceDescriptor := fun log =>
  match log with
  | [] => some (.write 0 (sampleWrite [1]) (sampleWrite [2]))
  | [.sent o] => some (.write 0 (sampleWrite [(o.getD []).getLastD 0]) (sampleWrite [0]))
  | [.sent _, .sent o] => some (.offer ⟨sampleCfg, ⟨.none, some sampleKeyedReceiver⟩, sampleLookup, ⟨3, false⟩, (o.getD []).take 127⟩)
  | _ => none

theorem sampleWrite_alike (a b : UInt8) : Alike (sampleWrite [a]) (sampleWrite [b]) :=
  ⟨rfl, rfl, rfl, rfl, rfl, .inr ⟨rfl, _, rfl, by simp [EncMic]⟩⟩

theorem sampleTester_fair : Fair sampleTester 2 1 127 0 := by
  constructor
  · intro log i l r h
    unfold sampleTester at h
    split at h <;> simp only [Option.some.injEq, Choice.write.injEq, reduceCtorEq] at h
    all_goals
      obtain ⟨_, rfl, rfl⟩ := h
      exact ⟨by simp, trivial, sampleWrite_alike _ _⟩
  · intro log a h
    unfold sampleTester at h
    split at h <;> simp only [Option.some.injEq, Choice.offer.injEq, reduceCtorEq] at h
    subst h
    exact ⟨by simp, by simp only [List.length_take]; omega, fun _ _ _ _ _ _ => Nat.zero_le _⟩

/-- What the tester gets of a frame: the octet after the header. -/
def bodyOctet : Glimpse (Fin 16) DeviceDescriptor → Option UInt8
  | .sent (some o) => o[o.length - 5]?
  | .sent none => none
  | .answered _ => none

/-- The length of the payload revealed. -/
def revealed : Glimpse (Fin 16) DeviceDescriptor → Option Nat
  | .answered (.ok (_, n, _), _) => some n
  | _ => none

/-- Witness for C93: the tester meets the conditions; under one cipher what he gets differs from side to side, and on
both sides the second frame is accepted. -/
example :
    Fresh sampleStart ∧ Fair sampleTester 2 1 127 0 ∧
    (glimpses toyKeyed sampleStart false sampleTester 3).map bodyOctet ≠
      (glimpses toyKeyed sampleStart true sampleTester 3).map bodyOctet ∧
    (glimpses toyKeyed sampleStart false sampleTester 3).map revealed = [none, none, some 1] ∧
    (glimpses toyKeyed sampleStart true sampleTester 3).map revealed = [none, none, some 1] := by
  refine ⟨sampleStart_fresh, sampleTester_fair, by decide +kernel, by decide +kernel, by decide +kernel⟩

end Verif
