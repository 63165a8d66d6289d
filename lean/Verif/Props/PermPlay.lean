import Verif.Props.Permute
import Verif.Props.Trial

/-!
# C94 The chances when the cipher is a permutation under every key
-/

namespace Verif

open Spec Rfc3610

section
variable {κ σ : Type}

/-! ## The points a play depends on -/

/-- The points the protection of a message with up to `c` counter blocks depends on. -/
noncomputable def messagePoints (c : Nat) (e : BlockCipher κ) (m : Msg κ) : List (κ × Block) :=
  targetsOf c m ++ (macInputs (e m.1) m.2.1 m.2.2.1 m.2.2.2).map fun b => (m.1, b)

theorem message_counter {c : Nat} {e : BlockCipher κ} {m : Msg κ} {i : Nat} (h : i < c) :
    (m.1, counterBlock m.2.2.1 i) ∈ messagePoints c e m := by
  unfold messagePoints targetsOf
  rw [List.mem_append, List.mem_map]
  exact .inl ⟨i, List.mem_range.2 h, rfl⟩

theorem message_mac {c : Nat} {e : BlockCipher κ} {m : Msg κ} {b : Block} (h : b ∈ macInputs (e m.1) m.2.1 m.2.2.1 m.2.2.2) :
    (m.1, b) ∈ messagePoints c e m := by
  unfold messagePoints
  rw [List.mem_append, List.mem_map]
  exact .inr ⟨b, h, rfl⟩

theorem message_points {c : Nat} {e e' : BlockCipher κ} {m : Msg κ}
    (h : ∀ a ∈ messagePoints c e m, e' a.1 a.2 = e a.1 a.2) : messagePoints c e' m = messagePoints c e m := by
  unfold messagePoints
  congr 2
  exact (chain_congr (e m.1) (e' m.1) _ _ (fun b hb => h _ (message_mac hb))).1

theorem message_protected {c : Nat} {e e' : BlockCipher κ} {m : Msg κ} (hc : m.2.2.2.length + 15 < 16 * c)
    (h : ∀ a ∈ messagePoints c e m, e' a.1 a.2 = e a.1 a.2) :
    protected_ (e' m.1) m.2.1 m.2.2.1 m.2.2.2 = protected_ (e m.1) m.2.1 m.2.2.1 m.2.2.2 := by
  have hv : ∀ i, i < c → e' m.1 (counterBlock m.2.2.1 i) = e m.1 (counterBlock m.2.2.1 i) := fun i hi => h _ (message_counter hi)
  apply Prod.ext
  · unfold protected_
    split
    · rfl
    · exact encrypted_congr _ _ _ _ (fun t ht => hv _ (by omega))
  · rw [Job.authValue_at, Job.authValue_at]
    have := (chain_congr (e m.1) (e' m.1) _ _ (fun b hb => h _ (message_mac (c := c) hb))).2
    unfold chained
    rw [this, hv 0 (by omega)]

theorem chainInputs_size (E : Block → Block) (bs : List Block) : ∀ x, (chainInputs E x bs).length = bs.length := by
  induction bs with
  | nil => intro x; rfl
  | cons b bs ih => intro x; simp [chainInputs, ih]

theorem message_size {c : Nat} {e : BlockCipher κ} {m : Msg κ} (hc : m.2.2.2.length + 33 ≤ 16 * c + 15) (hl : m.2.2.2.length < 65280) :
    (messagePoints c e m).length ≤ 2 * c := by
  unfold messagePoints targetsOf macInputs
  rw [List.length_append, List.length_map, List.length_map, List.length_range, chainInputs_size]
  have := authenticatedAt_length m.2.1 m.2.2.1 m.2.2.2 hl
  omega

/-- The points the frames sent depend on. -/
noncomputable def writePoints (e : BlockCipher κ) (net : List (Sender κ)) : List (κ × Block) :=
  (sentList net).flatMap (messagePoints 9 e)

variable {net net' : List (Sender κ)}

theorem write_points {e e' : BlockCipher κ} (h : ∀ a ∈ writePoints e net, e' a.1 a.2 = e a.1 a.2) :
    writePoints e' net = writePoints e net := by
  unfold writePoints at *
  rw [List.flatMap_def, List.flatMap_def]
  congr 1
  apply List.map_congr_left
  intro m hm
  exact message_points (fun a ha => h a (List.mem_flatMap.2 ⟨m, hm, ha⟩))

theorem write_points_mono (hn : Fleet net) (hn' : Fleet net') (h : SubNet net net') {e : BlockCipher κ} {a : κ × Block}
    (ha : a ∈ writePoints e net) : a ∈ writePoints e net' := by
  unfold writePoints at *
  rw [List.mem_flatMap] at *
  obtain ⟨m, h1, h2⟩ := ha
  exact ⟨m, sentList_mono hn hn' h h1, h2⟩

theorem write_size (hn : Fleet net) (e : BlockCipher κ) : (writePoints e net).length ≤ 18 * writes net := by
  unfold writePoints
  have hp : ∀ m ∈ sentList net, (messagePoints 9 e m).length ≤ 18 := by
    intro m hm
    have := sent_props hn ((mem_sentList hn unimplementedCipher m).1 hm)
    exact message_size (by omega) (by omega)
  have := sentList_length net
  refine Nat.le_trans ?_ (Nat.mul_le_mul_left 18 this)
  generalize sentList net = l at hp
  induction l with
  | nil => simp
  | cons m l ih =>
    have h1 := hp m (List.mem_cons_self ..)
    have h2 := ih (fun m hm => hp m (List.mem_cons_of_mem _ hm))
    rw [List.flatMap_cons, List.length_append, List.length_cons]
    omega

theorem observed_agree (hn : Fleet net) {e e' : BlockCipher κ} (h : ∀ a ∈ writePoints e net, e' a.1 a.2 = e a.1 a.2) :
    observed e' net = observed e net := by
  apply observed_of_jobs unimplementedCipher _ _ hn (alike_fleets_refl net)
  rintro j ⟨i, s, s', h1, h2, p, c', hs, hg2, hp⟩
  rw [h1] at h2
  obtain rfl := Option.some.inj h2
  have hpp : j.payload' = j.payload := by
    obtain ⟨_, call, _, _, h3, _, _, _, _, _, h8⟩ := hs
    rw [hg2] at h3
    obtain rfl := Option.some.inj h3
    rw [hp, h8]
  have hm : ((j.key, j.level, j.nonce, j.payload) : Msg κ) ∈ sentList net :=
    (mem_sentList hn unimplementedCipher _).2 ⟨s, List.mem_of_getElem? h1, p, hs⟩
  have hprops := sent_props hn ((mem_sentList hn unimplementedCipher _).1 hm)
  simp only at hprops
  rw [hpp]
  exact message_protected (c := 9) (m := (j.key, j.level, j.nonce, j.payload)) (by simp only; omega)
    (fun a ha => h a (List.mem_flatMap.2 ⟨_, hm, ha⟩))

/-- The points an answer depends on. -/
noncomputable def offerPoints (limit : Nat) (e : BlockCipher κ) (a : Offer κ σ) : List (κ × Block) :=
  match headerGuess a.cfg a.ctx a.slice with
  | some g => messagePoints ((limit + 33) / 16) e (g.msg e)
  | none => []

theorem guess_message {limit : Nat} {e e' : BlockCipher κ} {g : Guess κ} (hl : g.body.length ≤ limit)
    (h : ∀ a ∈ messagePoints ((limit + 33) / 16) e (g.msg e), e' a.1 a.2 = e a.1 a.2) : g.msg e' = g.msg e := by
  unfold Guess.msg
  rw [unmasked_congr (e g.key) (e' g.key) g.level g.nonce g.body (fun t ht =>
    h (g.key, _) (message_counter (m := g.msg e) (by omega)))]

theorem guess_points {limit : Nat} {e e' : BlockCipher κ} {g : Guess κ} (hl : g.body.length ≤ limit)
    (h : ∀ a ∈ messagePoints ((limit + 33) / 16) e (g.msg e), e' a.1 a.2 = e a.1 a.2) :
    messagePoints ((limit + 33) / 16) e' (g.msg e') = messagePoints ((limit + 33) / 16) e (g.msg e) := by
  rw [guess_message hl h, message_points h]

theorem guess_unprotect {limit : Nat} {e e' : BlockCipher κ} {g : Guess κ} (hb : g.body.length ≤ limit) (hl : limit < 65280)
    (ht : g.tag.length = tagLength g.level)
    (h : ∀ a ∈ messagePoints ((limit + 33) / 16) e (g.msg e), e' a.1 a.2 = e a.1 a.2) {p : List UInt8}
    (hu : unprotect (Ccm.aead e) g.level g.key g.nonce g.body g.tag = some p) :
    unprotect (Ccm.aead e') g.level g.key g.nonce g.body g.tag = some p := by
  obtain ⟨h1, h2, h3, h4⟩ := unprotect_ccm e g.level g.key g.nonce g.body g.tag p g.nonce_length ht hu
  have hm : g.msg e = (g.key, g.level, g.nonce, p) := by unfold Guess.msg; rw [h2]
  have hp : p.length = g.body.length := by rw [h2, unmasked_length]
  apply unprotect_protect (C50_ccm_laws e')
  rw [protect_rfc e' g.level h1 g.key g.nonce p g.nonce_length (fun _ => by omega)]
  rw [hm] at h
  have := message_protected (m := (g.key, g.level, g.nonce, p)) (by simp only; omega) h
  simp only at this
  rw [this]
  exact congrArg some (Prod.ext h3.symm h4.symm)

theorem offer_points {limit : Nat} {e e' : BlockCipher κ} {a : Offer κ σ} (hl : a.slice.length ≤ limit)
    (h : ∀ x ∈ offerPoints limit e a, e' x.1 x.2 = e x.1 x.2) : offerPoints limit e' a = offerPoints limit e a := by
  unfold offerPoints at *
  cases hg : headerGuess a.cfg a.ctx a.slice with
  | none => rfl
  | some g =>
    rw [hg] at h
    exact guess_points (Nat.le_trans (headerGuess_short _ _ _ g hg) hl) h

theorem answer_agree {limit : Nat} {e e' : BlockCipher κ} {a : Offer κ σ} (hl : a.slice.length ≤ limit) (hl' : limit < 65280)
    (h : ∀ x ∈ offerPoints limit e a, e' x.1 x.2 = e x.1 x.2) : answer e' a = answer e a := by
  unfold answer
  apply receive_congr
  intro g hg ht
  unfold offerPoints at h
  rw [hg] at h
  simp only at h
  have hb := Nat.le_trans (headerGuess_short _ _ _ g hg) hl
  have h' : ∀ x ∈ messagePoints ((limit + 33) / 16) e' (g.msg e'), e x.1 x.2 = e' x.1 x.2 := by
    rw [guess_points hb h]
    exact fun x hx => (h x hx).symm
  have hu : unprotect (Ccm.aead e') g.level g.key g.nonce g.body g.tag = unprotect (Ccm.aead e) g.level g.key g.nonce g.body g.tag :=
    Option.ext (fun p => ⟨guess_unprotect hb hl' ht h', guess_unprotect hb hl' ht h⟩)
  refine ⟨hu, ?_⟩
  cases hx : unprotect (Ccm.aead e) g.level g.key g.nonce g.body g.tag with
  | some p => rw [unprotect_area hx, unprotect_area (hu.trans hx)]
  | none => rw [checkArea_failed e _ _ _ _ _ (by omega) hx, checkArea_failed e' _ _ _ _ _ (by omega) (hu.trans hx)]

theorem offer_size {limit : Nat} {e : BlockCipher κ} {a : Offer κ σ} (hl : a.slice.length ≤ limit) (hl' : limit < 65280) :
    (offerPoints limit e a).length ≤ 2 * ((limit + 33) / 16) := by
  unfold offerPoints
  split
  · rename_i g hg
    have hb := Nat.le_trans (headerGuess_short _ _ _ g hg) hl
    have : (g.msg e).2.2.2.length = g.body.length := unmasked_length _ _ _ _
    exact message_size (by omega) (by omega)
  · simp

noncomputable def sightPoints (limit : Nat) (e : BlockCipher κ) : Sight κ σ → List (κ × Block)
  | .sent _ _ _ => []
  | .answered a _ => offerPoints limit e a

open Classical in
/-- The points the first steps of a play depend on. -/
noncomputable def playPoints (start : List (Sender κ)) (A : Attacker κ σ) (limit n : Nat) (e : BlockCipher κ) : Finset (κ × Block) :=
  (writePoints e (play e start A n).net ++ (play e start A n).log.flatMap (sightPoints limit e)).toFinset

variable {start : List (Sender κ)} {A : Attacker κ σ} {q v limit : Nat}

theorem play_prefix (e : BlockCipher κ) {t n : Nat} (h : t ≤ n) : (play e start A t).log <+: (play e start A n).log := by
  obtain ⟨d, rfl⟩ := Nat.le.dest h
  clear h
  induction d with
  | zero => exact List.prefix_refl _
  | succ d ih =>
    refine ih.trans ?_
    rw [← Nat.add_assoc]
    conv => rhs; unfold play
    simp only
    split
    · exact List.prefix_refl _
    · exact List.prefix_append _ _
    · exact List.prefix_append _ _

theorem play_answered (hA : Limited A q v limit) (e : BlockCipher κ) (n : Nat) (a : Offer κ σ) (x : Answer κ σ)
    (h : Sight.answered a x ∈ (play e start A n).log) : a.slice.length ≤ limit := by
  induction n with
  | zero => cases h
  | succ n ih =>
    unfold play at h
    simp only at h
    split at h
    · exact ih h
    · rw [List.mem_append] at h
      rcases h with h | h
      · exact ih h
      · simp at h
    · rename_i b hb
      rw [List.mem_append] at h
      rcases h with h | h
      · exact ih h
      · simp only [List.mem_singleton, Sight.answered.injEq] at h
        obtain ⟨rfl, _⟩ := h
        exact (hA.offers _ _ hb).2

theorem play_writes (hs : Fresh start) (hA : Limited A q v limit) (e : BlockCipher κ) (n : Nat) :
    writes (play e start A n).net ≤ sentCount (play e start A n).log ∧ sentCount (play e start A n).log ≤ q ∧
    answerCount (play e start A n).log ≤ v := by
  induction n with
  | zero => exact script_writes (O := fun _ _ _ => none) hs hA 0
  | succ n ih =>
    unfold play
    simp only
    split
    · exact ih
    · rename_i i call h
      have := (hA.writes _ _ _ h).1
      have := writes_wrote i call (play e start A n).net
      simp only [sentCount, answerCount, List.countP_append, List.countP_singleton] at *
      simp at *
      omega
    · rename_i a h
      have := (hA.offers _ _ h).1
      simp only [sentCount, answerCount, List.countP_append, List.countP_singleton] at *
      simp at *
      omega

theorem play_stays (e : BlockCipher κ) {n : Nat} (h : A (play e start A n).log = none) (d : Nat) :
    play e start A (n + d) = play e start A n := by
  induction d with
  | zero => rfl
  | succ d ih =>
    rw [← Nat.add_assoc]
    conv => lhs; unfold play
    simp only [ih, h]

theorem play_length (e : BlockCipher κ) {n : Nat} (h : A (play e start A n).log ≠ none) :
    n = sentCount (play e start A n).log + answerCount (play e start A n).log := by
  induction n with
  | zero => rfl
  | succ n ih =>
    have hn : A (play e start A n).log ≠ none := by
      intro hn
      rw [play_stays e hn 1] at h
      exact h hn
    have ih := ih hn
    unfold play
    simp only
    split
    · rename_i h0; exact absurd h0 hn
    all_goals
      simp only [sentCount, answerCount, List.countP_append, List.countP_singleton] at *
      simp at *
      omega

/-- A play is over after as many steps as it may have. -/
theorem play_over (hs : Fresh start) (hA : Limited A q v limit) (e : BlockCipher κ) (n : Nat) (hn : q + v ≤ n) :
    play e start A n = play e start A (q + v) := by
  obtain ⟨d, rfl⟩ := Nat.le.dest hn
  apply play_stays
  apply Classical.byContradiction
  intro h
  have h1 := play_length e h
  have h2 := play_writes hs hA e (q + v)
  cases hm : A (play e start A (q + v)).log with
  | none => exact h hm
  | some m =>
    cases m with
    | write i c => have := (hA.writes _ _ _ hm).1; omega
    | offer a => have := (hA.offers _ _ hm).1; omega

open Classical in
theorem play_size (hs : Fresh start) (hA : Limited A q v limit) (hl : limit < 65280) (n : Nat) (e : BlockCipher κ) :
    (playPoints start A limit n e).card ≤ 18 * q + 2 * v * ((limit + 33) / 16) := by
  unfold playPoints
  refine Nat.le_trans (List.toFinset_card_le _) ?_
  rw [List.length_append]
  have h1 := write_size (play_fleet hs hA e n) e
  have h2 := play_writes hs hA e n
  have h3 : ((play e start A n).log.flatMap (sightPoints limit e)).length ≤
      answerCount (play e start A n).log * (2 * ((limit + 33) / 16)) := by
    have hx := fun a x => play_answered (start := start) hA e n a x
    generalize (play e start A n).log = log at hx
    clear h1 h2
    induction log with
    | nil => simp
    | cons x log ih =>
      have ih := ih (fun a x h => hx a x (List.mem_cons_of_mem _ h))
      rw [List.flatMap_cons, List.length_append]
      cases x with
      | sent i c o => simpa [sightPoints, answerCount] using ih
      | answered a x =>
        have := offer_size (e := e) (hx a x (List.mem_cons_self ..)) hl
        simp only [sightPoints, answerCount, List.countP_cons_of_pos] at ih ⊢
        rw [Nat.add_mul]
        omega
  have h4 : answerCount (play e start A n).log * (2 * ((limit + 33) / 16)) ≤ 2 * v * ((limit + 33) / 16) := by
    rw [Nat.mul_comm 2 v, Nat.mul_assoc]
    exact Nat.mul_le_mul_right _ h2.2.2
  omega

open Classical in
theorem play_agree (hs : Fresh start) (hA : Limited A q v limit) (hl : limit < 65280) (n : Nat) {e e' : BlockCipher κ}
    (h : Agree (playPoints start A limit n e) e e') : ∀ t, t ≤ n → play e' start A t = play e start A t := by
  have h0 : ∀ a ∈ writePoints e (play e start A n).net, e' a.1 a.2 = e a.1 a.2 := fun a ha => h a (by
    unfold playPoints
    rw [List.mem_toFinset, List.mem_append]
    exact .inl ha)
  have h1 : ∀ x ∈ (play e start A n).log, ∀ a ∈ sightPoints limit e x, e' a.1 a.2 = e a.1 a.2 := fun x hx a ha => h a (by
    unfold playPoints
    rw [List.mem_toFinset, List.mem_append]
    exact .inr (List.mem_flatMap.2 ⟨x, hx, ha⟩))
  intro t
  induction t with
  | zero => intro _; rfl
  | succ t ih =>
    intro ht
    have ih := ih (by omega)
    have hsub : SubNet (play e start A (t + 1)).net (play e start A n).net := by
      have := play_sub (start := start) (A := A) e (t + 1) (n - (t + 1))
      rwa [show t + 1 + (n - (t + 1)) = n by omega] at this
    have hobs := observed_agree (play_fleet hs hA e (t + 1)) (fun a ha =>
      h0 a (write_points_mono (play_fleet hs hA e (t + 1)) (play_fleet hs hA e n) hsub ha))
    have hpre := play_prefix (start := start) (A := A) e ht
    conv => lhs; unfold play
    conv => rhs; unfold play
    rw [ih]
    conv at hobs => lhs; unfold play
    conv at hobs => rhs; unfold play
    conv at hpre => lhs; unfold play
    simp only at hobs hpre ⊢
    split <;> rename_i hm <;> simp only [hm] at hobs hpre
    · rfl
    · rw [hobs]
    · rename_i a
      rw [answer_agree (hA.offers _ _ hm).2 hl (h1 (.answered a (answer e a)) (hpre.subset (by simp)))]

open Classical in
theorem play_points (hs : Fresh start) (hA : Limited A q v limit) (hl : limit < 65280) (n : Nat) {e e' : BlockCipher κ}
    (h : Agree (playPoints start A limit n e) e e') : playPoints start A limit n e' = playPoints start A limit n e := by
  have h0 := play_agree hs hA hl n h n (Nat.le_refl _)
  unfold Agree playPoints at *
  rw [h0]
  simp only [List.mem_toFinset, List.mem_append] at h
  rw [write_points (fun a ha => h a (.inl ha))]
  congr 2
  rw [List.flatMap_def, List.flatMap_def]
  congr 1
  apply List.map_congr_left
  intro x hx
  cases x with
  | sent => rfl
  | answered a x =>
    exact offer_points (play_answered hA e n a x hx) (fun b hb => h b (.inr (List.mem_flatMap.2 ⟨_, hx, hb⟩)))

/-- What the first steps of a play settle is settled at few points. -/
theorem play_settles (hs : Fresh start) (hA : Limited A q v limit) (hl : limit < 65280) (n : Nat) {P : BlockCipher κ → Prop}
    (hP : ∀ e e', (∀ t, t ≤ n → play e' start A t = play e start A t) → P e → P e') : Settles P (playPoints start A limit n) := by
  refine ⟨fun e e' h => play_points hs hA hl n h, fun e e' h => ?_⟩
  have h' := play_agree hs hA hl n h
  exact ⟨hP e e' h', hP e' e (fun t ht => (h' t ht).symm)⟩

/-! ## What is settled -/

theorem forges_early (hs : Fresh start) (hA : Limited A q v limit) {e : BlockCipher κ} {n : Nat} {a : Offer κ σ}
    (h : A (play e start A n).log = some (.offer a)) : n < q + v := by
  have h1 := play_length e (n := n) (start := start) (A := A) (by rw [h]; simp)
  have h2 := play_writes hs hA e n
  have := (hA.offers _ _ h).1
  omega

theorem play_answer {e : BlockCipher κ} {n : Nat} {a : Offer κ σ} (h : A (play e start A n).log = some (.offer a)) :
    (play e start A (n + 1)).log = (play e start A n).log ++ [.answered a (answer e a)] := by
  conv => lhs; unfold play
  simp only [h]

theorem forges_settled (hs : Fresh start) (hA : Limited A q v limit) (M : Nat) (e e' : BlockCipher κ)
    (h : ∀ t, t ≤ q + v → play e' start A t = play e start A t) (hf : PlayForges e start A M) : PlayForges e' start A M := by
  obtain ⟨n, a, h1, h2⟩ := hf
  have hn := forges_early hs hA h1
  have h0 := h n (by omega)
  have h3 := h (n + 1) hn
  have h1' : A (play e' start A n).log = some (.offer a) := by rw [h0]; exact h1
  have hans : answer e' a = answer e a := by
    have g := congrArg Play.log h3
    rw [play_answer h1', play_answer h1, h0] at g
    have := List.append_cancel_left g
    simp only [List.cons.injEq, Sight.answered.injEq, true_and, and_true] at this
    exact this
  refine ⟨n, a, h1', ?_⟩
  rw [h0]
  obtain ⟨f, k, rc, x, g1, g2, g3, g4, g5, g6⟩ := h2
  exact ⟨f, k, rc, x, by rw [hans]; exact g1, g2, g3, g4, g5, fun hsent => g6 (sent_indep (play_fleet hs hA e n) e e' hsent)⟩

theorem sentBy_indep (cfg : Cfg) (e e' : BlockCipher κ) (calls : List WriteCall) : ∀ (sc : SecCtx κ),
    (∀ c ∈ calls, ContentFromApi c.frame.content) →
    sentBy cfg (Ccm.aead e') sc calls = sentBy cfg (Ccm.aead e) sc calls := by
  induction calls with
  | nil => intro sc _; rfl
  | cons c calls ih =>
    intro sc hc
    have h := alike_step cfg e e' sc c c (hc c (List.mem_cons_self ..)) (alike_refl c)
    unfold sentBy
    have h1 : sentByCall cfg (Ccm.aead e') sc c = sentByCall cfg (Ccm.aead e) sc c := by
      unfold sentByCall; rw [h.1]
    have h2 : contextAfterCall cfg (Ccm.aead e') sc c = contextAfterCall cfg (Ccm.aead e) sc c := by
      unfold contextAfterCall; rw [h.2]
    rw [h1, h2, ih _ (fun c hm => hc c (List.mem_cons_of_mem _ hm))]

/-- **C94** The chance, when the cipher is a permutation under every key, that an attacker who chooses, step by step,
what the devices send and what the receivers get gets a slice accepted that nobody has sent up to then, when all slices
he offers are at levels with tags of at least `M` octets. -/
theorem C94_permutation_forgeries_long_tags [Finite κ] (start : List (Sender κ)) (hs : Fresh start) (A : Attacker κ σ)
    (q v limit : Nat) (hA : Limited A q v limit) (hl : limit < 65280) (M : Nat) (hM : M ≤ 16)
    (htags : ∀ log a, A log = some (.offer a) → TagAtLeast M a) :
    PermChanceAtMost (fun e => PlayForges e start A M)
      (2 * (v * (2 ^ (128 - 8 * M) + 4 * (9 * q + (limit + 33) / 16) ^ 2)))
      (2 ^ 129 - (18 * q + 2 * v * ((limit + 33) / 16)) ^ 2) :=
  perm_chance (play_settles hs hA hl (q + v) (forges_settled hs hA M)) _ (play_size hs hA hl (q + v))
    (C91_adaptive_long_tags start hs A q v limit hA hl M hM htags)

/-- **C94** The same at any levels. -/
theorem C94_permutation_forgeries [Finite κ] (start : List (Sender κ)) (hs : Fresh start) (A : Attacker κ σ)
    (q v limit : Nat) (hA : Limited A q v limit) (hl : limit < 65280) :
    PermChanceAtMost (fun e => PlayForges e start A 0)
      (2 * (v * (2 ^ 96 + 4 * (9 * q + (limit + 33) / 16) ^ 2)))
      (2 ^ 129 - (18 * q + 2 * v * ((limit + 33) / 16)) ^ 2) :=
  perm_chance (play_settles hs hA hl (q + v) (forges_settled hs hA 0)) _ (play_size hs hA hl (q + v))
    (C91_adaptive_forgeries start hs A q v limit hA hl)

/-- **C94** The chance, when the cipher is a permutation under every key, that at some step what a receiver has
delivered as coming from a device is not a part, in order and without repetition, of what that device has sent up to
then, when an attacker controls the network. -/
theorem C94_permutation_channel [Finite κ] {ι : Type} [DecidableEq ι] (start : List (Sender κ)) (hs : Fresh start)
    (d : Nat) (sender : Sender κ) (hd : start[d]? = some sender) (rcfg : Cfg) (lookup : DevLookup σ)
    (table : DeviceTable ι lookup) (i : ι) (dev : σ) (mine : Offer κ σ → Bool) (A : Attacker κ σ) (q v limit : Nat)
    (hA : Limited A q v limit) (hm : MadeTo A mine rcfg table i dev sender.context.euid) (hl : limit < 65280) :
    PermChanceAtMost (fun e => ∃ n s, (play e start A n).net[d]? = some s ∧
        ¬ List.Sublist (deliveredIn mine table.identify i (play e start A n).log)
          (sentBy s.cfg (Ccm.aead e) s.context s.calls))
      (2 * (v * (2 ^ 96 + 4 * (9 * q + (limit + 33) / 16) ^ 2)))
      (2 ^ 129 - (18 * q + 2 * v * ((limit + 33) / 16)) ^ 2) := by
  refine perm_chance (play_settles hs hA hl (q + v) ?_) _ (play_size hs hA hl (q + v))
    (C92_adaptive_channel start hs d sender hd rcfg lookup table i dev mine A q v limit hA hm hl)
  rintro e e' h ⟨n, s, h1, h2⟩
  have hsame : play e' start A n = play e start A n := by
    by_cases hn : n ≤ q + v
    · exact h n hn
    · rw [play_over hs hA e n (by omega), play_over hs hA e' n (by omega)]
      exact h _ (Nat.le_refl _)
  refine ⟨n, s, ?_⟩
  rw [hsame, sentBy_indep s.cfg e e' s.calls s.context ((play_fleet hs hA e n).api s (List.mem_of_getElem? h1))]
  exact ⟨h1, h2⟩

/-- **C94** When the cipher is a permutation under every key, whatever a tester concludes, he concludes with almost the
same chance whichever of the two payloads of each of his choices the devices were given. -/
theorem C94_permutation_secrecy_long_tags [Finite κ] (start : List (Sender κ)) (hs : Fresh start) (B : Tester κ σ)
    (q v limit M : Nat) (hB : Fair B q v limit M) (hl : limit < 65280) (hM : M ≤ 16) (n : Nat)
    (D : List (Glimpse κ σ) → Prop) :
    PermApartAtMost (fun e => D (glimpses e start false B n)) (fun e => D (glimpses e start true B n))
      (2 * (324 * q ^ 2 + 2 * (v * (2 ^ (128 - 8 * M) + 4 * (9 * q + (limit + 33) / 16) ^ 2))) +
        (18 * q + 2 * v * ((limit + 33) / 16)) ^ 2)
      (2 ^ 129 - (18 * q + 2 * v * ((limit + 33) / 16)) ^ 2) :=
  perm_apart
    (play_settles hs (plays_limited hB false) hl n (fun e e' h hD => by
      unfold glimpses at *; rw [h n (Nat.le_refl _)]; exact hD))
    (play_settles hs (plays_limited hB true) hl n (fun e e' h hD => by
      unfold glimpses at *; rw [h n (Nat.le_refl _)]; exact hD))
    _ (play_size hs (plays_limited hB false) hl n) (play_size hs (plays_limited hB true) hl n)
    (C93_adaptive_secrecy_long_tags start hs B q v limit M hB hl hM n D)

/-- **C94** The same at any levels. -/
theorem C94_permutation_secrecy [Finite κ] (start : List (Sender κ)) (hs : Fresh start) (B : Tester κ σ)
    (q v limit : Nat) (hB : Fair B q v limit 0) (hl : limit < 65280) (n : Nat) (D : List (Glimpse κ σ) → Prop) :
    PermApartAtMost (fun e => D (glimpses e start false B n)) (fun e => D (glimpses e start true B n))
      (2 * (324 * q ^ 2 + 2 * (v * (2 ^ 96 + 4 * (9 * q + (limit + 33) / 16) ^ 2))) +
        (18 * q + 2 * v * ((limit + 33) / 16)) ^ 2)
      (2 ^ 129 - (18 * q + 2 * v * ((limit + 33) / 16)) ^ 2) :=
  C94_permutation_secrecy_long_tags start hs B q v limit 4
    ⟨hB.writes, fun log a h => ⟨(hB.offers log a h).1, (hB.offers log a h).2.1, fun _ _ _ _ _ h => tag_four h⟩⟩ hl (by decide) n D

end

/-! ## Witness -/

/-- Adds the key to every octet. -/
def addKey : BlockCipher (Fin 16) := fun k b => b.map (· + UInt8.ofNat k.val)

/-- Witness for C94: the sample attacker and tester meet the conditions; there are permutations, under one of which
the receiver delivers a frame and the second frame depends on the first; and the bounds are small. -/
example :
    Permutes addKey ∧ 0 < howMany (Permutes (κ := Fin 16)) ∧
    Fresh sampleStart ∧ Limited sampleAttacker 2 2 127 ∧ Fair sampleTester 2 1 127 0 ∧
    deliveredIn (fun _ => true) sampleTable.identify () (play addKey sampleStart sampleAttacker 4).log ≠ [] ∧
    2 * (2 * (2 ^ 96 + 4 * (9 * 2 + (127 + 33) / 16) ^ 2)) * 2 ^ 30 < 2 ^ 129 - (18 * 2 + 2 * 2 * ((127 + 33) / 16)) ^ 2 := by
  have hp : Permutes addKey := by
    intro k
    constructor
    · intro a b h
      ext i hi
      have := congrArg (fun v : Vector UInt8 16 => v[i]) h
      simp only [addKey, Vector.getElem_map] at this
      exact congrArg UInt8.toNat (by simpa using this)
    · intro b
      refine ⟨b.map (· - UInt8.ofNat k.val), ?_⟩
      ext i hi
      simp only [addKey, Vector.getElem_map]
      rw [UInt8.sub_add_cancel]
  refine ⟨hp, ?_, sampleStart_fresh, sampleAttacker_limited, sampleTester_fair, by decide +kernel, by decide⟩
  unfold howMany
  exact (Set.ncard_pos (Set.toFinite _)).2 ⟨addKey, hp⟩

end Verif
