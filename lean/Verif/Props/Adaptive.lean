import Verif.Props.Interactive
import Verif.Spec.PlaySpec

/-!
# C91, C92 Attackers who also choose, step by step, what is sent
-/

namespace Verif

open Spec Rfc3610

/-! ## Devices that have written more -/

/-- The same devices, with further writes. -/
def SubNet {κ : Type} (net net' : List (Sender κ)) : Prop :=
  net'.length = net.length ∧ ∀ (i : Nat) s s', net[i]? = some s → net'[i]? = some s' →
    s'.cfg = s.cfg ∧ s'.context = s.context ∧ s.calls <+: s'.calls

section
variable {κ : Type} {net net' : List (Sender κ)}

theorem SubNet.refl (net : List (Sender κ)) : SubNet net net :=
  ⟨rfl, fun i s s' h h' => by rw [h] at h'; cases h'; exact ⟨rfl, rfl, List.prefix_refl _⟩⟩

theorem SubNet.trans {net'' : List (Sender κ)} (h : SubNet net net') (h' : SubNet net' net'') : SubNet net net'' := by
  refine ⟨h'.1.trans h.1, fun i s s'' hs hs'' => ?_⟩
  obtain ⟨hi, _⟩ := List.getElem?_eq_some_iff.1 hs
  have hi' : i < net'.length := by rw [h.1]; exact hi
  obtain ⟨a1, a2, a3⟩ := h.2 i s _ hs (List.getElem?_eq_getElem hi')
  obtain ⟨b1, b2, b3⟩ := h'.2 i _ s'' (List.getElem?_eq_getElem hi') hs''
  exact ⟨b1.trans a1, b2.trans a2, a3.trans b3⟩

theorem SubNet.wrote (net : List (Sender κ)) (i : Nat) (call : WriteCall) : SubNet net (wrote net i call) := by
  refine ⟨by unfold Spec.wrote; simp, fun j s s' h h' => ?_⟩
  unfold Spec.wrote at h'
  rw [List.getElem?_modify, h] at h'
  simp only [Option.map_eq_map, Option.map_some, Option.some.injEq] at h'
  subst h'
  split
  · exact ⟨rfl, rfl, List.prefix_append _ _⟩
  · exact ⟨rfl, rfl, List.prefix_refl _⟩

theorem SubNet.get (h : SubNet net net') {i : Nat} {s : Sender κ} (hs : net[i]? = some s) :
    ∃ s', net'[i]? = some s' ∧ s'.cfg = s.cfg ∧ s'.context = s.context ∧ s.calls <+: s'.calls := by
  obtain ⟨hi, _⟩ := List.getElem?_eq_some_iff.1 hs
  have hi' : i < net'.length := by rw [h.1]; exact hi
  exact ⟨_, List.getElem?_eq_getElem hi', h.2 i s _ hs (List.getElem?_eq_getElem hi')⟩

theorem prefix_get {calls calls' : List WriteCall} (h : calls <+: calls') {p : Nat} (hp : p < calls.length) :
    calls'[p]? = calls[p]? ∧ calls'.take p = calls.take p := by
  obtain ⟨t, rfl⟩ := h
  exact ⟨List.getElem?_append_left hp, by rw [List.take_append_of_le_length (Nat.le_of_lt hp)]⟩

theorem sends_prefix {cfg : Cfg} {e : BlockCipher κ} {sc : SecCtx κ} {calls calls' : List WriteCall} (h : calls <+: calls') {p : Nat}
    {key : κ} {level : SecurityLevel} {nonce payload : List UInt8} (hs : Sends cfg e sc calls p key level nonce payload) :
    Sends cfg e sc calls' p key level nonce payload := by
  obtain ⟨h1, call, aux, eui, h2, h3⟩ := hs
  obtain ⟨g1, g2⟩ := prefix_get h (List.getElem?_eq_some_iff.1 h2).1
  refine ⟨?_, call, aux, eui, g1.trans h2, ?_⟩
  · unfold onAir at *
    rw [g1, g2]
    exact h1
  · rw [g2]; exact h3

theorem sent_mono (h : SubNet net net') {e : BlockCipher κ} {key : κ} {level : SecurityLevel} {nonce payload : List UInt8}
    (hs : Sent e net key level nonce payload) : Sent e net' key level nonce payload := by
  obtain ⟨s, hs, p, hp⟩ := hs
  obtain ⟨i, hi⟩ := List.getElem?_of_mem hs
  obtain ⟨s', h1, h2, h3, h4⟩ := h.get hi
  refine ⟨s', List.mem_of_getElem? h1, p, ?_⟩
  rw [h2, h3]
  exact sends_prefix h4 hp

theorem noClash_mono (h : SubNet net net') {e : BlockCipher κ} (hg : NoClash e net') : NoClash e net :=
  fun _ _ _ _ _ _ _ hs hs' => hg _ _ _ _ _ _ _ (sent_mono h hs) (sent_mono h hs')

theorem sentList_mono (hn : Fleet net) (hn' : Fleet net') (h : SubNet net net') {m : Msg κ} (hm : m ∈ sentList net) :
    m ∈ sentList net' :=
  (mem_sentList hn' unimplementedCipher m).2 (sent_mono h ((mem_sentList hn unimplementedCipher m).1 hm))

theorem sentTargets_mono (hn : Fleet net) (hn' : Fleet net') (h : SubNet net net') {a : κ × Block} (ha : a ∈ sentTargets net) :
    a ∈ sentTargets net' := by
  unfold sentTargets at *
  rw [List.mem_flatMap] at *
  obtain ⟨m, h1, h2⟩ := ha
  exact ⟨m, sentList_mono hn hn' h h1, h2⟩

/-- What is seen of some frames does not depend on which others are mixed in. -/
theorem mixed_sub (hn : Fleet net) (hn' : Fleet net') (h : SubNet net net') (e : BlockCipher κ) (hg : NoClash e net') :
    observed (mixed net' e) net = observed (mixed net e) net := by
  have hg0 := noClash_mono h hg
  have refl : AlikeFleets net net := ⟨rfl, fun i s s' hs hs' => by
    rw [hs] at hs'; cases hs'; exact ⟨rfl, rfl, alike_histories_refl _⟩⟩
  apply observed_of_jobs unimplementedCipher _ _ hn refl
  rintro j ⟨i, s, s', h1, h2, p, c', hs, hg2, hp⟩
  rw [h1] at h2
  obtain rfl := Option.some.inj h2
  have hpp : j.payload' = j.payload := by
    obtain ⟨_, call, _, _, h3, _, _, _, _, _, h8⟩ := hs
    rw [hg2] at h3
    obtain rfl := Option.some.inj h3
    rw [hp, h8]
  have hm : ((j.key, j.level, j.nonce, j.payload) : Msg κ) ∈ sentList net :=
    (mem_sentList hn unimplementedCipher _).2 ⟨s, List.mem_of_getElem? h1, p, hs⟩
  have hm' := sentList_mono hn hn' h hm
  have hprops := sent_props hn ((mem_sentList hn unimplementedCipher _).1 hm)
  simp only at hprops
  rw [hpp]
  apply Prod.ext
  · unfold protected_
    split
    · rfl
    · simp only
      rw [encrypted_mixed hn _ _ _ _ hprops.1 (by omega), encrypted_mixed hn' _ _ _ _ hprops.1 (by omega)]
  · rw [Job.authValue_at, Job.authValue_at]
    have a1 := mixed_at hn e _ hm
    have a2 := mixed_at hn' e _ hm'
    have b1 := (mixed_mac hn e hg0 _ hm).2
    have b2 := (mixed_mac hn' e hg _ hm').2
    simp only [macOf] at a1 a2 b1 b2
    rw [a1, a2, b1, b2]

/-! ## Scripts -/

variable {σ : Type}

/-- A play in which what is seen is given by `O`, and no slice is a hit. -/
noncomputable def script (start : List (Sender κ)) (A : Attacker κ σ)
    (O : List (Sender κ) → Nat → Nat → Option (List UInt8)) : Nat → Play κ σ
  | 0 => ⟨start, []⟩
  | n + 1 =>
    let now := script start A O n
    match A now.log with
    | none => now
    | some (.write i call) =>
      ⟨wrote now.net i call, now.log ++ [.sent i call (O (wrote now.net i call) i (writesOf now.net i))]⟩
    | some (.offer a) => ⟨now.net, now.log ++ [.answered a (idealAnswer now.net (O now.net) a)]⟩

variable {M : Nat} {start : List (Sender κ)} {A : Attacker κ σ} {O O' : List (Sender κ) → Nat → Nat → Option (List UInt8)}

theorem script_sub_succ (n : Nat) : SubNet (script start A O n).net (script start A O (n + 1)).net := by
  conv => rhs; unfold script
  simp only
  split
  · exact SubNet.refl _
  · exact SubNet.wrote _ _ _
  · exact SubNet.refl _

theorem script_sub (t d : Nat) : SubNet (script start A O t).net (script start A O (t + d)).net := by
  induction d with
  | zero => exact SubNet.refl _
  | succ d ih => exact ih.trans (script_sub_succ (t + d))

theorem script_sub_le {t n : Nat} (h : t ≤ n) : SubNet (script start A O t).net (script start A O n).net := by
  obtain ⟨d, rfl⟩ := Nat.le.dest h
  exact script_sub t d

theorem script_congr (n : Nat) (h : ∀ t, t ≤ n → O (script start A O t).net = O' (script start A O t).net) :
    ∀ t, t ≤ n → script start A O' t = script start A O t := by
  intro t
  induction t with
  | zero => intro _; rfl
  | succ t ih =>
    intro ht
    have ih := ih (by omega)
    have h1 := h (t + 1) ht
    have h0 := h t (by omega)
    conv => lhs; unfold script
    conv => rhs; unfold script
    rw [ih]
    conv at h1 => lhs; unfold script
    conv at h1 => rhs; unfold script
    simp only at h1 ⊢
    split <;> rename_i hA <;> simp only [hA] at h1
    · rfl
    · rw [h1]
    · rw [h0]

theorem fresh_fleet (h : Fresh start) : Fleet start :=
  ⟨h.1, fun s hs c hc => by rw [h.2 s hs] at hc; cases hc⟩

theorem fleet_wrote (hn : Fleet net) (i : Nat) (call : WriteCall) (hc : ContentFromApi call.frame.content) :
    Fleet (wrote net i call) := by
  constructor
  · rw [List.pairwise_iff_getElem]
    intro a b ha hb hab
    have hl : (wrote net i call).length = net.length := (SubNet.wrote net i call).1
    have ea := (SubNet.wrote net i call).2 a _ _ (List.getElem?_eq_getElem (by omega)) (List.getElem?_eq_getElem ha)
    have eb := (SubNet.wrote net i call).2 b _ _ (List.getElem?_eq_getElem (by omega)) (List.getElem?_eq_getElem hb)
    rw [ea.2.1, eb.2.1]
    exact List.pairwise_iff_getElem.1 hn.addresses a b _ _ hab
  · intro s hs c hcm
    obtain ⟨j, hj⟩ := List.getElem?_of_mem hs
    unfold wrote at hj
    rw [List.getElem?_modify] at hj
    cases h : net[j]? with
    | none => rw [h] at hj; simp at hj
    | some s0 =>
      rw [h] at hj
      simp only [Option.map_eq_map, Option.map_some, Option.some.injEq] at hj
      subst hj
      have := hn.api s0 (List.mem_of_getElem? h)
      split at hcm
      · simp only [List.mem_append, List.mem_singleton] at hcm
        rcases hcm with hcm | rfl
        · exact this c hcm
        · exact hc
      · exact this c hcm

theorem script_fleet {q v limit : Nat} (hs : Fresh start) (hA : Limited A q v limit) (n : Nat) :
    Fleet (script start A O n).net := by
  induction n with
  | zero => exact fresh_fleet hs
  | succ n ih =>
    unfold script
    simp only
    split
    · exact ih
    · rename_i h; exact fleet_wrote ih _ _ (hA.writes _ _ _ h).2
    · exact ih

theorem writes_wrote (i : Nat) (call : WriteCall) : ∀ (net : List (Sender κ)) , writes (wrote net i call) ≤ writes net + 1 := by
  unfold writes wrote
  induction i with
  | zero =>
    intro net
    cases net with
    | nil => simp
    | cons s net => simp; omega
  | succ i ih =>
    intro net
    cases net with
    | nil => simp
    | cons s net =>
      have := ih net
      simp only [List.modify_succ_cons, List.map_cons, List.sum_cons]
      omega

theorem script_writes {q v limit : Nat} (hs : Fresh start) (hA : Limited A q v limit) (n : Nat) :
    writes (script start A O n).net ≤ sentCount (script start A O n).log ∧ sentCount (script start A O n).log ≤ q ∧
    answerCount (script start A O n).log ≤ v := by
  induction n with
  | zero =>
    refine ⟨?_, Nat.zero_le _, Nat.zero_le _⟩
    show writes start ≤ 0
    unfold writes
    have : start.map (fun s => s.calls.length) = start.map fun _ => 0 :=
      List.map_congr_left (fun s h => by rw [hs.2 s h]; rfl)
    rw [this]
    simp
  | succ n ih =>
    unfold script
    simp only
    split
    · exact ih
    · rename_i i call h
      have := (hA.writes _ _ _ h).1
      have := writes_wrote i call (script start A O n).net
      simp only [sentCount, answerCount, List.countP_append, List.countP_singleton] at *
      simp at *
      omega
    · rename_i a h
      have := (hA.offers _ _ h).1
      simp only [sentCount, answerCount, List.countP_append, List.countP_singleton] at *
      simp at *
      omega

/-- With a cipher in use. -/
noncomputable def scriptReal (start : List (Sender κ)) (A : Attacker κ σ) (e : BlockCipher κ) : Nat → Play κ σ :=
  script start A (observed e)

/-- As far as the values at the counter blocks tell, with the authentication values mixed in. -/
noncomputable def scriptIdeal (start : List (Sender κ)) (A : Attacker κ σ) (e : BlockCipher κ) : Nat → Play κ σ :=
  script start A (fun net => seen net (atCounters net e))

theorem ideal_of_real {q v limit : Nat} (hs : Fresh start) (hA : Limited A q v limit) (e : BlockCipher κ) (n : Nat)
    (hg : NoClash e (scriptReal start A e n).net) (t : Nat) (ht : t ≤ n) :
    scriptIdeal start A (mixed (scriptReal start A e n).net e) t = scriptReal start A e t := by
  have hn := script_fleet (O := observed e) hs hA
  refine script_congr n (fun t ht => ?_) t ht
  have hsub : SubNet (script start A (observed e) t).net (scriptReal start A e n).net := script_sub_le ht
  have hg2 := mixed_noClash (hn n) e hg
  have := mixed_sub (hn t) (hn n) hsub _ hg2
  refine Eq.trans ?_ (seen_eq (hn t) _ (noClash_mono hsub hg2))
  refine Eq.trans ?_ this
  exact congrFun (congrArg observed (mixed_mixed (hn n) e hg).symm) _

theorem real_of_ideal {q v limit : Nat} (hs : Fresh start) (hA : Limited A q v limit) (e : BlockCipher κ) (n : Nat)
    (hg : NoClash e (scriptIdeal start A e n).net) (t : Nat) (ht : t ≤ n) :
    scriptReal start A (mixed (scriptIdeal start A e n).net e) t = scriptIdeal start A e t := by
  have hn := script_fleet (O := fun net => seen net (atCounters net e)) hs hA
  refine script_congr n (fun t ht => ?_) t ht
  have hsub : SubNet (script start A (fun net => seen net (atCounters net e)) t).net (scriptIdeal start A e n).net :=
    script_sub_le ht
  rw [← seen_eq (hn t) _ (noClash_mono hsub hg)]
  exact (mixed_sub (hn t) (hn n) hsub _ hg).symm

theorem ideal_replaced {q v limit : Nat} (hs : Fresh start) (hA : Limited A q v limit) (e : BlockCipher κ) (n : Nat)
    (k : κ) (x y : Block) (h : (k, x) ∉ sentTargets (scriptIdeal start A e n).net) (t : Nat) (ht : t ≤ n) :
    scriptIdeal start A (replaced e k x y) t = scriptIdeal start A e t := by
  have hn := script_fleet (O := fun net => seen net (atCounters net e)) hs hA
  refine script_congr n (fun t ht => ?_) t ht
  have hsub : SubNet (script start A (fun net => seen net (atCounters net e)) t).net (scriptIdeal start A e n).net :=
    script_sub_le ht
  rw [atCounters_replaced e k x y (fun hm => h (sentTargets_mono (hn t) (hn n) hsub hm))]

/-! ## One guess -/

/-- The guess an offer amounts to. -/
def offerGuess (m : Option (Move κ σ)) : Option (Guess κ) :=
  match m with
  | some (.offer a) => headerGuess a.cfg a.ctx a.slice
  | _ => none

/-- The chance that the slice offered after `T` steps of a script is a hit. -/
theorem script_guess [Finite κ] {q v limit : Nat} (hs : Fresh start) (hA : Limited A q v limit)
    (B : List (Sight κ σ) → Option (Move κ σ)) (hB : ∀ log a, B log = some (.offer a) → a.slice.length ≤ limit)
    (hl : limit < 65280) (hM : M ≤ 16) (T : Nat) :
    ChanceAtMost (fun e => ∃ g, offerGuess (B (scriptReal start A e T).log) = some g ∧
        g.Hits e (scriptReal start A e T).net M)
      (2 ^ (128 - 8 * M) + 4 * (9 * q + (limit + 33) / 16) ^ 2) (2 ^ 128) := by
  have hn := fun e => script_fleet (O := fun net => seen net (atCounters net e)) hs hA T
  refine adaptive_guess (N := fun e => (scriptIdeal start A e T).net)
    (G := fun e => offerGuess (B (scriptIdeal start A e T).log)) (limit := limit)
    (R := fun e => (scriptReal start A e T).net) ⟨hn, fun e k x y h => ?_, fun e g hg => ?_⟩ ⟨fun e he => ?_, fun e he => ?_, fun e he => ?_⟩
    q (fun e => ?_) hl M hM
  · rw [ideal_replaced hs hA e T k x y h T (Nat.le_refl _)]
    exact ⟨rfl, rfl⟩
  · unfold offerGuess at hg
    split at hg
    · rename_i hb
      exact Nat.le_trans (headerGuess_short _ _ _ g hg) (hB _ _ hb)
    · cases hg
  · rw [ideal_of_real hs hA e T he T (Nat.le_refl _)]
  · rw [real_of_ideal hs hA e T he T (Nat.le_refl _)]
  · rw [ideal_of_real hs hA e T he T (Nat.le_refl _)]
  · have := script_writes (O := fun net => seen net (atCounters net e)) hs hA T
    exact Nat.le_trans this.1 this.2.1

/-! ## Plays -/

/-- An offer is a hit at step `n`. -/
def HitAt (e : BlockCipher κ) (start : List (Sender κ)) (A : Attacker κ σ) (M n : Nat) : Prop :=
  ∃ g, offerGuess (A (play e start A n).log) = some g ∧ g.Hits e (play e start A n).net M

/-- As long as there was no hit, the play follows the script. -/
theorem play_script {q v limit : Nat} (hs : Fresh start) (hA : Limited A q v limit) (hl : limit < 65280)
    (hM : ∀ log a, A log = some (.offer a) → TagAtLeast M a) (e : BlockCipher κ) (n : Nat)
    (h : ∀ k, k < n → ¬ HitAt e start A M k) : play e start A n = scriptReal start A e n := by
  induction n with
  | zero => rfl
  | succ n ih =>
    have ih := ih (fun k hk => h k (by omega))
    have hh := h n (by omega)
    unfold HitAt at hh
    unfold scriptReal at ih ⊢
    conv => lhs; unfold play
    conv => rhs; unfold script
    rw [ih] at hh ⊢
    simp only
    split <;> rename_i ha
    · simp only [ha]
    · simp only [ha]
    · rename_i a
      simp only [ha]
      congr 3
      have hlen : a.slice.length < 65280 := Nat.lt_of_le_of_lt (hA.offers _ _ ha).2 hl
      have hm := hM _ _ ha
      rw [ha] at hh
      unfold offerGuess at hh
      simp only [not_exists, not_and] at hh
      have hn := script_fleet (O := observed e) hs hA n
      exact congrArg _ (answer_ideal hn e M a hlen hm hh)

/-- The attacker who stops before offer number `j`. -/
def stopAt (A : Attacker κ σ) (j : Nat) : Attacker κ σ := fun log =>
  match A log with
  | some (.offer a) => if answerCount log = j then none else some (.offer a)
  | m => m

theorem stopAt_some {log : List (Sight κ σ)} {j : Nat} {m : Move κ σ} (h : stopAt A j log = some m) : A log = some m := by
  unfold stopAt at h
  split at h
  · split at h
    · cases h
    · rename_i h1 _; rw [h1]; exact h
  · exact h

theorem stopAt_limited {q v limit : Nat} (hA : Limited A q v limit) (j : Nat) : Limited (stopAt A j) q v limit :=
  ⟨fun _ _ _ h => hA.writes _ _ _ (stopAt_some h), fun _ _ h => hA.offers _ _ (stopAt_some h)⟩

theorem answerCount_mono (n d : Nat) : answerCount (script start A O n).log ≤ answerCount (script start A O (n + d)).log := by
  induction d with
  | zero => exact Nat.le_refl _
  | succ d ih =>
    refine Nat.le_trans ih ?_
    conv => rhs; rw [← Nat.add_assoc]; unfold script
    simp only
    split
    · exact Nat.le_refl _
    all_goals (simp only [answerCount, List.countP_append]; omega)

/-- Up to the offer, stopping there makes no difference. -/
theorem script_stopAt (n : Nat) (hs : ∀ t, t < n → ∀ a, A (script start A O t).log = some (.offer a) →
    answerCount (script start A O t).log ≠ j) : script start (stopAt A j) O n = script start A O n := by
  induction n with
  | zero => rfl
  | succ n ih =>
    have ih := ih (fun t ht => hs t (by omega))
    have hn := hs n (by omega)
    conv => lhs; unfold script
    conv => rhs; unfold script
    rw [ih]
    have : stopAt A j (script start A O n).log = A (script start A O n).log := by
      unfold stopAt
      split
      · rename_i a ha
        rw [if_neg (hn a ha), ha]
      · rfl
    simp only [this]

theorem script_stays {n : Nat} (h : A (script start A O n).log = none) (d : Nat) :
    script start A O (n + d) = script start A O n := by
  induction d with
  | zero => rfl
  | succ d ih =>
    rw [← Nat.add_assoc]
    conv => lhs; unfold script
    simp only [ih, h]

/-- Each step not stopped at adds to the log. -/
theorem script_length {n : Nat} (h : A (script start A O n).log ≠ none) :
    n = sentCount (script start A O n).log + answerCount (script start A O n).log := by
  induction n with
  | zero => rfl
  | succ n ih =>
    have hn : A (script start A O n).log ≠ none := by
      intro hn
      rw [script_stays hn 1] at h
      exact h hn
    have ih := ih hn
    unfold script
    simp only
    split
    · rename_i h0; exact absurd h0 hn
    all_goals
      simp only [sentCount, answerCount, List.countP_append, List.countP_singleton] at *
      simp at *
      omega

/-- The chance of a hit at some step. -/
theorem play_hits [Finite κ] {q v limit : Nat} (hs : Fresh start) (hA : Limited A q v limit) (hl : limit < 65280)
    (hM : M ≤ 16) (htags : ∀ log a, A log = some (.offer a) → TagAtLeast M a) :
    ChanceAtMost (fun e => ∃ n, HitAt e start A M n)
      (v * (2 ^ (128 - 8 * M) + 4 * (9 * q + (limit + 33) / 16) ^ 2)) (2 ^ 128) := by
  refine chance_mono ?_ (chance_exists (fun j e => ∃ g, offerGuess (A (scriptReal start (stopAt A j) e (q + v)).log) = some g ∧
      g.Hits e (scriptReal start (stopAt A j) e (q + v)).net M) _ _ v (by decide) (fun j _ =>
    script_guess hs (stopAt_limited hA j) A (fun log a h => (hA.offers _ _ h).2) hl hM (q + v)))
  intro e he
  classical
  have hwf := Nat.find_spec he
  have hmin := fun k => Nat.find_min (m := k) he
  generalize Nat.find he = n at hwf hmin
  have hp := play_script hs hA hl htags e n (fun k hk => hmin k hk)
  obtain ⟨g, hg, hh⟩ := hwf
  rw [hp] at hg hh
  obtain ⟨a, ha⟩ : ∃ a, A (scriptReal start A e n).log = some (.offer a) := by
    unfold offerGuess at hg
    split at hg
    · exact ⟨_, by assumption⟩
    · cases hg
  have hj := (hA.offers _ _ ha).1
  have hlen := script_length (start := start) (A := A) (O := observed e) (n := n) (by
    intro h
    have ha' : A (script start A (observed e) n).log = some (.offer a) := ha
    rw [h] at ha'; cases ha')
  have hb := script_writes (O := observed e) hs hA n
  have hstop : script start (stopAt A (answerCount (scriptReal start A e n).log)) (observed e) n =
      script start A (observed e) n := by
    apply script_stopAt
    intro t ht a' ha' heq
    have h1 : answerCount (script start A (observed e) (t + 1)).log = answerCount (script start A (observed e) t).log + 1 := by
      conv => lhs; unfold script
      simp only [ha']
      simp [answerCount, List.countP_append]
    have h2 := answerCount_mono (start := start) (A := A) (O := observed e) (t + 1) (n - (t + 1))
    rw [show t + 1 + (n - (t + 1)) = n by omega] at h2
    unfold scriptReal at heq
    omega
  refine ⟨answerCount (scriptReal start A e n).log, hj, g, ?_⟩
  have hstay := script_stays (start := start) (A := stopAt A (answerCount (scriptReal start A e n).log))
    (O := observed e) (n := n) (by
      rw [hstop]
      unfold stopAt
      have ha' : A (script start A (observed e) n).log = some (.offer a) := ha
      rw [ha']
      simp only
      exact if_pos rfl) (q + v - n)
  have hnq : n + (q + v - n) = q + v := by omega
  rw [hnq, hstop] at hstay
  unfold scriptReal at hstay hg hh ⊢
  rw [hstay]
  exact ⟨hg, hh⟩

/-- **C91** The chance that an attacker who chooses, step by step, what the devices send and what the receivers get, in
view of all that went over the air and all answers up to then, gets a slice accepted that nobody has sent up to then,
when all slices he offers are at levels with tags of at least `M` octets. -/
theorem C91_adaptive_long_tags [Finite κ] (start : List (Sender κ)) (hs : Fresh start) (A : Attacker κ σ) (q v limit : Nat)
    (hA : Limited A q v limit) (hl : limit < 65280) (M : Nat) (hM : M ≤ 16)
    (htags : ∀ log a, A log = some (.offer a) → TagAtLeast M a) :
    ChanceAtMost (fun e => PlayForges e start A M)
      (v * (2 ^ (128 - 8 * M) + 4 * (9 * q + (limit + 33) / 16) ^ 2)) (2 ^ 128) :=
  chance_mono (fun e ⟨n, a, ha, hf⟩ => by
    obtain ⟨g, h1, h2⟩ := forged_hits e M _ hf
    refine ⟨n, g, ?_, h2⟩
    rw [ha]
    exact h1) (play_hits hs hA hl hM htags)

theorem tag_four {l : SecurityLevel} (ha : Authenticating l) : 4 ≤ tagLength l := by
  revert ha
  cases l <;> simp [Authenticating, MicOnly, EncMic, tagLength]

/-- **C91** The same at any levels. -/
theorem C91_adaptive_forgeries [Finite κ] (start : List (Sender κ)) (hs : Fresh start) (A : Attacker κ σ) (q v limit : Nat)
    (hA : Limited A q v limit) (hl : limit < 65280) :
    ChanceAtMost (fun e => PlayForges e start A 0)
      (v * (2 ^ 96 + 4 * (9 * q + (limit + 33) / 16) ^ 2)) (2 ^ 128) := by
  refine chance_mono ?_ (C91_adaptive_long_tags start hs A q v limit hA hl 4 (by decide)
    (fun _ _ _ _ _ aux _ _ h => tag_four h))
  rintro e ⟨n, a, ha, f, k, rc, x, h1, h2, h3, h4, _, h5⟩
  exact ⟨n, a, ha, f, k, rc, x, h1, h2, h3, h4, tag_four h4.level, h5⟩

/-! ## The channel -/

/-- The calls of one receiver: the offers `mine` says are made to it. -/
def readCalls {κ σ : Type} (mine : Offer κ σ → Bool) : List (Sight κ σ) → List (ReadCall κ)
  | [] => []
  | .sent _ _ _ :: log => readCalls mine log
  | .answered a _ :: log => if mine a then ⟨a.slice, a.ctx⟩ :: readCalls mine log else readCalls mine log

theorem readCalls_append (mine : Offer κ σ → Bool) (l l' : List (Sight κ σ)) :
    readCalls mine (l ++ l') = readCalls mine l ++ readCalls mine l' := by
  induction l with
  | nil => rfl
  | cons x l ih =>
    cases x with
    | sent => exact ih
    | answered a x =>
      simp only [List.cons_append, readCalls, ih]
      split <;> rfl

theorem deliveredIn_append {ι : Type} [DecidableEq ι] (mine : Offer κ σ → Bool) (f : Address → ι) (i : ι) (l l' : List (Sight κ σ)) :
    deliveredIn mine f i (l ++ l') = deliveredIn mine f i l ++ deliveredIn mine f i l' := by
  induction l with
  | nil => rfl
  | cons x l ih =>
    cases x with
    | sent => exact ih
    | answered a x => simp only [List.cons_append, deliveredIn, ih, List.append_assoc]

theorem lookupState_append (mine : Offer κ σ → Bool) (l l' : List (Sight κ σ)) : ∀ dev,
    lookupState mine dev (l ++ l') = lookupState mine (lookupState mine dev l) l' := by
  induction l with
  | nil => intro dev; rfl
  | cons x l ih =>
    intro dev
    cases x with
    | sent => exact ih dev
    | answered a x => exact ih _

theorem acceptedFrom_append {ι : Type} [DecidableEq ι] (cfg : Cfg) (aead : Aead κ) (lookup : DevLookup σ) (table : DeviceTable ι lookup)
    (i : ι) (l l' : List (ReadCall κ)) : ∀ dev,
    acceptedFrom cfg aead lookup table i dev (l ++ l') = acceptedFrom cfg aead lookup table i dev l ++
      acceptedFrom cfg aead lookup table i (devicesAfter cfg aead lookup dev l) l' := by
  induction l with
  | nil => intro dev; rfl
  | cons c l ih =>
    intro dev
    simp only [List.cons_append, acceptedFrom, ih, List.append_assoc]
    rfl

theorem play_channel {ι : Type} [DecidableEq ι] (mine : Offer κ σ → Bool) (rcfg : Cfg) {lookup : DevLookup σ} (table : DeviceTable ι lookup)
    (i : ι) (dev : σ) (eui : UInt64) (hm : MadeTo A mine rcfg table i dev eui) (e : BlockCipher κ) (n : Nat) :
    deliveredIn mine table.identify i (play e start A n).log =
      acceptedFrom rcfg (Ccm.aead e) lookup table i dev (readCalls mine (play e start A n).log) ∧
    lookupState mine dev (play e start A n).log =
      devicesAfter rcfg (Ccm.aead e) lookup dev (readCalls mine (play e start A n).log) := by
  induction n with
  | zero => exact ⟨rfl, rfl⟩
  | succ n ih =>
    conv => unfold play
    simp only
    split
    · exact ih
    · rw [deliveredIn_append, readCalls_append, lookupState_append]
      simp only [deliveredIn, readCalls, lookupState, List.append_nil]
      exact ih
    · rename_i a ha
      rw [deliveredIn_append, readCalls_append, lookupState_append]
      by_cases hmine : mine a = true
      · obtain ⟨h1, h2, h3, _⟩ := hm _ _ ha hmine
        simp only [deliveredIn, readCalls, lookupState, List.append_nil, if_pos hmine]
        rw [acceptedFrom_append, ← ih.1, ← ih.2]
        have hans : answer e a = Frame.tryReadAndUnsecure rcfg (Ccm.aead e) a.slice a.ctx lookup
            (lookupState mine dev (play e start A n).log) := by
          unfold answer
          rw [h1, h2, h3]
        constructor
        · congr 1
          simp only [acceptedFrom, acceptedByCall, List.append_nil, deliveredFrom]
          rw [hans]
          rfl
        · rw [hans, ih.2]
          unfold devicesAfter
          rw [List.foldl_append]
          rfl
      · simp only [deliveredIn, readCalls, lookupState, List.append_nil, if_neg hmine]
        exact ih

theorem play_sub_succ (e : BlockCipher κ) (n : Nat) : SubNet (play e start A n).net (play e start A (n + 1)).net := by
  conv => rhs; unfold play
  simp only
  split
  · exact SubNet.refl _
  · exact SubNet.wrote _ _ _
  · exact SubNet.refl _

theorem play_sub (e : BlockCipher κ) (t d : Nat) : SubNet (play e start A t).net (play e start A (t + d)).net := by
  induction d with
  | zero => exact SubNet.refl _
  | succ d ih => exact ih.trans (play_sub_succ e (t + d))

theorem play_fleet {q v limit : Nat} (hs : Fresh start) (hA : Limited A q v limit) (e : BlockCipher κ) (n : Nat) :
    Fleet (play e start A n).net := by
  induction n with
  | zero => exact fresh_fleet hs
  | succ n ih =>
    unfold play
    simp only
    split
    · exact ih
    · rename_i h; exact fleet_wrote ih _ _ (hA.writes _ _ _ h).2
    · exact ih

/-- Every call of the receiver was made at some step. -/
theorem play_calls (mine : Offer κ σ → Bool) (e : BlockCipher κ) (n : Nat) (c : ReadCall κ)
    (h : c ∈ readCalls mine (play e start A n).log) :
    ∃ t a, t < n ∧ A (play e start A t).log = some (.offer a) ∧ mine a = true ∧ c = ⟨a.slice, a.ctx⟩ := by
  induction n with
  | zero => cases h
  | succ n ih =>
    have old : c ∈ readCalls mine (play e start A n).log →
        ∃ t a, t < n + 1 ∧ A (play e start A t).log = some (.offer a) ∧ mine a = true ∧ c = ⟨a.slice, a.ctx⟩ := fun h => by
      obtain ⟨t, a, ht, h⟩ := ih h
      exact ⟨t, a, Nat.lt_succ_of_lt ht, h⟩
    unfold play at h
    simp only at h
    split at h
    · exact old h
    · rw [readCalls_append] at h
      simp only [readCalls, List.append_nil] at h
      exact old h
    · rename_i a ha
      rw [readCalls_append, List.mem_append] at h
      rcases h with h | h
      · exact old h
      · simp only [readCalls] at h
        split at h
        · exact ⟨n, a, Nat.lt_succ_self n, ha, by assumption, List.mem_singleton.1 h⟩
        · cases h

/-- **C92** The chance that at some step what a receiver has delivered as coming from a device is not a part, in order
and without repetition, of what that device has sent up to then, when an attacker controls the network: he chooses step
by step what the devices send and what all receivers get, in view of all that went over the air and all answers. -/
theorem C92_adaptive_channel [Finite κ] {ι : Type} [DecidableEq ι] (start : List (Sender κ)) (hs : Fresh start)
    (d : Nat) (sender : Sender κ) (hd : start[d]? = some sender) (rcfg : Cfg) (lookup : DevLookup σ)
    (table : DeviceTable ι lookup) (i : ι) (dev : σ) (mine : Offer κ σ → Bool) (A : Attacker κ σ) (q v limit : Nat)
    (hA : Limited A q v limit) (hm : MadeTo A mine rcfg table i dev sender.context.euid) (hl : limit < 65280) :
    ChanceAtMost (fun e => ∃ n s, (play e start A n).net[d]? = some s ∧
        ¬ List.Sublist (deliveredIn mine table.identify i (play e start A n).log)
          (sentBy s.cfg (Ccm.aead e) s.context s.calls))
      (v * (2 ^ 96 + 4 * (9 * q + (limit + 33) / 16) ^ 2)) (2 ^ 128) := by
  refine chance_mono ?_ (play_hits (M := 4) hs hA hl (by decide) (fun _ _ _ _ _ aux _ _ h => tag_four h))
  rintro e ⟨n, s, hds, hne⟩
  apply Classical.byContradiction
  intro hno
  apply hne
  rw [(play_channel mine rcfg table i dev _ hm e n).1]
  have hctx : s.context = sender.context := by
    have := play_sub (start := start) (A := A) e 0 n
    rw [Nat.zero_add] at this
    exact (this.2 d sender s hd hds).2.1
  apply C68_channel s.cfg rcfg (Ccm.aead e) (C50_ccm_laws e) table i
  apply noForgery_of_no_hit (play_fleet hs hA e n) e s (List.mem_of_getElem? hds) rcfg table i _ 4
  · intro c hc
    obtain ⟨t, a, ht, ha, hmine, rfl⟩ := play_calls mine e n c hc
    rw [hctx]
    exact (hm _ _ ha hmine).2.2.2
  · intro c _ h n aux _ _ hau
    exact tag_four hau
  · intro c hc g hg hh
    obtain ⟨t, a, ht, ha, hmine, rfl⟩ := play_calls mine e n c hc
    apply hno
    refine ⟨t, g, ?_, hh.level, hh.long, hh.tag, fun hsent => hh.unsent ?_⟩
    · have hcfg := (hm _ _ ha hmine).1
      rw [ha]
      show headerGuess a.cfg a.ctx a.slice = some g
      rw [hcfg]
      exact hg
    · have := play_sub (start := start) (A := A) e t (n - t)
      rw [show t + (n - t) = n by omega] at this
      exact sent_mono this hsent

end

/-! ## Witnesses -/

/-- The sample sender before its first write. -/
def sampleStart : List (Sender (Fin 16)) := [⟨sampleCfg, sampleKeyed, []⟩]

/-- A frame of the sample sender. -/
def sampleWrite (payload : List UInt8) : WriteCall :=
  ⟨{ sampleSecured with payload := payload }, .none, List.replicate 60 0⟩

/-- An attacker who has the sample sender send one octet, then the last octet that went over the air; who delivers the
second frame, and then a frame he made up with a tag of zeros and a higher counter. -/
def sampleAttacker : Attacker (Fin 16) DeviceDescriptor := fun log =>
  let give := fun slice : List UInt8 => Move.offer ⟨sampleCfg, ⟨.none, some sampleKeyedReceiver⟩, sampleLookup,
    lookupState (fun _ => true) ⟨3, false⟩ log, slice.take 127⟩
  match log with
  | [] => some (.write 0 (sampleWrite [1]))
  | [.sent _ _ o] => some (.write 0 (sampleWrite [(o.getD []).getLastD 0]))
  | [.sent _ _ _, .sent _ _ o] => some (give (o.getD []))
  | [.sent _ _ _, .sent _ _ _, .answered _ _] => some (give ((channelPacket 7 9).take 26 ++ [0, 0, 0, 0]))
  | _ => none

theorem sampleStart_fresh : Fresh sampleStart := by
  refine ⟨by simp [sampleStart], ?_⟩
  intro s hs
  rw [sampleStart, List.mem_singleton] at hs
  rw [hs]

theorem sampleAttacker_limited : Limited sampleAttacker 2 2 127 := by
  constructor
  · intro log i call h
    unfold sampleAttacker at h
    split at h <;> simp only [Option.some.injEq, Move.write.injEq, reduceCtorEq] at h
    all_goals
      obtain ⟨_, rfl⟩ := h
      exact ⟨by simp [sentCount], trivial⟩
  · intro log a h
    unfold sampleAttacker at h
    split at h <;> simp only [Option.some.injEq, Move.offer.injEq, reduceCtorEq] at h
    all_goals
      subst h
      exact ⟨by simp [answerCount], by simp only [List.length_take]; omega⟩

/-- Witness for C91 and C92: the attacker meets the conditions; the second frame depends on the cipher; under one cipher
the receiver delivers that frame only, under another also what he made up. -/
example :
    let delivered := fun e : BlockCipher (Fin 16) =>
      deliveredIn (fun _ => true) sampleTable.identify () (play e sampleStart sampleAttacker 4).log
    Fresh sampleStart ∧ Limited sampleAttacker 2 2 127 ∧
    MadeTo sampleAttacker (fun _ => true) sampleCfg sampleTable () ⟨3, false⟩ sampleKeyed.euid ∧
    delivered toyKeyed = [(0x01020305, [66])] ∧
    delivered (fun _ _ => Vector.replicate 16 0) = [(0x01020305, [0]), (0x01020307, [9])] := by
  refine ⟨sampleStart_fresh, sampleAttacker_limited, ?_, by decide +kernel, by decide +kernel⟩
  intro log a h _
  unfold sampleAttacker at h
  split at h <;> simp only [Option.some.injEq, Move.offer.injEq, reduceCtorEq] at h
  all_goals
    subst h
    refine ⟨rfl, rfl, rfl, ?_⟩
    intro rc id src eui key h1 _ h2
    obtain rfl := Option.some.inj h1
    simp only [sampleKeyedReceiver, Option.some.injEq, Prod.mk.injEq] at h2
    exact h2.1.symm

end Verif
