import Mathlib.Tactic.Ring
import Verif.Props.Collision

/-!
# C87 How much an observer can learn
-/

namespace Verif

open Spec Rfc3610

/-! ## Chains of the frames sent -/

/-- All that remains of a list after dropping less than all of it. -/
def suffixes : List Block → List (List Block)
  | [] => []
  | b :: r => (b :: r) :: suffixes r

theorem mem_suffixes (n l : List Block) : n ∈ suffixes l ↔ n ≠ [] ∧ n <:+ l := by
  induction l with
  | nil =>
    simp only [suffixes, List.not_mem_nil, List.suffix_nil, false_iff]
    exact fun h => h.1 h.2
  | cons b r ih =>
    simp only [suffixes, List.mem_cons, List.suffix_cons_iff, ih]
    constructor
    · rintro (rfl | h)
      · exact ⟨by simp, .inl rfl⟩
      · exact ⟨h.1, .inr h.2⟩
    · rintro ⟨h, h' | h'⟩
      · exact .inl h'
      · exact .inr ⟨h, h'⟩

theorem length_suffixes (l : List Block) : (suffixes l).length = l.length := by
  induction l with
  | nil => rfl
  | cons b r ih => simp [suffixes, ih]

theorem chained_reverse (E : Block → Block) (l : List Block) : chained E l.reverse = chainVal E l := by
  unfold chained
  induction l with
  | nil => rfl
  | cons b r ih => rw [List.reverse_cons, List.foldl_append, ih]; rfl

theorem chained_eq (E : Block → Block) (bs : List Block) : chained E bs = chainVal E bs.reverse := by
  rw [← chained_reverse, List.reverse_reverse]

theorem chainInputs_append (E : Block → Block) (b : Block) (bs : List Block) : ∀ x,
    chainInputs E x (bs ++ [b]) =
      chainInputs E x bs ++ [Rfc3610.xor (bs.foldl (fun x b => E (Rfc3610.xor x b)) x) b] := by
  induction bs with
  | nil => intro x; rfl
  | cons c bs ih => intro x; simp only [List.cons_append, chainInputs, List.foldl_cons, ih]

theorem mem_chainInputs (E : Block → Block) (x : Block) (l : List Block) :
    x ∈ chainInputs E (Vector.replicate 16 0) l.reverse ↔ ∃ n ∈ suffixes l, chainInp E n = x := by
  induction l with
  | nil => simp [chainInputs, suffixes]
  | cons b r ih =>
    rw [List.reverse_cons, chainInputs_append, List.mem_append, ih, List.mem_singleton]
    have := chained_reverse E r
    unfold chained at this
    rw [this]
    simp only [suffixes, List.mem_cons, exists_eq_or_imp]
    constructor
    · rintro (h | h)
      · exact .inr h
      · exact .inl h.symm
    · rintro (h | h)
      · exact .inr h.symm
      · exact .inl h

theorem mem_macInputs (E : Block → Block) (l : SecurityLevel) (N p : List UInt8) (x : Block) :
    x ∈ macInputs E l N p ↔ ∃ n ∈ suffixes (authenticatedAt l N p).reverse, chainInp E n = x := by
  unfold macInputs
  rw [← mem_chainInputs, List.reverse_reverse]

/-- A frame sent: key, level, nonce, payload. -/
abbrev Msg (κ : Type) := κ × SecurityLevel × List UInt8 × List UInt8

open Classical in
noncomputable def sentAt {κ : Type} (s : Sender κ) (p : Nat) : Option (Msg κ) :=
  if h : ∃ m : Msg κ, Sends s.cfg unimplementedCipher s.context s.calls p m.1 m.2.1 m.2.2.1 m.2.2.2 then some h.choose else none

noncomputable def sentList {κ : Type} (net : List (Sender κ)) : List (Msg κ) :=
  net.flatMap fun s => (List.range s.calls.length).filterMap (sentAt s)

theorem sentList_length {κ : Type} (net : List (Sender κ)) : (sentList net).length ≤ writes net := by
  unfold sentList writes
  rw [List.length_flatMap]
  induction net with
  | nil => simp
  | cons s net ih =>
    simp only [List.map_cons, List.sum_cons]
    have := List.length_filterMap_le (sentAt s) (List.range s.calls.length)
    rw [List.length_range] at this
    omega

theorem sends_functional {κ : Type} {cfg : Cfg} {e : BlockCipher κ} {sc : SecCtx κ} {calls : List WriteCall} {p : Nat}
    {k k' : κ} {l l' : SecurityLevel} {N N' m m' : List UInt8} (h : Sends cfg e sc calls p k l N m)
    (h' : Sends cfg e sc calls p k' l' N' m') : k = k' ∧ l = l' ∧ N = N' ∧ m = m' := by
  obtain ⟨_, c, aux, eui, h2, h3, h4, _, h6, h7, h8⟩ := h
  obtain ⟨_, c', aux', eui', h2', h3', h4', _, h6', h7', h8'⟩ := h'
  rw [h2] at h2'
  obtain rfl := Option.some.inj h2'
  rw [h3] at h3'
  obtain rfl := Option.some.inj h3'
  have hl : l = l' := by rw [← h4, ← h4']
  subst hl
  rw [h6] at h6'
  have := Option.some.inj h6'
  exact ⟨(Prod.mk.inj this).2, rfl, by rw [h7, h7'], by rw [h8, h8']⟩

theorem mem_sentList {κ : Type} {net : List (Sender κ)} (hn : Fleet net) (e : BlockCipher κ) (m : Msg κ) :
    m ∈ sentList net ↔ Sent e net m.1 m.2.1 m.2.2.1 m.2.2.2 := by
  unfold sentList
  simp only [List.mem_flatMap, List.mem_filterMap, List.mem_range]
  constructor
  · rintro ⟨s, hs, p, hp, h⟩
    unfold sentAt at h
    split at h
    · rename_i hex
      obtain rfl := Option.some.inj h
      exact ⟨s, hs, p, sends_indep _ e unimplementedCipher _ _ (hn.api s hs) p _ _ _ _ hex.choose_spec⟩
    · cases h
  · rintro ⟨s, hs, p, h⟩
    have h' := sends_indep _ unimplementedCipher e _ _ (hn.api s hs) p _ _ _ _ h
    refine ⟨s, hs, p, ?_, ?_⟩
    · obtain ⟨_, c, _, _, h2, _⟩ := h
      exact (List.getElem?_eq_some_iff.1 h2).1
    · unfold sentAt
      have hex : ∃ m : Msg κ, Sends s.cfg unimplementedCipher s.context s.calls p m.1 m.2.1 m.2.2.1 m.2.2.2 := ⟨m, h'⟩
      rw [dif_pos hex]
      have hf := sends_functional hex.choose_spec h'
      congr 1
      exact Prod.ext hf.1 (Prod.ext hf.2.1 (Prod.ext hf.2.2.1 hf.2.2.2))

theorem sent_props {κ : Type} {net : List (Sender κ)} (hn : Fleet net) {e : BlockCipher κ} {k : κ} {l : SecurityLevel}
    {N p : List UInt8} (h : Sent e net k l N p) :
    N.length = 13 ∧ p.length ≤ 125 ∧ Authenticating l ∧ ∃ eui c, N = nonceOctets eui c l := by
  obtain ⟨s, hs, q, h⟩ := h
  have hc := hn.api s hs
  have hJ := historyJobs_jobs s.cfg e s.context s.calls s.calls hc (alike_histories_refl s.calls)
  have hj : historyJobs s.cfg e s.context s.calls s.calls ⟨k, l, N, p, p⟩ := by
    have h0 := h
    obtain ⟨_, call, aux, eui, h2, h3, h4, h5, h6, h7, h8⟩ := h
    exact ⟨q, call, h0, h2, h8⟩
  obtain ⟨_, call, aux, eui, h2, h3, h4, h5, h6, h7, h8⟩ := h
  exact ⟨hJ.nonce _ hj, hJ.short _ hj, h5, _, _, h7⟩

noncomputable def nodesOf {κ : Type} (m : Msg κ) : List (κ × List Block) :=
  (suffixes (authenticatedAt m.2.1 m.2.2.1 m.2.2.2).reverse).map fun n => (m.1, n)

noncomputable def targetsOf {κ : Type} (i : Nat) (m : Msg κ) : List (κ × Block) :=
  (List.range i).map fun i => (m.1, counterBlock m.2.2.1 i)

theorem authenticatedAt_length (l : SecurityLevel) (N p : List UInt8) (h : p.length < 65280) :
    (authenticatedAt l N p).length ≤ 1 + (p.length + 17) / 16 := by
  unfold authenticatedAt
  have hb : ∀ s : List UInt8, (blocks s).length = (s.length + 15) / 16 := by intro s; simp [blocks]
  have hlo : (lengthOf p).length = 2 := by unfold lengthOf; rw [if_pos (by omega)]; simp [number]
  split
  · unfold authenticated
    split
    · simp [hb]
    · simp only [List.length_cons, List.length_append, hb, hlo, List.length_nil]; omega
  · unfold authenticated
    simp only [List.length_nil, if_true, List.nil_append, List.length_cons, hb]; omega

theorem firstBlock_head (l : SecurityLevel) (hl : Authenticating l) (N a m : List UInt8) (hN : N.length = 13) :
    octet (firstBlock (tagLength l) N a m).toList 0 ≠ 1 := by
  unfold firstBlock
  rw [octet_ofFn (fun i => octet (UInt8.ofNat (64 * (if a.length = 0 then 0 else 1) + 8 * ((tagLength l - 2) / 2) + (15 - N.length - 1)) ::
      (N ++ number (15 - N.length) m.length)) i) 0 (by omega), hN]
  simp only [octet, List.getElem?_cons_zero, Option.getD_some]
  split <;> revert hl <;> cases l <;> simp [Authenticating, MicOnly, EncMic, tagLength]

theorem authenticatedAt_head (l : SecurityLevel) (N p : List UInt8) :
    ∃ a m r, authenticatedAt l N p = firstBlock (tagLength l) N a m :: r ∧
      (a = [] ∧ m = p ∧ ¬ MicOnly l ∨ a = p ∧ m = [] ∧ MicOnly l) := by
  unfold authenticatedAt authenticated
  split
  · exact ⟨_, _, _, rfl, .inr ⟨rfl, rfl, by assumption⟩⟩
  · exact ⟨_, _, _, rfl, .inl ⟨rfl, rfl, by assumption⟩⟩

theorem root_not_counter {κ : Type} (m : Msg κ) (hl : Authenticating m.2.1) (hN : m.2.2.1.length = 13) (k : κ) (b : Block)
    (h : (k, [b]) ∈ nodesOf m) (N' : List UInt8) (hN' : N'.length = 13) (i : Nat) : b ≠ counterBlock N' i := by
  unfold nodesOf at h
  rw [List.mem_map] at h
  obtain ⟨n, hn, heq⟩ := h
  rw [Prod.mk.injEq] at heq
  obtain ⟨_, rfl⟩ := heq
  obtain ⟨a, x, r, hr, _⟩ := authenticatedAt_head m.2.1 m.2.2.1 m.2.2.2
  rw [hr, mem_suffixes] at hn
  have hp : [b] <+: (firstBlock (tagLength m.2.1) m.2.2.1 a x :: r) := by
    have := List.reverse_prefix.2 hn.2
    rwa [List.reverse_reverse, List.reverse_singleton] at this
  rw [List.cons_prefix_cons] at hp
  rw [hp.1]
  intro hc
  have := congrArg (fun v : Block => octet v.toList 0) hc
  simp only [counterBlock_head N' hN' i] at this
  exact firstBlock_head _ hl _ _ _ hN this

theorem nodesOf_closed {κ : Type} (m : Msg κ) (k : κ) (b : Block) (r : List Block) (h : (k, b :: r) ∈ nodesOf m) (hr : r ≠ []) :
    (k, r) ∈ nodesOf m := by
  unfold nodesOf at *
  simp only [List.mem_map, Prod.mk.injEq, exists_eq_right_right] at *
  obtain ⟨h, rfl⟩ := h
  rw [mem_suffixes] at *
  exact ⟨⟨hr, (List.suffix_cons b r).trans h.2⟩, rfl⟩

theorem nodesOf_nonempty {κ : Type} (m : Msg κ) (k : κ) : (k, []) ∉ nodesOf m := by
  unfold nodesOf
  simp [mem_suffixes]

theorem length_flatMap_le {α β : Type} (f : α → List β) (c : Nat) (l : List α) (h : ∀ a ∈ l, (f a).length ≤ c) :
    (l.flatMap f).length ≤ c * l.length := by
  induction l with
  | nil => simp
  | cons a l ih =>
    have := h a (by simp)
    have := ih (fun b hb => h b (by simp [hb]))
    simp only [List.flatMap_cons, List.length_append, List.length_cons, Nat.mul_add]
    omega

noncomputable def sentNodes {κ : Type} (net : List (Sender κ)) : List (κ × List Block) := (sentList net).flatMap nodesOf

noncomputable def sentTargets {κ : Type} (net : List (Sender κ)) : List (κ × Block) := (sentList net).flatMap (targetsOf 9)

theorem sentNodes_length {κ : Type} {net : List (Sender κ)} (hn : Fleet net) : (sentNodes net).length ≤ 9 * writes net := by
  have h1 := length_flatMap_le nodesOf 9 (sentList net) (by
    intro m hm
    have hp := sent_props hn ((mem_sentList hn unimplementedCipher m).1 hm)
    have := authenticatedAt_length m.2.1 m.2.2.1 m.2.2.2 (by omega)
    unfold nodesOf
    rw [List.length_map, length_suffixes, List.length_reverse]
    omega)
  have := sentList_length net
  unfold sentNodes
  omega

theorem sentTargets_length {κ : Type} (net : List (Sender κ)) : (sentTargets net).length ≤ 9 * writes net := by
  have h1 := length_flatMap_le (targetsOf (κ := κ) 9) 9 (sentList net) (by intro m _; simp [targetsOf])
  have := sentList_length net
  unfold sentTargets
  omega

theorem sent_trie {κ : Type} {net : List (Sender κ)} (hn : Fleet net) :
    Trie (fun _ => sentNodes net) (fun _ => sentTargets net) := by
  constructor
  · intro e k b r h hr
    unfold sentNodes at *
    rw [List.mem_flatMap] at *
    obtain ⟨m, hm, h⟩ := h
    exact ⟨m, hm, nodesOf_closed m k b r h hr⟩
  · intro e k h
    unfold sentNodes at h
    rw [List.mem_flatMap] at h
    obtain ⟨m, hm, h⟩ := h
    exact nodesOf_nonempty m k h
  · intro e k b h ht
    unfold sentNodes at h
    unfold sentTargets at ht
    rw [List.mem_flatMap] at h ht
    obtain ⟨m, hm, h⟩ := h
    obtain ⟨m', hm', ht⟩ := ht
    have hp := sent_props hn ((mem_sentList hn unimplementedCipher m).1 hm)
    have hp' := sent_props hn ((mem_sentList hn unimplementedCipher m').1 hm')
    unfold targetsOf at ht
    simp only [List.mem_map, Prod.mk.injEq] at ht
    obtain ⟨i, _, _, ht⟩ := ht
    exact root_not_counter m hp.2.2.1 hp.1 k b h _ hp'.1 i ht.symm
  · intro e k x y _
    exact ⟨rfl, rfl⟩

theorem noClash_of_collides {κ : Type} {net : List (Sender κ)} (hn : Fleet net) (e : BlockCipher κ)
    (h : ∀ d, ¬ Collides (fun _ => sentNodes net) (fun _ => sentTargets net) e d) : NoClash e net := by
  intro key level level' nonce nonce' payload payload' hs hs' b hb i hi heq
  rw [mem_macInputs] at hb
  obtain ⟨n, hnm, rfl⟩ := hb
  refine (sent_trie hn).allowed (h n.length) (k := key) (n := n) ?_ (Nat.le_refl _) ?_
  · unfold sentNodes
    rw [List.mem_flatMap]
    refine ⟨(key, level, nonce, payload), (mem_sentList hn e _).2 hs, ?_⟩
    unfold nodesOf
    rw [List.mem_map]
    exact ⟨n, hnm, rfl⟩
  · show _ ∈ sentTargets net
    unfold sentTargets
    rw [List.mem_flatMap]
    refine ⟨(key, level', nonce', payload'), (mem_sentList hn e _).2 hs', ?_⟩
    unfold targetsOf
    rw [List.mem_map]
    exact ⟨i, List.mem_range.2 (by omega), by rw [heq]⟩

/-- **C87** The chance that the cipher is given a counter block while authenticating, over all frames of all
devices. -/
theorem C87_clash_is_rare {κ : Type} [Finite κ] (net : List (Sender κ)) (hn : Fleet net) :
    ChanceAtMost (fun e => ¬ NoClash e net) (162 * writes net ^ 2) (2 ^ 128) := by
  have h1 := (sent_trie hn).collides_rare (9 * writes net) (9 * writes net) (fun _ => sentNodes_length hn)
    (fun _ => sentTargets_length net)
  have h2 : howMany (fun e => ¬ NoClash e net) ≤
      howMany (fun e => ∃ d, Collides (fun _ => sentNodes net) (fun _ => sentTargets net) e d) :=
    howMany_mono (fun e he => by
      apply Classical.byContradiction
      intro hc
      exact he (noClash_of_collides hn e (fun d hd => hc ⟨d, hd⟩)))
  unfold ChanceAtMost at *
  have h3 : 9 * writes net * (9 * writes net + 9 * writes net) = 162 * writes net ^ 2 := by ring
  rw [h3] at h1
  exact Nat.le_trans (Nat.mul_le_mul_right _ h2) h1

theorem alike_fleets_symm {κ : Type} {net net' : List (Sender κ)} (h : AlikeFleets net net') : AlikeFleets net' net := by
  refine ⟨h.1.symm, fun i s s' hs hs' => ?_⟩
  obtain ⟨h1, h2, h3⟩ := h.2 i s' s hs' hs
  refine ⟨h1.symm, h2.symm, h3.1.symm, fun p c c' hc hc' => ?_⟩
  obtain ⟨a1, a2, a3, a4, a5, a6⟩ := h3.2 p c' c hc' hc
  refine ⟨a1.symm, a2.symm, a3.symm, a4.symm, a5.symm, ?_⟩
  rcases a6 with a6 | ⟨a6, aux, a7, a8⟩
  · exact .inl a6.symm
  · exact .inr ⟨a6.symm, aux, by rw [a3]; exact a7, a8⟩

theorem alike_writes {κ : Type} {net net' : List (Sender κ)} (h : AlikeFleets net net') : writes net' = writes net := by
  unfold writes
  congr 1
  apply List.ext_getElem?
  intro i
  rw [List.getElem?_map, List.getElem?_map]
  rcases alike_net_get h i with ⟨h1, h2⟩ | ⟨s, s', h1, h2, _, _, ha⟩
  · rw [h1, h2]
  · rw [h1, h2]; simp [ha.1]

theorem secrecy_half {κ : Type} [Finite κ] (net net' : List (Sender κ)) (hn : Fleet net) (h : AlikeFleets net net')
    (D : (Nat → Nat → Option (List UInt8)) → Prop) :
    howMany (fun e => D (observed e net)) * 2 ^ 128 ≤
      howMany (fun e => D (observed e net')) * 2 ^ 128 + 324 * writes net ^ 2 * howManyCiphers κ := by
  have hn' := alike_network hn h
  obtain ⟨φ, hφ, hg⟩ := C85_secrecy net net' hn h
  have h1 : howMany (fun e => D (observed e net)) ≤
      howMany (fun e => ((NoClash e net ∧ NoClash e net') ∧ D (observed e net)) ∨ (¬ NoClash e net ∨ ¬ NoClash e net')) :=
    howMany_mono (fun e he => by
      by_cases c1 : NoClash e net
      · by_cases c2 : NoClash e net'
        · exact .inl ⟨⟨c1, c2⟩, he⟩
        · exact .inr (.inr c2)
      · exact .inr (.inl c1))
  have h2 := howMany_or (fun e => (NoClash e net ∧ NoClash e net') ∧ D (observed e net))
    (fun e => ¬ NoClash e net ∨ ¬ NoClash e net')
  have h3 := howMany_or (fun e => ¬ NoClash e net) (fun e => ¬ NoClash e net')
  have h4 : howMany (fun e => (NoClash e net ∧ NoClash e net') ∧ D (observed e net)) ≤
      howMany (fun e => D (observed e net')) :=
    howMany_inj φ (fun e he => by rw [(hg e he.1).2]; exact he.2) (fun e e' _ _ heq => by
      rw [← hφ e, heq, hφ])
  have h5 := C87_clash_is_rare net hn
  have h6 := C87_clash_is_rare net' hn'
  unfold ChanceAtMost at h5 h6
  rw [alike_writes h] at h6
  have h7 : 324 * writes net ^ 2 * howManyCiphers κ =
      162 * writes net ^ 2 * howManyCiphers κ + 162 * writes net ^ 2 * howManyCiphers κ := by ring
  rw [h7]
  have h8 : howMany (fun e => D (observed e net)) ≤ howMany (fun e => D (observed e net')) +
    (howMany (fun e => ¬ NoClash e net) + howMany (fun e => ¬ NoClash e net')) := by omega
  generalize 2 ^ 128 = Q at *
  have h9 := Nat.mul_le_mul_right Q h8
  rw [Nat.add_mul, Nat.add_mul] at h9
  omega

/-- **C87** Whatever an observer concludes from all that goes over the air, tags included, he concludes with almost
the same chance whichever payloads are sent: the chances differ by at most `324 q² / 2^128`, where `q` is the number
of frame writes of all devices. -/
theorem C87_secrecy_bound {κ : Type} [Finite κ] (net net' : List (Sender κ)) (hn : Fleet net) (h : AlikeFleets net net')
    (D : (Nat → Nat → Option (List UInt8)) → Prop) :
    howMany (fun e => D (observed e net)) * 2 ^ 128 ≤
      howMany (fun e => D (observed e net')) * 2 ^ 128 + 324 * writes net ^ 2 * howManyCiphers κ ∧
    howMany (fun e => D (observed e net')) * 2 ^ 128 ≤
      howMany (fun e => D (observed e net)) * 2 ^ 128 + 324 * writes net ^ 2 * howManyCiphers κ := by
  refine ⟨secrecy_half net net' hn h D, ?_⟩
  have := secrecy_half net' net (alike_network hn h) (alike_fleets_symm h) D
  rwa [alike_writes h] at this

/-- **C87** Without the tags the chances are the same. -/
theorem C87_perfect_before_tags {κ : Type} [Finite κ] (net net' : List (Sender κ)) (hn : Fleet net)
    (h : AlikeFleets net net') (D : (Nat → Nat → Option (List UInt8)) → Prop) :
    howMany (fun e => D (observedBeforeTag e net)) = howMany (fun e => D (observedBeforeTag e net')) := by
  obtain ⟨φ, hφ, hg⟩ := C85_secrecy_before_tags net net' hn h
  apply Nat.le_antisymm
  · exact howMany_inj φ (fun e he => by rw [hg]; exact he) (fun e e' _ _ heq => by rw [← hφ e, heq, hφ])
  · exact howMany_inj φ (fun e he => by
      have := hg (φ e)
      rw [hφ] at this
      rw [← this]; exact he) (fun e e' _ _ heq => by rw [← hφ e, heq, hφ])

/-- The sample sender, with keys out of a finite set. -/
def sampleKeyed : SecCtx (Fin 16) := ⟨0x0102030405060708, 0x01020304, fun _ _ _ => some (9, 5)⟩

/-- It sends two frames. -/
def sampleFleet (a b : List UInt8) : List (Sender (Fin 16)) := [⟨sampleCfg, sampleKeyed, samplePair a b⟩]

theorem sampleFleet_fleet (a b : List UInt8) : Fleet (sampleFleet a b) := by
  refine ⟨by simp [sampleFleet], ?_⟩
  intro s hs c hc
  rw [sampleFleet, List.mem_singleton] at hs
  subst hs
  simp only [samplePair, List.mem_cons, List.not_mem_nil, or_false] at hc
  rcases hc with rfl | rfl <;> trivial

/-- Witness for C87: two pairs of secrets, alike, sent over the air; there is an observer who tells them apart under
some cipher (so the chances are about something), and for two frames the bound is less than `2^-117`. -/
example :
    let secret := sampleFleet [0xde, 0xf0] (List.replicate 20 7)
    let other := sampleFleet [1, 2] (List.replicate 20 9)
    let D : (Nat → Nat → Option (List UInt8)) → Prop := fun o => (o 0 0).map (fun x => x.drop 25) = some [0xde, 0xf0, 0, 0, 0, 0]
    Fleet secret ∧ AlikeFleets secret other ∧ writes secret = 2 ∧
    D (observed (fun _ _ => Vector.replicate 16 0) secret) ∧ ¬ D (observed (fun _ _ => Vector.replicate 16 0) other) ∧
    324 * writes secret ^ 2 < 2 ^ 11 := by
  refine ⟨sampleFleet_fleet _ _, ⟨rfl, ?_⟩, by decide, by decide +kernel, by decide +kernel, by decide +kernel⟩
  intro i s s' hs hs'
  rcases i with _ | i
  · simp only [sampleFleet, List.getElem?_cons_zero, Option.some.injEq] at hs hs'
    subst hs hs'
    refine ⟨rfl, rfl, rfl, ?_⟩
    intro p c c' h h'
    rcases p with _ | _ | p
    · simp only [samplePair, List.getElem?_cons_zero, Option.some.injEq] at h h'
      subst h h'
      exact ⟨rfl, rfl, rfl, rfl, rfl, .inr ⟨rfl, sampleAux, rfl, by decide⟩⟩
    · simp only [samplePair, List.getElem?_cons_succ, List.getElem?_cons_zero, Option.some.injEq] at h h'
      subst h h'
      exact ⟨rfl, rfl, rfl, rfl, rfl, .inr ⟨rfl, sampleAux, rfl, by decide⟩⟩
    · simp [samplePair] at h
  · simp [sampleFleet] at hs

end Verif
