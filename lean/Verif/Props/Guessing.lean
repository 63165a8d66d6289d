import Verif.Spec.GuessSpec
import Verif.Props.Adaptive

/-!
# Guessing tags (C106)
-/

namespace Verif

open Spec Rfc3610

/-! ## Counting -/

theorem howMany_split {κ : Type} [Finite κ] (P Q : BlockCipher κ → Prop) (h : ∀ e, P e → Q e → False) :
    howMany (fun e => P e ∨ Q e) = howMany P + howMany Q :=
  Set.ncard_union_eq (Set.disjoint_left.2 fun e hp hq => h e hp hq) (Set.toFinite _) (Set.toFinite _)

theorem howMany_all {κ : Type} (P : BlockCipher κ → Prop) (h : ∀ e, P e) : howMany P = howManyCiphers κ := by
  unfold howMany howManyCiphers
  have : {e | P e} = Set.univ := Set.eq_univ_of_forall h
  rw [this, Set.ncard_univ]

section Count

variable {κ : Type} [Finite κ]

/-- The payload a body stands for. -/
def payAt (key : κ) (level : SecurityLevel) (nonce body : List UInt8) (e : BlockCipher κ) : List UInt8 :=
  unmasked (e key) level nonce body

/-- The tag that goes with a body. -/
def tagAt (key : κ) (level : SecurityLevel) (nonce body : List UInt8) (e : BlockCipher κ) : List UInt8 :=
  (protected_ (e key) level nonce (payAt key level nonce body e)).2

/-- The nonce's first counter block is not met while authenticating. -/
def FreeAt (key : κ) (level : SecurityLevel) (nonce body : List UInt8) (e : BlockCipher κ) : Prop :=
  counterBlock nonce 0 ∉ macInputs (e key) level nonce (payAt key level nonce body e)

omit [Finite κ] in
theorem tagAt_length (key : κ) (level : SecurityLevel) (nonce body : List UInt8) (e : BlockCipher κ) :
    (tagAt key level nonce body e).length = tagLength level := by
  unfold tagAt; rw [Job.authValue_at]; simp

variable (key : κ) (level : SecurityLevel) (nonce body : List UInt8)

omit [Finite κ] in
theorem pay_replaced (hn : nonce.length = 13) (hb : body.length < 2 ^ 16) (e : BlockCipher κ) (v : Block) :
    payAt key level nonce body (replaced e key (counterBlock nonce 0) v) = payAt key level nonce body e := by
  unfold payAt unmasked; split
  · rfl
  · exact encrypted_replaced e key nonce v hn key body hb _ hn

omit [Finite κ] in
/-- Replacing the value at the first counter block does not change what is chained. -/
theorem chained_free (e : BlockCipher κ) (h : FreeAt key level nonce body e) (v : Block) :
    macInputs (replaced e key (counterBlock nonce 0) v key) level nonce (payAt key level nonce body e) =
      macInputs (e key) level nonce (payAt key level nonce body e) ∧
    chained (replaced e key (counterBlock nonce 0) v key) (authenticatedAt level nonce (payAt key level nonce body e)) =
      chained (e key) (authenticatedAt level nonce (payAt key level nonce body e)) :=
  chain_congr (e key) _ _ (Vector.replicate 16 0) (fun b hb => replaced_off e key _ v key b
    (fun _ hbb => h (by rw [← hbb]; exact hb)))

omit [Finite κ] in
theorem free_replaced (hn : nonce.length = 13) (hb : body.length < 2 ^ 16) (e : BlockCipher κ)
    (h : FreeAt key level nonce body e) (v : Block) :
    FreeAt key level nonce body (replaced e key (counterBlock nonce 0) v) := by
  unfold FreeAt
  rw [pay_replaced key level nonce body hn hb, (chained_free key level nonce body e h v).1]
  exact h

/-- The octets the first counter block has to be mapped to, for the tag to be `t`. -/
def padFor (t : List UInt8) (e : BlockCipher κ) : Nat → UInt8 := fun i =>
  octet t i ^^^ octet (chained (e key) (authenticatedAt level nonce (payAt key level nonce body e))).toList i

theorem octet_block (v : Block) (i : Nat) (h : i < 16) : octet v.toList i = v[i] := by
  unfold octet
  rw [List.getElem?_eq_getElem (by simpa using h)]
  simp

omit [Finite κ] in
theorem tagAt_iff (t : List UInt8) (ht : t.length = tagLength level)
    (e : BlockCipher κ) : tagAt key level nonce body e = t ↔
      ∀ i (h : i < 16), i < tagLength level → (e key (counterBlock nonce 0))[i] = padFor key level nonce body t e i := by
  unfold tagAt padFor
  rw [Job.authValue_at]
  generalize chained (e key) (authenticatedAt level nonce (payAt key level nonce body e)) = c
  generalize e key (counterBlock nonce 0) = v
  have hT := tagLength_le level
  constructor
  · intro h i hi hit
    rw [← h]
    have : octet ((List.range (tagLength level)).map fun t => octet c.toList t ^^^ octet v.toList t) i =
        octet c.toList i ^^^ octet v.toList i := by
      unfold octet
      simp [hit]
    rw [this, ← octet_block v i hi]
    generalize octet c.toList i = a
    generalize octet v.toList i = b
    calc b = (a ^^^ a) ^^^ b := by rw [UInt8.xor_self, UInt8.zero_xor]
      _ = a ^^^ b ^^^ a := by ac_rfl
  · intro h
    apply List.ext_getElem
    · simp [ht]
    · intro i h1 h2
      have hi : i < tagLength level := by simpa using h1
      simp only [List.getElem_map, List.getElem_range]
      rw [octet_block v i (by omega), h i (by omega) hi]
      have : octet t i = t[i] := by unfold octet; rw [List.getElem?_eq_getElem h2]; rfl
      rw [this]
      generalize octet c.toList i = a
      generalize t[i] = b
      calc a ^^^ (b ^^^ a) = (a ^^^ a) ^^^ b := by ac_rfl
        _ = b := by rw [UInt8.xor_self, UInt8.zero_xor]

/-- Among the ciphers that do not meet the counter block, each tag has its share, at least. -/
theorem tag_share (hn : nonce.length = 13) (hb : body.length < 2 ^ 16) (t : List UInt8) (ht : t.length = tagLength level) :
    howMany (FreeAt key level nonce body) ≤
      howMany (fun e => tagAt key level nonce body e = t ∧ FreeAt key level nonce body e) * 256 ^ tagLength level := by
  have hT := tagLength_le level
  have hcard : Nat.card ({e // tagAt key level nonce body e = t ∧ FreeAt key level nonce body e} ×
      (Fin (tagLength level) → Fin 256)) =
      howMany (fun e => tagAt key level nonce body e = t ∧ FreeAt key level nonce body e) * 256 ^ tagLength level := by
    rw [Nat.card_prod, Nat.card_fun, Nat.card_fin, Nat.card_fin]
    rfl
  rw [← hcard]
  show Nat.card {e // FreeAt key level nonce body e} ≤ _
  let A := counterBlock nonce 0
  let s : BlockCipher κ → Fin (tagLength level) → Fin 256 := fun e i => (padFor key level nonce body t e i.val).toFin
  let φ : BlockCipher κ → BlockCipher κ := fun e => replaced e key A (withPrefix (tagLength level) (s e) (e key A))
  refine Nat.card_le_card_of_injective (fun a : {e // FreeAt key level nonce body e} =>
    (⟨⟨φ a.1, ?_⟩, fun i => ((a.1 key A)[i.val]'(by omega)).toFin⟩ :
      {e // tagAt key level nonce body e = t ∧ FreeAt key level nonce body e} × (Fin (tagLength level) → Fin 256))) ?_
  · refine ⟨(tagAt_iff key level nonce body t ht _).2 fun i hi hit => ?_, free_replaced key level nonce body hn hb _ a.2 _⟩
    have hc := (chained_free key level nonce body a.1 a.2 (withPrefix (tagLength level) (s a.1) (a.1 key A))).2
    have hp : padFor key level nonce body t (φ a.1) i = padFor key level nonce body t a.1 i := by
      unfold padFor
      rw [← hc, pay_replaced key level nonce body hn hb]
    rw [hp]
    have : φ a.1 key (counterBlock nonce 0) = withPrefix (tagLength level) (s a.1) (a.1 key A) := replaced_at _ _ _ _
    simp only [this, withPrefix_get, hit, dif_pos]
    exact UInt8.ofFin_toFin _
  · rintro ⟨e, he⟩ ⟨e', he'⟩ heq
    simp only [Prod.mk.injEq, Subtype.mk.injEq] at heq
    obtain ⟨h1, h2⟩ := heq
    have hv : withPrefix (tagLength level) (s e) (e key A) = withPrefix (tagLength level) (s e') (e' key A) := by
      have := congrFun (congrFun h1 key) A
      simpa only [φ, replaced_at] using this
    have hval : e key A = e' key A := by
      ext i hi
      by_cases hit : i < tagLength level
      · have := congrFun h2 ⟨i, hit⟩
        simp only at this
        rw [UInt8.toFin_inj.1 this]
      · have := congrArg (fun v : Block => v[i]'hi) hv
        simp only [withPrefix_get, hit] at this
        simpa using congrArg UInt8.toNat this
    have g := congrArg (fun d => replaced d key A (e key A)) h1
    simp only [φ, replaced_replaced, replaced_same] at g
    rw [hval, replaced_same] at g
    exact Subtype.ext g

/-- And at most, if no cipher meets the counter block. -/
theorem tag_share_most (hn : nonce.length = 13) (hb : body.length < 2 ^ 16) (t : List UInt8) (ht : t.length = tagLength level)
    (hf : ∀ e, FreeAt key level nonce body e) :
    howMany (fun e => tagAt key level nonce body e = t) * 256 ^ tagLength level ≤ howManyCiphers κ := by
  have hT := tagLength_le level
  refine howMany_resample (tagLength level) hT _ (fun e => some (key, counterBlock nonce 0,
    (List.range (tagLength level)).map (padFor key level nonce body t e))) ?_
  intro e he
  refine ⟨key, counterBlock nonce 0, (List.range (tagLength level)).map (padFor key level nonce body t e), ?_, ?_⟩
  · have := (tagAt_iff key level nonce body t ht e).1 he
    apply List.ext_getElem
    · simp [hT]
    · intro i h1 h2
      simp only [List.length_map, List.length_range] at h2
      simp only [List.getElem_take, List.getElem_map, List.getElem_range, Vector.getElem_toList]
      exact this i (by omega) h2
  · intro y
    have hc := (chained_free key level nonce body e (hf e) y).2
    have hp : padFor key level nonce body t (replaced e key (counterBlock nonce 0) y) = padFor key level nonce body t e := by
      funext i
      unfold padFor
      rw [pay_replaced key level nonce body hn hb, hc]
    simp only [hp]

theorem tags_share (hn : nonce.length = 13) (hb : body.length < 2 ^ 16) : ∀ (tags : List (List UInt8)), tags.Nodup →
    (∀ t ∈ tags, t.length = tagLength level) → tags.length * howMany (FreeAt key level nonce body) ≤
      howMany (fun e => tagAt key level nonce body e ∈ tags ∧ FreeAt key level nonce body e) * 256 ^ tagLength level := by
  intro tags
  induction tags with
  | nil => intro _ _; simp
  | cons t tags ih =>
    intro hnd hlen
    obtain ⟨hnot, hnd'⟩ := List.nodup_cons.1 hnd
    have h1 := ih hnd' (fun t ht => hlen t (by simp [ht]))
    have h2 := tag_share key level nonce body hn hb t (hlen t (by simp))
    have h3 : howMany (fun e => tagAt key level nonce body e ∈ t :: tags ∧ FreeAt key level nonce body e) =
        howMany (fun e => tagAt key level nonce body e = t ∧ FreeAt key level nonce body e) +
        howMany (fun e => tagAt key level nonce body e ∈ tags ∧ FreeAt key level nonce body e) := by
      rw [← howMany_split _ _ (by rintro e ⟨rfl, _⟩ ⟨h, _⟩; exact hnot h)]
      congr 1
      funext e
      rw [List.mem_cons, or_and_right]
    rw [h3, Nat.add_mul, List.length_cons, Nat.add_mul, Nat.one_mul]
    omega

theorem tags_share_most (hn : nonce.length = 13) (hb : body.length < 2 ^ 16) (hf : ∀ e, FreeAt key level nonce body e) :
    ∀ (tags : List (List UInt8)), (∀ t ∈ tags, t.length = tagLength level) →
    howMany (fun e => tagAt key level nonce body e ∈ tags) * 256 ^ tagLength level ≤ tags.length * howManyCiphers κ := by
  intro tags
  induction tags with
  | nil => intro _; simp [howMany]
  | cons t tags ih =>
    intro hlen
    have h1 := ih (fun t ht => hlen t (by simp [ht]))
    have h2 := tag_share_most key level nonce body hn hb t (hlen t (by simp)) hf
    have h3 := howMany_or (fun e => tagAt key level nonce body e = t) (fun e => tagAt key level nonce body e ∈ tags)
    have h4 : (fun e => tagAt key level nonce body e ∈ t :: tags) =
        fun e => tagAt key level nonce body e = t ∨ tagAt key level nonce body e ∈ tags := by
      funext e; rw [List.mem_cons]
    rw [h4, List.length_cons, Nat.add_mul, Nat.one_mul]
    calc _ ≤ (howMany (fun e => tagAt key level nonce body e = t) + howMany (fun e => tagAt key level nonce body e ∈ tags)) *
          256 ^ tagLength level := Nat.mul_le_mul_right _ h3
      _ ≤ _ := by rw [Nat.add_mul]; omega

omit [Finite κ] in
/-- With nothing to authenticate the cipher is given one block only. -/
theorem free_empty (ha : Authenticating level) (hn : nonce.length = 13) (e : BlockCipher κ) : FreeAt key level nonce [] e := by
  intro h
  have hp : payAt key level nonce [] e = [] := List.length_eq_zero_iff.1 (by unfold payAt; rw [unmasked_length]; rfl)
  rw [hp, mem_macInputs] at h
  obtain ⟨n, hm, heq⟩ := h
  obtain ⟨a, m, r, hr, hor⟩ := authenticatedAt_head level nonce []
  have hl : (authenticatedAt level nonce []).length ≤ 1 := by
    unfold authenticatedAt authenticated
    split <;> simp [blocks]
  rw [hr] at hl hm
  have : r = [] := by
    rw [List.length_cons] at hl
    exact List.length_eq_zero_iff.1 (by omega)
  subst this
  have hs : n = [firstBlock (tagLength level) nonce a m] := by
    simpa [suffixes] using hm
  subst hs
  rw [chainInp_root] at heq
  exact root_not_counter (κ := κ) (key, level, nonce, []) ha hn key (firstBlock (tagLength level) nonce a m)
    (by unfold nodesOf; rw [hr]; simp [suffixes]) nonce hn 0 heq

/-- The counter block is rarely met. -/
theorem free_mostly (g : Guess κ) (ha : Authenticating g.level) (hp : g.body.length < 65280) :
    ChanceAtMost (fun e => ¬ FreeAt g.key g.level g.nonce g.body e) (2 * ((g.body.length + 33) / 16) ^ 2) (2 ^ 128) := by
  have hfl : Fleet ([] : List (Sender κ)) := ⟨by simp, by simp⟩
  have had : Adaptive (fun _ : BlockCipher κ => []) (fun _ => some g) g.body.length :=
    ⟨fun _ => hfl, fun _ _ _ _ _ => ⟨rfl, rfl⟩, fun e h hg => by cases hg; exact Nat.le_refl _⟩
  have ht := guess_trie _ _ _ had
  have hs0 : sentNodes ([] : List (Sender κ)) = [] := List.eq_nil_iff_forall_not_mem.2 fun m hm => by
    unfold sentNodes at hm
    rw [List.mem_flatMap] at hm
    obtain ⟨m, hm, _⟩ := hm
    obtain ⟨s, hs, _⟩ := (mem_sentList hfl unimplementedCipher m).1 hm
    simp at hs
  have hs1 : sentTargets ([] : List (Sender κ)) = [] := List.eq_nil_iff_forall_not_mem.2 fun m hm => by
    unfold sentTargets at hm
    rw [List.mem_flatMap] at hm
    obtain ⟨m, hm, _⟩ := hm
    obtain ⟨s, hs, _⟩ := (mem_sentList hfl unimplementedCipher m).1 hm
    simp at hs
  have h1 := ht.collides_rare ((g.body.length + 33) / 16) ((g.body.length + 33) / 16)
    (fun e => by
      rw [List.length_append, hs0, List.length_nil, Nat.zero_add]
      exact guessNodes_length _ _ had.short hp e)
    (fun e => by
      rw [List.length_append, hs1, List.length_nil, Nat.zero_add]
      exact guessTargets_length _ _ e)
  unfold ChanceAtMost at *
  refine Nat.le_trans (Nat.mul_le_mul_right _ (howMany_mono ?_)) (Nat.le_trans h1 (Nat.le_of_eq (by rw [Nat.pow_two]; ring)))
  intro e he
  apply Classical.byContradiction
  intro hc
  apply he
  intro hb
  rw [mem_macInputs] at hb
  obtain ⟨n, hnm, heq⟩ := hb
  refine ht.allowed (e := e) (d := n.length) (fun hd => hc ⟨_, hd⟩) (k := g.key) (n := n) ?_ (Nat.le_refl _) ?_
  · rw [List.mem_append]
    right
    unfold guessNodes
    simp only [if_pos ha]
    unfold nodesOf
    rw [List.mem_map]
    exact ⟨n, hnm, rfl⟩
  · rw [List.mem_append]
    right
    unfold guessTargets targetsOf
    simp only
    rw [List.mem_map]
    exact ⟨0, List.mem_range.2 (by omega), by rw [heq]; rfl⟩

end Count

/-! ## Playing -/

section Play

variable {κ σ ι : Type}

/-- Header and key are found from the head and the receiver's keys. -/
theorem same_head {cfg : Cfg} {rc : SecCtx κ} {lookup lookup' : DevLookup σ} {dev dev' : σ} {head rest : List UInt8}
    {x y : Incoming κ σ} (hx : PassesChecks cfg rc lookup dev head x) (hw : x.headLength = head.length)
    (hy : PassesChecks cfg rc lookup' dev' (head ++ rest) y) :
    y.header = x.header ∧ y.headLength = head.length ∧ y.aux = x.aux ∧ y.eui = x.eui ∧ y.key = x.key ∧ y.source = x.source := by
  have h1 := (passes_local hx rest).1
  rw [hw, List.take_length] at h1
  have e1 := hy.read.symm.trans h1.read
  simp only [Out.ok.injEq, Prod.mk.injEq] at e1
  have e2 : y.aux = x.aux := by
    have := hy.aux; rw [e1.1, h1.aux] at this; simpa using this.symm
  have e3 : some (y.eui, y.key) = some (x.eui, x.key) := by rw [← hy.key, ← hx.key, e1.1, e2]
  have e4 : y.source = x.source := by
    have := hy.source; rw [e1.1, h1.source] at this; simpa using this.symm
  simp only [Option.some.injEq, Prod.mk.injEq] at e3
  exact ⟨e1.1, by rw [e1.2, hw], e2, e3.1, e3.2, e4⟩

/-- The head passes in every state of the table that has the same descriptor. -/
theorem head_passes {cfg : Cfg} {rc : SecCtx κ} {lookup : DevLookup σ} (table : DeviceTable ι lookup) {dev : σ} {head : List UInt8}
    {x : Incoming κ σ} (hx : PassesChecks cfg rc lookup dev head x) (hw : x.headLength = head.length) (dev' : σ)
    (hd : table.get dev' (table.identify x.source) = some x.device) (rest : List UInt8) :
    ∃ y, PassesChecks cfg rc lookup dev' (head ++ rest) y ∧ y.headLength = head.length ∧ y.aux = x.aux ∧ y.eui = x.eui ∧
      y.key = x.key ∧ table.get y.looked (table.identify x.source) = some x.device := by
  have h1 := (passes_local hx rest).1
  rw [hw, List.take_length] at h1
  have hfound := table.found dev' x.source
  rw [hd] at hfound
  cases hl : (lookup dev' .src x.source).2 with
  | none => rw [hl] at hfound; cases hfound
  | some r =>
    rw [hl] at hfound
    rcases r with ⟨e, store⟩
    simp only [Option.map_some, Option.some.injEq] at hfound
    subst hfound
    refine ⟨⟨x.header, x.headLength, x.aux, x.eui, x.key, x.source, (lookup dev' .src x.source).1, x.device, store⟩,
      ⟨h1.read, h1.data, h1.version, h1.aux, h1.level, h1.key, h1.source, by rw [← hl], h1.notExhausted, h1.fresh⟩,
      hw, rfl, rfl, rfl, ?_⟩
    rw [table.looking]; exact hd

theorem answerCount_snoc (l : List (Sight κ σ)) (a : Offer κ σ) (r : Answer κ σ) :
    answerCount (l ++ [.answered a r]) = answerCount l + 1 := by
  unfold answerCount
  rw [List.countP_append]
  rfl

variable {cfg : Cfg} {rc : SecCtx κ} {lookup : DevLookup σ} {dev : σ} {head : List UInt8} {x : Incoming κ σ}

theorem guesser_net (e : BlockCipher κ) (start : List (Sender κ)) (front : List UInt8) (tags : List (List UInt8)) (n : Nat) :
    (play e start (guesser cfg rc lookup dev front tags) n).net = start := by
  induction n with
  | zero => rfl
  | succ n ih =>
    unfold play
    simp only [guesser]
    cases tags[answerCount (play e start (guesser cfg rc lookup dev front tags) n).log]? with
    | none => exact ih
    | some t => exact ih

/-- Before the right tag is met nothing changes but the log. -/
theorem guesser_misses (table : DeviceTable ι lookup) (good : GoodHead cfg rc lookup dev head x) (e : BlockCipher κ)
    (start : List (Sender κ)) (body : List UInt8) (hp : body.length < 2 ^ 16)
    (tags : List (List UInt8))
    (hlen : ∀ t ∈ tags, t.length = tagLength x.level) (n : Nat) (hn : n ≤ tags.length)
    (hmiss : ∀ t ∈ tags.take n, t ≠ tagAt x.key x.level x.nonce body e) :
    let now := play e start (guesser cfg rc lookup dev (head ++ body) tags) n
    answerCount now.log = n ∧
      table.get (lookupState (fun _ => true) dev now.log) (table.identify x.source) = some x.device := by
  induction n with
  | zero =>
    refine ⟨rfl, ?_⟩
    have := table.found dev x.source
    rw [good.passes.device] at this
    exact this.symm
  | succ n ih =>
    obtain ⟨h1, h2⟩ := ih (by omega) (fun t ht => hmiss t (by
      have : tags.take n <+: tags.take (n + 1) := List.take_prefix_take_left (by omega)
      exact this.subset ht))
    simp only at h1 h2 ⊢
    have hget : tags[n]? = some tags[n] := List.getElem?_eq_getElem (by omega)
    have hne := hmiss tags[n] (by rw [List.mem_take_iff_getElem]; exact ⟨n, by omega, rfl⟩)
    have htl := hlen tags[n] (List.getElem_mem _)
    rw [play]
    simp only [guesser, h1, hget, Option.map_some]
    show answerCount (_ ++ [_]) = _ ∧ _
    generalize hlog : (play e start (guesser cfg rc lookup dev (head ++ body) tags) n).log = log at *
    obtain ⟨y, hy, y1, y2, y3, y4, y5⟩ := head_passes table good.passes good.whole _ h2 (body ++ tags[n])
    have hyl : y.level = x.level := by unfold Incoming.level; rw [y2]
    have hyn : y.nonce = x.nonce := by unfold Incoming.nonce; rw [hyl, y2, y3]
    have hdrop : (head ++ (body ++ tags[n])).drop y.headLength = body ++ tags[n] := by rw [y1, List.drop_left]
    have hacc := accepts_iff_tag cfg e rc lookup _ _ y hy (by rw [y2]; exact good.noPanic) body tags[n] hdrop
      (by rw [hyl]; exact htl) hp
    rw [hyl, hyn, y4] at hacc
    have hrej : ¬ AcceptsSecured cfg e rc lookup (lookupState (fun _ => true) dev log) (head ++ (body ++ tags[n])) :=
      fun h => hne (hacc.1 h)
    refine ⟨by rw [answerCount_snoc, h1], ?_⟩
    rw [lookupState_append]
    have hfin : (answer e ⟨cfg, ⟨.none, some rc⟩, lookup, lookupState (fun _ => true) dev log, head ++ body ++ tags[n]⟩).2.2.2 =
        y.looked := by
      have hr := Frame.receive_passed cfg (C50_ccm_laws e).toAeadTyped _ rc lookup _ hy
      unfold AcceptsSecured at hrej
      unfold answer
      simp only
      rw [List.append_assoc]
      rw [hr] at hrej ⊢
      simp only at hrej ⊢
      split
      · rfl
      · next hlt =>
        rw [if_neg hlt] at hrej
        split
        · rfl
        · next hu =>
          simp only [hu] at hrej
          split
          · rfl
          · next hno =>
            exfalso
            apply hrej
            rw [if_neg hno]
            exact ⟨_, _, rfl, by unfold Secured; rw [hy.aux]; rfl⟩
    simp only [lookupState, if_true]
    rw [hfin]
    exact y5

theorem plants_iff (table : DeviceTable ι lookup) (good : GoodHead cfg rc lookup dev head x) (e : BlockCipher κ)
    (start : List (Sender κ)) (body : List UInt8) (hp : body.length < 2 ^ 16)
    (tags : List (List UInt8))
    (hlen : ∀ t ∈ tags, t.length = tagLength x.level) (hnew : ¬ Sent e start x.key x.level x.nonce (payAt x.key x.level x.nonce body e)) :
    Plants e start (guesser cfg rc lookup dev (head ++ body) tags) (payAt x.key x.level x.nonce body e) ↔
      tagAt x.key x.level x.nonce body e ∈ tags := by
  have hfst : (protected_ (e x.key) x.level x.nonce (payAt x.key x.level x.nonce body e)).1 = body := by
    have : (protected_ (e x.key) x.level x.nonce (payAt x.key x.level x.nonce body e)).1 =
        unmasked (e x.key) x.level x.nonce (payAt x.key x.level x.nonce body e) := by
      unfold protected_; rw [unmasked]; split <;> rfl
    rw [this]
    exact unmasked_unmasked _ _ _ _
  have hplen : (payAt x.key x.level x.nonce body e).length = body.length := unmasked_length _ _ _ _
  constructor
  · rintro ⟨n, a, f, k, ha, hok, hpay, f', k', rc', y, hok', hs, hc, hy, -, -⟩
    unfold guesser at ha
    rw [Option.map_eq_some_iff] at ha
    obtain ⟨t, ht, ha⟩ := ha
    simp only [Move.offer.injEq] at ha
    subst ha
    have hf : f' = f := by rw [hok'] at hok; simp only [Out.ok.injEq, Prod.mk.injEq] at hok; exact hok.1
    subst hf
    obtain ⟨z, hz, -, -, hd⟩ := (C79_accepted_iff cfg e _ rc lookup _ (payAt x.key x.level x.nonce body e)).1 ⟨f', k, hok, hs, hpay⟩
    rw [List.append_assoc] at hz hd
    obtain ⟨-, z1, z2, z3, z4, -⟩ := same_head good.passes good.whole hz
    have hzl : z.level = x.level := by unfold Incoming.level; rw [z2]
    have hzn : z.nonce = x.nonce := by unfold Incoming.nonce; rw [hzl, z2, z3]
    rw [z1, List.drop_left, z4, hzl, hzn, hfst] at hd
    have hmem : t ∈ tags := List.mem_of_getElem? ht
    rw [List.append_cancel_left hd] at hmem
    exact hmem
  · intro hmem
    obtain ⟨n, hn, hnt, hmin⟩ : ∃ n, ∃ h : n < tags.length, tags[n] = tagAt x.key x.level x.nonce body e ∧
        ∀ t ∈ tags.take n, t ≠ tagAt x.key x.level x.nonce body e := by
      clear hlen
      induction tags with
      | nil => cases hmem
      | cons t tags ih =>
        by_cases h : t = tagAt x.key x.level x.nonce body e
        · exact ⟨0, by simp, h, by simp⟩
        · have hm : tagAt x.key x.level x.nonce body e ∈ tags := by
            rcases List.mem_cons.1 hmem with h' | h'
            · exact absurd h'.symm h
            · exact h'
          obtain ⟨n, hn, h1, h2⟩ := ih hm
          refine ⟨n + 1, by simp; omega, by simpa using h1, ?_⟩
          intro u hu
          rw [List.take_succ_cons, List.mem_cons] at hu
          rcases hu with rfl | hu
          · exact h
          · exact h2 u hu
    obtain ⟨h1, h2⟩ := guesser_misses table good e start body hp tags hlen n (by omega) hmin
    have hnet := guesser_net (cfg := cfg) (rc := rc) (lookup := lookup) (dev := dev) e start (head ++ body) tags n
    have hget : tags[n]? = some tags[n] := List.getElem?_eq_getElem hn
    generalize hnow : play e start (guesser cfg rc lookup dev (head ++ body) tags) n = now at *
    obtain ⟨y, hy, y1, y2, y3, y4, y5⟩ := head_passes table good.passes good.whole _ h2 (body ++ tags[n])
    have hyl : y.level = x.level := by unfold Incoming.level; rw [y2]
    have hyn : y.nonce = x.nonce := by unfold Incoming.nonce; rw [hyl, y2, y3]
    obtain ⟨f, k, hok, hs, hpay⟩ := (C79_accepted_iff cfg e (head ++ (body ++ tags[n])) rc lookup _ (payAt x.key x.level x.nonce body e)).2
      ⟨y, hy, by rw [y2]; exact good.noPanic, fun _ => by rw [hplen]; exact hp, by
        rw [y1, List.drop_left, hyl, hyn, y4, hfst, hnt]; rfl⟩
    refine ⟨n, ⟨cfg, ⟨.none, some rc⟩, lookup, lookupState (fun _ => true) dev now.log, head ++ body ++ tags[n]⟩, f, k, ?_, ?_, hpay,
      f, k, rc, y, ?_, hs, rfl, ?_, tag_four hy.level, ?_⟩
    · rw [hnow]
      simp only [guesser, h1, hget, Option.map_some]
    · unfold answer; simp only; rw [List.append_assoc]; exact hok
    · unfold answer; simp only; rw [List.append_assoc]; exact hok
    · simp only; rw [List.append_assoc]; exact hy
    · rw [hnow, hnet, hyl, hyn, y4, hpay]; exact hnew

theorem empty_clear (e : BlockCipher κ) (key : κ) (level : SecurityLevel) (nonce : List UInt8) :
    payAt key level nonce [] e = [] :=
  List.length_eq_zero_iff.1 (by unfold payAt; rw [unmasked_length]; rfl)

theorem mic_clear (e : BlockCipher κ) (key : κ) {level : SecurityLevel} (h : MicOnly level) (nonce payload : List UInt8) :
    payAt key level nonce payload e = payload := by
  unfold payAt unmasked; rw [if_pos h]

end Play

/-- How many ciphers have the tag of a body among these. -/
theorem tags_chance {κ : Type} [Finite κ] (g : Guess κ) (ha : Authenticating g.level) (hp : g.body.length < 65280)
    (tags : List (List UInt8)) (hnd : tags.Nodup) (hlen : ∀ t ∈ tags, t.length = tagLength g.level) :
    ChanceAtLeast (fun e => tagAt g.key g.level g.nonce g.body e ∈ tags)
      (tags.length * (2 ^ 128 - 2 * ((g.body.length + 33) / 16) ^ 2)) (256 ^ tagLength g.level * 2 ^ 128) := by
  unfold ChanceAtLeast
  have h1 := tags_share g.key g.level g.nonce g.body g.nonce_length (by omega) tags hnd hlen
  have h2 := free_mostly g ha hp
  have h3 : howMany (fun e => tagAt g.key g.level g.nonce g.body e ∈ tags ∧ FreeAt g.key g.level g.nonce g.body e) ≤
      howMany (fun e => tagAt g.key g.level g.nonce g.body e ∈ tags) := howMany_mono (fun e h => h.1)
  have h4 : howManyCiphers κ ≤ howMany (FreeAt g.key g.level g.nonce g.body) +
      howMany (fun e => ¬ FreeAt g.key g.level g.nonce g.body e) := by
    rw [← howMany_split _ _ (fun e h h' => h' h)]
    exact Nat.le_of_eq (howMany_all (κ := κ) _ (fun e => Classical.em (FreeAt g.key g.level g.nonce g.body e))).symm
  unfold ChanceAtMost at h2
  generalize howMany (fun e => tagAt g.key g.level g.nonce g.body e ∈ tags ∧ FreeAt g.key g.level g.nonce g.body e) = a at *
  generalize howMany (fun e => tagAt g.key g.level g.nonce g.body e ∈ tags) = b at *
  generalize howMany (FreeAt g.key g.level g.nonce g.body) = c at *
  generalize howMany (fun e => ¬ FreeAt g.key g.level g.nonce g.body e) = d at *
  generalize howManyCiphers κ = N at *
  generalize 2 * ((g.body.length + 33) / 16) ^ 2 = w at *
  have h5 : (2 ^ 128 - w) * N ≤ c * 2 ^ 128 := by
    rw [Nat.sub_mul]
    have : N * 2 ^ 128 ≤ (c + d) * 2 ^ 128 := Nat.mul_le_mul_right _ h4
    rw [Nat.add_mul] at this
    rw [Nat.mul_comm (2 ^ 128) N]
    omega
  calc tags.length * (2 ^ 128 - w) * N = tags.length * ((2 ^ 128 - w) * N) := Nat.mul_assoc _ _ _
    _ ≤ tags.length * (c * 2 ^ 128) := Nat.mul_le_mul_left _ h5
    _ = tags.length * c * 2 ^ 128 := (Nat.mul_assoc _ _ _).symm
    _ ≤ a * 256 ^ tagLength g.level * 2 ^ 128 := Nat.mul_le_mul_right _ h1
    _ ≤ b * 256 ^ tagLength g.level * 2 ^ 128 := Nat.mul_le_mul_right _ (Nat.mul_le_mul_right _ h3)
    _ = _ := Nat.mul_assoc _ _ _

/-! ## The property -/

/-- **C106** A receiver takes frames of every level with a tag, also of levels none of its devices uses, and answers as
many offers as are made: someone who knows a good head, and nothing else, and offers it with one tag after the other, has
an empty payload accepted with a chance of exactly the number of tags tried over the number of tags. -/
theorem C106_guessing_empty {κ σ ι : Type} [Finite κ] {cfg : Cfg} {rc : SecCtx κ} {lookup : DevLookup σ} (table : DeviceTable ι lookup)
    {dev : σ} {head : List UInt8} {x : Incoming κ σ} (good : GoodHead cfg rc lookup dev head x) (start : List (Sender κ))
    (hnew : ∀ e, ¬ Sent e start x.key x.level x.nonce []) (tags : List (List UInt8)) (hnd : tags.Nodup)
    (hlen : ∀ t ∈ tags, t.length = tagLength x.level) :
    ChanceExactly (fun e => Plants e start (guesser cfg rc lookup dev head tags) []) tags.length (256 ^ tagLength x.level) := by
  have hn : x.nonce.length = 13 := by simp [Incoming.nonce, nonceOctets]
  have hfree := free_empty x.key x.level x.nonce good.passes.level hn
  have heq : (fun e => Plants e start (guesser cfg rc lookup dev head tags) []) =
      fun e => tagAt x.key x.level x.nonce [] e ∈ tags := by
    funext e
    have := plants_iff table good e start [] (by decide) tags hlen (by rw [empty_clear]; exact hnew e)
    rw [List.append_nil, empty_clear] at this
    exact propext this
  unfold ChanceExactly
  rw [heq]
  refine Nat.le_antisymm (tags_share_most x.key x.level x.nonce [] hn (by decide) hfree tags hlen) ?_
  have h1 := tags_share x.key x.level x.nonce [] hn (by decide) tags hnd hlen
  have h2 : howMany (FreeAt x.key x.level x.nonce []) = howManyCiphers κ := howMany_all _ hfree
  have h3 : (fun e => tagAt x.key x.level x.nonce [] e ∈ tags ∧ FreeAt x.key x.level x.nonce [] e) =
      fun e => tagAt x.key x.level x.nonce [] e ∈ tags := by
    funext e
    exact propext (and_iff_left (hfree e))
  rwa [h2, h3] at h1

/-- **C106** At a level that does not encrypt it is any payload he likes that he has accepted, with a chance that is as good
as that: short of it by no more than the chance that the cipher meets the same block twice. -/
theorem C106_guessing_payload {κ σ ι : Type} [Finite κ] {cfg : Cfg} {rc : SecCtx κ} {lookup : DevLookup σ} (table : DeviceTable ι lookup)
    {dev : σ} {head : List UInt8} {x : Incoming κ σ} (good : GoodHead cfg rc lookup dev head x) (start : List (Sender κ))
    (payload : List UInt8) (hp : payload.length < 65280) (hmic : MicOnly x.level)
    (hnew : ∀ e, ¬ Sent e start x.key x.level x.nonce payload) (tags : List (List UInt8)) (hnd : tags.Nodup)
    (hlen : ∀ t ∈ tags, t.length = tagLength x.level) :
    ChanceAtLeast (fun e => Plants e start (guesser cfg rc lookup dev (head ++ payload) tags) payload)
      (tags.length * (2 ^ 128 - 2 * ((payload.length + 33) / 16) ^ 2)) (256 ^ tagLength x.level * 2 ^ 128) := by
  have heq : (fun e => Plants e start (guesser cfg rc lookup dev (head ++ payload) tags) payload) =
      fun e => tagAt x.key x.level x.nonce payload e ∈ tags := by
    funext e
    have := plants_iff table good e start payload (by omega) tags hlen (by rw [mic_clear e _ hmic]; exact hnew e)
    rw [mic_clear e _ hmic] at this
    exact propext this
  rw [heq]
  exact tags_chance (⟨x.key, x.level, x.eui, x.aux.frameCounter, payload, []⟩ : Guess κ) good.passes.level hp tags hnd hlen

/-- **C106** At a level that encrypts he does not know which payload it is, but he has one accepted with the same chance,
for any octets put in its place. -/
theorem C106_guessing_body {κ σ ι : Type} [Finite κ] {cfg : Cfg} {rc : SecCtx κ} {lookup : DevLookup σ} (table : DeviceTable ι lookup)
    {dev : σ} {head : List UInt8} {x : Incoming κ σ} (good : GoodHead cfg rc lookup dev head x) (start : List (Sender κ))
    (body : List UInt8) (hp : body.length < 65280) (hnew : ∀ e payload, ¬ Sent e start x.key x.level x.nonce payload)
    (tags : List (List UInt8)) (hnd : tags.Nodup) (hlen : ∀ t ∈ tags, t.length = tagLength x.level) :
    ChanceAtLeast (fun e => ∃ payload, payload.length = body.length ∧
        Plants e start (guesser cfg rc lookup dev (head ++ body) tags) payload)
      (tags.length * (2 ^ 128 - 2 * ((body.length + 33) / 16) ^ 2)) (256 ^ tagLength x.level * 2 ^ 128) := by
  have h := tags_chance (⟨x.key, x.level, x.eui, x.aux.frameCounter, body, []⟩ : Guess κ) good.passes.level hp tags hnd hlen
  unfold ChanceAtLeast at *
  refine Nat.le_trans h (Nat.mul_le_mul_right _ (howMany_mono fun e he => ?_))
  exact ⟨_, unmasked_length _ _ _ _, (plants_iff table good e start body (by omega) tags hlen (hnew e _)).2 he⟩

/-- **C106** And with all tags it is certain, whatever the cipher and the key: some payload of any length at every level, any
payload at a level that does not encrypt. -/
theorem C106_exhausting {κ σ ι : Type} {cfg : Cfg} {rc : SecCtx κ} {lookup : DevLookup σ} (table : DeviceTable ι lookup)
    {dev : σ} {head : List UInt8} {x : Incoming κ σ} (good : GoodHead cfg rc lookup dev head x) (e : BlockCipher κ)
    (start : List (Sender κ)) (body : List UInt8) (hp : body.length < 2 ^ 16)
    (hnew : ∀ payload, ¬ Sent e start x.key x.level x.nonce payload) (tags : List (List UInt8))
    (hall : ∀ t, t ∈ tags ↔ t.length = tagLength x.level) :
    ∃ payload, payload.length = body.length ∧ (MicOnly x.level → payload = body) ∧
      Plants e start (guesser cfg rc lookup dev (head ++ body) tags) payload :=
  ⟨_, unmasked_length _ _ _ _, fun h => mic_clear e _ h _ _, (plants_iff table good e start body hp tags (fun t ht => (hall t).1 ht) (hnew _)).2
    ((hall _).2 (tagAt_length x.key x.level x.nonce body e))⟩

/-- **C106** This attacker is within the limits of C91: he has nothing written, and one slice read for each tag. -/
theorem C106_within_limits {κ σ : Type} (cfg : Cfg) (rc : SecCtx κ) (lookup : DevLookup σ) (dev : σ) (front : List UInt8)
    (tags : List (List UInt8)) (T : Nat) (hlen : ∀ t ∈ tags, t.length = T) :
    Limited (guesser cfg rc lookup dev front tags) 0 tags.length (front.length + T) := by
  constructor
  · intro log i call h
    unfold guesser at h
    rw [Option.map_eq_some_iff] at h
    obtain ⟨_, _, h⟩ := h
    cases h
  · intro log a h
    unfold guesser at h
    rw [Option.map_eq_some_iff] at h
    obtain ⟨t, ht, h⟩ := h
    simp only [Move.offer.injEq] at h
    subst h
    obtain ⟨h1, rfl⟩ := List.getElem?_eq_some_iff.1 ht
    exact ⟨h1, by simp [hlen _ (List.getElem_mem h1)]⟩

/-- **C106** What devices send at other levels does not stand in the way: nothing is sent at a level at which none of them
writes. -/
theorem C106_other_levels {κ : Type} (e : BlockCipher κ) (start : List (Sender κ)) (level : SecurityLevel)
    (h : ∀ s ∈ start, ∀ c ∈ s.calls, ∀ aux, c.frame.header.auxSec = some aux → aux.control.securityLevel ≠ level)
    (key : κ) (nonce payload : List UInt8) : ¬ Sent e start key level nonce payload := by
  rintro ⟨s, hs, p, _, call, aux, _, hc, ha, hl, _⟩
  exact h s hs call (List.mem_of_getElem? hc) aux ha hl

/-- **C106** Nor is anything sent under the address of a device that is not among them, or a counter that has not been
reached. -/
theorem C106_other_address {κ : Type} (e : BlockCipher κ) (start : List (Sender κ)) (eui : UInt64) (counter : UInt32)
    (hc : ∀ s ∈ start, ∀ c ∈ s.calls, ContentFromApi c.frame.content)
    (h : ∀ s ∈ start, eui ≠ s.context.euid ∨
      (contextAfter s.cfg (Ccm.aead e) s.context s.calls).frameCounter.toNat ≤ counter.toNat)
    (key : κ) (level : SecurityLevel) (payload : List UInt8) :
    ¬ Sent e start key level (nonceOctets eui counter level) payload := by
  rintro ⟨s, hs, p, hsend⟩
  exact C86_not_spent s.cfg e s.context s.calls (hc s hs) eui counter level (h s hs) p key level _ payload hsend rfl

end Verif
