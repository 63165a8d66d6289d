import Verif.Lemmas.Stores
import Verif.Lemmas.FrameWrite
import Verif.Lemmas.Secure
import Verif.Props.Writers

/-!
# C102 Writes cut short anywhere, also in the middle of a store
-/

namespace Verif
open Spec

/-! ## Carried out to the end they are the writers of the model -/

section
variable {κ : Type}

theorem runWriting_stores (aead : Aead κ) (keys : KeyLookup κ) (st : List Store) (next : Writing κ) (b : List UInt8)
    (c : UInt32) : runWriting aead keys (.stores st next) b c = runWriting aead keys next (putAll st b) c := by
  induction st generalizing b with
  | nil => rfl
  | cons s st ih => exact ih (put s b)

/-- A block's stores seen from the whole buffer. -/
theorem SRel.shifted {α : Type} {B : Nat} {p : W α} {q : SW α} (h : SRels B p q) (pre sub : List UInt8) (off : Nat)
    (ho : off ≤ sub.length) :
    p sub off = ((q sub.length off).2.1, putAll (q sub.length off).1 sub, (q sub.length off).2.2) ∧
    putAll ((q sub.length off).1.map (Store.shift pre.length)) (pre ++ sub) = pre ++ putAll (q sub.length off).1 sub := by
  obtain ⟨e, h⟩ := h sub off ho
  exact ⟨h.eq, putAll_shift _ _ _ _ rfl⟩

theorem runWriting_doSecure (aead : Aead κ) (haead : AeadTyped aead) (keys : KeyLookup κ) (key : κ) (nonce : List UInt8)
    (secL : SecurityLevel) (t : Nat) (mic encmic : SecurityLevel) (pre sub : List UInt8) (offset : Nat)
    (ho : offset ≤ sub.length) (finish : Out SecErr Nat → Writing κ) (c : UInt32) :
    runWriting aead keys (doSecureS key nonce secL t mic encmic pre.length sub.length offset finish) (pre ++ sub) c =
      runWriting aead keys (finish (doSecure aead key nonce secL t mic encmic sub offset).1)
        (pre ++ (doSecure aead key nonce secL t mic encmic sub offset).2) c := by
  have hl := haead.encrypt_length t key nonce [] (sub.take offset)
  unfold doSecureS doSecure
  obtain ⟨enc, dec⟩ := aead
  by_cases h1 : secL = mic
  · simp only [if_pos h1, runWriting, List.drop_left]
    rcases enc t key nonce (sub.take offset) [] with ⟨tag, part⟩
    rcases tag with _ | tag
    · rfl
    dsimp only
    obtain ⟨h1, h2⟩ := SRel.shifted (SRels.write (TRels.bytes tag (Nat.le_refl _))) pre sub offset ho
    rw [h1]
    rcases hq : SW.write (storeBytes tag) sub.length offset with ⟨st, r, o⟩
    rw [hq] at h2
    dsimp only at h2 ⊢
    rcases r with _ | _ | _ <;> dsimp only <;> rw [runWriting_stores, h2]
  by_cases h2 : secL = encmic
  · simp only [if_neg h1, if_pos h2, runWriting, List.drop_left]
    dsimp only at hl
    rcases he : enc t key nonce [] (sub.take offset) with ⟨tag, part⟩
    rw [he] at hl
    dsimp only at hl ⊢
    have hb : (pre ++ sub).take pre.length ++ part ++ (pre ++ sub).drop (pre.length + offset) =
        pre ++ (part ++ sub.drop offset) := by
      rw [List.take_left, List.append_assoc, ← List.drop_drop, List.drop_left]
    rw [hb]
    rcases tag with _ | tag
    · rfl
    dsimp only
    have hlen : (part ++ sub.drop offset).length = sub.length := by
      rw [List.length_append, hl, List.length_take, List.length_drop]; omega
    obtain ⟨h1, h2⟩ := SRel.shifted (SRels.write (TRels.bytes tag (Nat.le_refl _))) pre (part ++ sub.drop offset) offset (by omega)
    rw [h1]
    rw [hlen] at h2 ⊢
    rcases hq : SW.write (storeBytes tag) sub.length offset with ⟨st, r, o⟩
    rw [hq] at h2
    dsimp only at h2 ⊢
    rcases r with _ | _ | _ <;> dsimp only <;> rw [runWriting_stores, h2]
  · simp only [if_neg h1, if_neg h2]

theorem runWriting_secure (aead : Aead κ) (haead : AeadTyped aead) (f : Frame) (sc : SecCtx κ) (mode : FooterMode)
    (pre sub : List UInt8) (finish : Out SecErr Nat → Writing κ) :
    runWriting aead sc.keyProvider (secureFrameS f sc.euid sc.frameCounter mode pre.length sub.length finish) (pre ++ sub)
        sc.frameCounter =
      runWriting aead sc.keyProvider (finish (secureFrame aead f sc mode sub).1)
        (pre ++ (secureFrame aead f sc mode sub).2.2) (secureFrame aead f sc mode sub).2.1.frameCounter := by
  unfold secureFrameS secureFrame
  cases mode with
  | explicit => rfl
  | none =>
    dsimp only
    split
    rotate_left
    · rfl
    split
    · rfl
    rcases f.header.auxSec with _ | aux
    · rfl
    dsimp only
    split
    · rfl
    obtain ⟨h1, h2⟩ := SRel.shifted (SRels.write (TRels.bytes f.payload (Nat.le_refl _))) pre sub 0 (Nat.zero_le _)
    obtain ⟨e, hr⟩ := SRels.write (TRels.bytes f.payload (Nat.le_refl _)) sub 0 (Nat.zero_le _)
    have hin := hr.inside
    have hok := hr.ok
    have hlen := hr.chain.putAll_length sub hin
    clear hr
    rw [h1]
    rcases hq : SW.write (storeBytes f.payload) sub.length 0 with ⟨st, r, o⟩
    rw [hq] at h2 hok hlen
    dsimp only at h2 hok hlen ⊢
    rcases r with _ | _ | _
    rotate_left
    · dsimp only; rw [runWriting_stores, h2]
    · dsimp only; rw [runWriting_stores, h2]
    dsimp only
    rw [runWriting_stores, h2]
    split
    · rfl
    split
    · rfl
    simp only [runWriting]
    rcases sc.keyProvider .dst aux.keyIdentifier f.header.destination with _ | ⟨_, key⟩
    · rfl
    dsimp only
    have ho : o ≤ (putAll st sub).length := by rw [hlen, hok () rfl]; exact hin
    have h := fun secL t mic encmic nonce c => runWriting_doSecure aead haead sc.keyProvider key nonce secL t mic encmic pre
      (putAll st sub) o ho finish c
    rw [hlen] at h
    generalize aux.control.securityLevel = l
    cases l
    case none => rfl
    case enc => rfl
    all_goals
      dsimp only
      rw [h]

/-- **C102** Carried out to the end, store by store, a frame write is the write of the model: result, buffer and counter.
-/
theorem C102_refines (cfg : Cfg) (aead : Aead κ) (haead : AeadTyped aead) (f : Frame) (mode : FooterMode) (sc : SecCtx κ)
    (buf : List UInt8) :
    runWriting aead sc.keyProvider (f.writing cfg mode (some (sc.euid, sc.frameCounter)) buf.length) buf sc.frameCounter =
      ((f.tryWrite cfg aead ⟨mode, some sc⟩ buf).1, (f.tryWrite cfg aead ⟨mode, some sc⟩ buf).2.1,
        ctxCounter (f.tryWrite cfg aead ⟨mode, some sc⟩ buf).2.2.securityCtx) := by
  have hfin : ∀ (sec : Bool) (b : List UInt8) (o : Nat) (c : UInt32) (sc' : SecCtx κ), sc'.frameCounter = c →
      o ≤ b.length → b.length = buf.length →
      runWriting aead sc.keyProvider (match f.tailStores mode sec buf.length o with
        | (st, .ok (), offset) => .stores st (.done (.ok offset))
        | (st, .err e, _) => .stores st (.done (.err e))
        | (st, .panic, _) => .stores st (.done .panic)) b c =
      ((Frame.finish f sec b o ⟨mode, some sc'⟩).1, (Frame.finish f sec b o ⟨mode, some sc'⟩).2.1,
        ctxCounter (Frame.finish f sec b o ⟨mode, some sc'⟩).2.2.securityCtx) := by
    intro sec b o c sc' hc ho hb
    obtain ⟨e, hr⟩ := f.tail_rels mode sec b o ho
    have h := hr.eq
    rw [hb] at h
    unfold Frame.finish
    dsimp only
    rw [h]
    rcases f.tailStores mode sec buf.length o with ⟨st, r, o'⟩
    rcases r with _ | _ | _ <;> dsimp only <;> rw [runWriting_stores] <;> simp [runWriting, ctxCounter, hc]
  obtain ⟨e, hr⟩ := f.head_rels cfg (some sc) buf 0 (Nat.zero_le _)
  have h1 := hr.eq
  have hin := hr.inside
  have hok := hr.ok
  have hlen := hr.chain.putAll_length buf hin
  clear hr
  rw [Frame.tryWrite_eq, h1]
  unfold Frame.writing
  dsimp only [Option.map] at hok hlen ⊢
  rcases hq : f.headStores cfg (some sc.frameCounter) buf.length 0 with ⟨st, r, o⟩
  rw [hq] at hok hlen
  dsimp only at hok hlen ⊢
  rcases r with _ | _ | _
  rotate_left
  · dsimp only; rw [runWriting_stores]; simp [runWriting, ctxCounter]
  · dsimp only; rw [runWriting_stores]; simp [runWriting, ctxCounter]
  dsimp only
  rw [runWriting_stores]
  have ho : o ≤ (putAll st buf).length := by rw [hlen, hok () rfl]; exact hin
  have hsplit : putAll st buf = (putAll st buf).take o ++ (putAll st buf).drop o := (List.take_append_drop _ _).symm
  have hs := runWriting_secure aead haead f sc mode ((putAll st buf).take o) ((putAll st buf).drop o)
  rw [List.length_take, List.length_drop, Nat.min_eq_left ho, hlen, List.take_append_drop] at hs
  rw [hs]
  clear hs
  unfold Frame.afterHead
  dsimp only
  have hsecl := secureFrame_contained haead f sc mode ((putAll st buf).drop o)
  rcases hsf : secureFrame aead f sc mode ((putAll st buf).drop o) with ⟨r, sc', sub⟩
  rw [hsf] at hsecl
  dsimp only at hsecl ⊢
  have hbl : ((putAll st buf).take o ++ sub).length = buf.length := by
    rw [List.length_append, List.length_take, hsecl.1, List.length_drop, Nat.min_eq_left ho, hlen]
    rw [hlen] at ho; omega
  rcases r with n | e | _
  · exact hfin true _ _ _ sc' rfl (by
      have := (hsecl.2 n rfl).1
      rw [hbl]; rw [List.length_drop, hlen] at this; rw [hlen] at ho; omega) hbl
  · cases e
    case securityNotEnabled => exact hfin false _ _ _ sc' rfl (by rw [hbl]; rw [hlen] at ho; exact ho) hbl
    all_goals rfl
  · rfl

/-- **C102** The same without a security context. -/
theorem C102_refines_without_context (cfg : Cfg) (aead : Aead κ) (keys : KeyLookup κ) (f : Frame) (mode : FooterMode)
    (buf : List UInt8) (c : UInt32) :
    runWriting aead keys (f.writing cfg mode none buf.length) buf c =
      ((f.tryWrite cfg aead ⟨mode, none⟩ buf).1, (f.tryWrite cfg aead ⟨mode, none⟩ buf).2.1, c) := by
  obtain ⟨e, hr⟩ := f.head_rels cfg (none : Option (SecCtx κ)) buf 0 (Nat.zero_le _)
  have h1 := hr.eq
  have hin := hr.inside
  have hok := hr.ok
  have hlen := hr.chain.putAll_length buf hin
  clear hr
  rw [Frame.tryWrite_eq, h1]
  unfold Frame.writing
  dsimp only [Option.map] at hok hlen ⊢
  rcases hq : f.headStores cfg none buf.length 0 with ⟨st, r, o⟩
  rw [hq] at hok hlen
  dsimp only at hok hlen ⊢
  rcases r with _ | _ | _
  rotate_left
  · dsimp only; rw [runWriting_stores]; simp [runWriting]
  · dsimp only; rw [runWriting_stores]; simp [runWriting]
  dsimp only
  rw [runWriting_stores]
  have ho : o ≤ (putAll st buf).length := by rw [hlen, hok () rfl]; exact hin
  obtain ⟨e, hr⟩ := f.tail_rels mode false (putAll st buf) o ho
  have h := hr.eq
  rw [hlen] at h
  unfold Frame.afterHead Frame.finish
  dsimp only
  rw [h]
  rcases f.tailStores mode false buf.length o with ⟨st, r, o'⟩
  rcases r with _ | _ | _ <;> dsimp only <;> rw [runWriting_stores] <;> simp [runWriting]

end

/-! ## Where stores can be cut -/

/-- All octets of some stores in a row. -/
def catStores (st : List Store) : List UInt8 := st.flatMap (·.octets)

theorem Chain.end_eq {o e : Nat} {st : List Store} (h : Chain o st e) : e = o + (catStores st).length := by
  induction st generalizing o with
  | nil => exact h.symm
  | cons s st ih => have := ih h.2; simp [catStores] at this ⊢; omega

theorem Chain.putAll_eq {o e : Nat} {st : List Store} (h : Chain o st e) (buf : List UInt8) (hl : e ≤ buf.length) :
    putAll st buf = buf.take o ++ catStores st ++ buf.drop e := by
  induction st generalizing o buf with
  | nil => cases h; simp [putAll, catStores]
  | cons s st ih =>
    have hle := h.2.le
    have hl' := put_length s buf (by rw [h.1]; omega)
    have := ih h.2 (put s buf) (by omega)
    show putAll st (put s buf) = _
    rw [this]
    have ha : (buf.take s.pos ++ s.octets).length = o + s.octets.length := by
      rw [List.length_append, List.length_take, h.1, Nat.min_eq_left (by omega)]
    have h1 : (put s buf).take (o + s.octets.length) = buf.take o ++ s.octets := by
      unfold put
      rw [List.take_left' ha, h.1]
    have h2 : (put s buf).drop e = buf.drop e := by
      unfold put
      rw [List.drop_append, List.drop_of_length_le (by omega), List.nil_append, ha, List.drop_drop, h.1]
      congr 1; omega
    rw [h1, h2]
    simp [catStores]

/-- The buffer with the first `o` octets of `enc` in it. -/
def upTo (enc buf : List UInt8) (o : Nat) : List UInt8 := enc.take o ++ buf.drop o

theorem upTo_length {enc buf : List UInt8} {o : Nat} (h1 : o ≤ enc.length) (h2 : o ≤ buf.length) :
    (upTo enc buf o).length = buf.length := by
  simp [upTo]; omega

theorem upTo_get {enc buf : List UInt8} {o : Nat} (h1 : o ≤ enc.length) (i : Nat) :
    (upTo enc buf o)[i]? = if i < o then enc[i]? else buf[i]? := by
  unfold upTo
  have hl : (enc.take o).length = o := by simp; omega
  split
  · rename_i h
    rw [List.getElem?_append_left (by omega), List.getElem?_take_of_lt h]
  · rename_i h
    rw [List.getElem?_append_right (by omega), List.getElem?_drop, hl]
    congr 1; omega

theorem upTo_part {enc buf : List UInt8} {o : Nat} (h1 : o ≤ enc.length) (h2 : o ≤ buf.length) :
    PartWritten enc buf (upTo enc buf o) o o := by
  refine ⟨upTo_length h1 h2, Nat.le_refl _, ⟨h1, h2⟩, fun i h => ?_, fun i h => ?_, fun i => ?_⟩
  · rw [upTo_get h1, if_pos h]
  · rw [upTo_get h1, if_neg (by omega)]
  · rw [upTo_get h1]; split
    · exact .inr rfl
    · exact .inl rfl

theorem put_upTo {enc buf : List UInt8} {o : Nat} {s : Store} (hp : s.pos = o) (hs : s.octets <+: enc.drop o)
    (h2 : o + s.octets.length ≤ buf.length) (h1 : o ≤ enc.length) :
    put s (upTo enc buf o) = upTo enc buf (o + s.octets.length) := by
  obtain ⟨t, ht⟩ := hs
  have hl : (enc.take o).length = o := by simp; omega
  have he : enc = enc.take o ++ s.octets ++ t := by rw [List.append_assoc, ht, List.take_append_drop]
  unfold put upTo
  rw [hp, List.take_left' hl, ← List.drop_drop, List.drop_left' hl, List.drop_drop]
  conv => rhs; rw [he]
  rw [List.take_left' (by rw [List.length_append, hl])]

theorem torn_upTo {enc buf buf' : List UInt8} {o : Nat} {s : Store} (hp : s.pos = o) (hs : s.octets <+: enc.drop o)
    (h2 : o + s.octets.length ≤ buf.length) (h1 : o ≤ enc.length) (ht : Torn s (upTo enc buf o) buf') :
    PartWritten enc buf buf' o (o + s.octets.length) := by
  have hlen := hs.length_le
  rw [List.length_drop] at hlen
  have hoct : ∀ i, i < s.octets.length → s.octets[i]? = enc[o + i]? := by
    intro i hi
    obtain ⟨t, ht⟩ := hs
    rw [← List.getElem?_drop, ← ht, List.getElem?_append_left hi]
  refine ⟨by rw [ht.length, upTo_length h1 (by omega)], by omega, ⟨by omega, h2⟩, fun i hi => ?_, fun i hi => ?_, fun i => ?_⟩
  · rcases ht.octet i with h | ⟨h, _⟩
    · rw [h, upTo_get h1, if_pos hi]
    · omega
  · rcases ht.octet i with h | ⟨_, h, _⟩
    · rw [h, upTo_get h1, if_neg (by omega)]
    · omega
  · rcases ht.octet i with h | ⟨h, h', h''⟩
    · rw [h, upTo_get h1]; split
      · exact .inr rfl
      · exact .inl rfl
    · refine .inr ?_
      rw [h'', hoct _ (by omega)]
      congr 1; omega

theorem cutStores_nil {buf buf' : List UInt8} (h : CutStores [] buf buf') : buf' = buf := by
  obtain ⟨d, hd, h⟩ := h
  cases List.prefix_nil.1 hd
  rcases h with h | ⟨s, hs, _⟩
  · exact h
  · cases List.prefix_nil.1 hs

theorem cutStores_cons {s : Store} {st : List Store} {buf buf' : List UInt8} (h : CutStores (s :: st) buf buf') :
    buf' = buf ∨ Torn s buf buf' ∨ CutStores st (put s buf) buf' := by
  obtain ⟨d, hd, h⟩ := h
  cases d with
  | nil =>
    rcases h with h | ⟨x, hx, ht⟩
    · exact .inl h
    · have : x = s := by
        obtain ⟨t, ht⟩ := hx
        simp at ht; exact ht.1
      subst this
      exact .inr (.inl ht)
  | cons a d =>
    have ha := (List.cons_prefix_cons.1 hd)
    obtain ⟨rfl, hd'⟩ := ha
    refine .inr (.inr ⟨d, hd', ?_⟩)
    rcases h with h | ⟨x, hx, ht⟩
    · exact .inl h
    · exact .inr ⟨x, (List.cons_prefix_cons.1 hx).2, ht⟩

/-- Stores in a row that put down `enc`, cut anywhere. -/
theorem Chain.cut {enc buf buf' : List UInt8} {o e : Nat} {st : List Store} (hc : Chain o st e)
    (hcat : catStores st <+: enc.drop o) (h1 : o ≤ enc.length) (h2 : e ≤ buf.length) (h : CutStores st (upTo enc buf o) buf') :
    ∃ k k', PartWritten enc buf buf' k k' ∧ k' ≤ e ∧ o ≤ k ∧ (k = k' ∨ ∃ s ∈ st, k = s.pos ∧ k' = s.pos + s.octets.length) := by
  induction st generalizing o with
  | nil =>
    have := cutStores_nil h
    subst this
    cases hc
    exact ⟨e, e, upTo_part h1 h2, Nat.le_refl _, Nat.le_refl _, .inl rfl⟩
  | cons s st ih =>
    have hle := hc.2.le
    have hcat' : s.octets ++ catStores st <+: enc.drop o := hcat
    have hs : s.octets <+: enc.drop o := (List.prefix_append _ _).trans hcat'
    have hl := hs.length_le
    rw [List.length_drop] at hl
    rcases cutStores_cons h with h | h | h
    · subst h
      exact ⟨o, o, upTo_part h1 (by omega), by omega, Nat.le_refl _, .inl rfl⟩
    · exact ⟨o, o + s.octets.length, torn_upTo hc.1 hs (by omega) h1 h, hle, Nat.le_refl _,
        .inr ⟨s, .head _, hc.1.symm, by rw [hc.1]⟩⟩
    · rw [put_upTo hc.1 hs (by omega) h1] at h
      have hcat2 : catStores st <+: enc.drop (o + s.octets.length) := by
        obtain ⟨t, ht⟩ := hcat'
        refine ⟨t, ?_⟩
        rw [← List.drop_drop, ← ht, List.append_assoc, List.drop_left]
      obtain ⟨k, k', h3, h4, h6, h5⟩ := ih hc.2 hcat2 (by omega) h
      refine ⟨k, k', h3, h4, by omega, ?_⟩
      rcases h5 with h5 | ⟨x, hx, h5⟩
      · exact .inl h5
      · exact .inr ⟨x, .tail _ hx, h5⟩

/-- Stores that depend on the room only and always leave part of `enc` put down part of `enc`. -/
theorem prefix_of_any {cat enc : List UInt8} {n : Nat} (hn : cat.length ≤ n)
    (h : ∀ b : List UInt8, b.length = n → ∃ k, k ≤ enc.length ∧ cat ++ b.drop cat.length = upTo enc b k) : cat <+: enc := by
  rw [List.prefix_iff_getElem?]
  intro i hi
  have hget : ∀ b : List UInt8, b.length = n → cat[i]? = enc[i]? ∨ cat[i]? = b[i]? := by
    intro b hb
    obtain ⟨k, hk, he⟩ := h b hb
    have := congrArg (·[i]?) he
    simp only [upTo_get hk] at this
    rw [List.getElem?_append_left hi] at this
    split at this
    · exact .inl this
    · exact .inr this
  rcases hget (List.replicate n 0) (by simp) with h0 | h0
  · rw [← h0, List.getElem?_eq_getElem hi]
  · rcases hget (List.replicate n 1) (by simp) with h1 | h1
    · rw [← h1, List.getElem?_eq_getElem hi]
    · rw [List.getElem?_replicate, if_pos (by omega)] at h0 h1
      rw [h0] at h1
      exact absurd (Option.some.inj h1) (by decide)

/-- What the stores of a block with a known encoding are. -/
theorem SRels.stores_of_spec {B : Nat} {p : W Unit} {q : SW Unit} (h : SRels B p q) {res : Out ByteErr Unit}
    {enc : List UInt8} (hs : WSpec p res enc) (n : Nat) :
    ∃ e, Chain 0 (q n 0).1 e ∧ e ≤ n ∧ catStores (q n 0).1 <+: enc ∧ (∀ s ∈ (q n 0).1, s.octets.length ≤ B) ∧
      ((q n 0).2.1 = .ok () → res = .ok () ∧ enc.length ≤ n ∧ (q n 0).2.2 = enc.length ∧ catStores (q n 0).1 = enc) := by
  have hex : ∀ b : List UInt8, b.length = n → ∃ k, k ≤ enc.length ∧ putAll (q n 0).1 b = upTo enc b k := by
    intro b hb
    subst hb
    obtain ⟨e, hr⟩ := h b 0 (Nat.zero_le _)
    have he := hr.eq
    by_cases hl : enc.length ≤ b.length
    · obtain ⟨off, h1, _⟩ := (hs [] b).1 hl
      simp only [List.nil_append, List.length_nil] at h1
      rw [h1] at he
      refine ⟨enc.length, Nat.le_refl _, ?_⟩
      simp only [Prod.mk.injEq] at he
      rw [← he.2.1, upTo, List.take_length]
    · obtain ⟨k, off, hk, h1⟩ := (hs [] b).2 (by omega)
      simp only [List.nil_append, List.length_nil] at h1
      rw [h1] at he
      simp only [Prod.mk.injEq] at he
      exact ⟨k, by omega, he.2.1.symm⟩
  obtain ⟨e, hr⟩ := h (List.replicate n 0) 0 (Nat.zero_le _)
  have hln : (List.replicate n (0 : UInt8)).length = n := by simp
  have hc := hr.chain
  have hin := hr.inside
  have hsm := hr.small
  have hok := hr.ok
  have heq := hr.eq
  rw [hln] at hc hin hsm hok heq
  have hend := hc.end_eq
  have hcat : catStores (q n 0).1 <+: enc := by
    refine prefix_of_any (n := n) (by omega) fun b hb => ?_
    obtain ⟨k, hk, he⟩ := hex b hb
    refine ⟨k, hk, ?_⟩
    rw [← he, hc.putAll_eq b (by omega), hend]
    simp
  refine ⟨e, hc, hin, hcat, hsm, fun hokr => ?_⟩
  by_cases hl : enc.length ≤ n
  · obtain ⟨off, h1, h2⟩ := (hs [] (List.replicate n 0)).1 (by simpa using hl)
    simp only [List.nil_append, List.length_nil] at h1
    rw [h1, hokr] at heq
    simp only [Prod.mk.injEq] at heq
    have hres := heq.1
    have ho := h2 ⟨(), hres⟩
    simp only [List.length_nil, Nat.zero_add] at ho
    have h3 := hok () hokr
    refine ⟨hres, hl, by rw [← heq.2.2, ho], ?_⟩
    exact hcat.eq_of_length (by rw [← heq.2.2, ho] at h3; omega)
  · obtain ⟨k, off, hk, h1⟩ := (hs [] (List.replicate n 0)).2 (by simpa using Nat.lt_of_not_le hl)
    simp only [List.nil_append, List.length_nil] at h1
    rw [h1, hokr] at heq
    simp only [Prod.mk.injEq] at heq
    cases heq.1

/-! ## Where a frame write can be cut -/

section
variable {κ : Type}

theorem Spec.Found.done_inv {r : Out ByteErr Nat} {b b' : List UInt8} {c c' : UInt32}
    (h : Found (.done r : Writing κ) b c b' c') : b' = b ∧ c' = c := by
  cases h
  exact ⟨rfl, rfl⟩

theorem Spec.Found.stores_inv {st : List Store} {next : Writing κ} {b b' : List UInt8} {c c' : UInt32}
    (h : Found (.stores st next) b c b' c') :
    CutStores st b b' ∧ c' = c ∨ Found next (putAll st b) c b' c' := by
  induction st generalizing b with
  | nil => exact .inr h
  | cons s st ih =>
    have h' : Found (.store s (.stores st next)) b c b' c' := h
    cases h' with
    | here => exact .inl ⟨⟨[], List.nil_prefix, .inl rfl⟩, rfl⟩
    | tearing ht => exact .inl ⟨⟨[], List.nil_prefix, .inr ⟨s, by simp, ht⟩⟩, rfl⟩
    | store h' =>
      rcases ih h' with ⟨⟨d, hd, h1⟩, hc⟩ | h1
      · refine .inl ⟨⟨s :: d, List.cons_prefix_cons.2 ⟨rfl, hd⟩, ?_⟩, hc⟩
        rcases h1 with h1 | ⟨x, hx, h1⟩
        · exact .inl h1
        · exact .inr ⟨x, List.cons_prefix_cons.2 ⟨rfl, hx⟩, h1⟩
      · exact .inr h1

theorem Spec.Torn.within {s : Store} {b b' : List UInt8} (h : Torn s b b') : Within s.pos s.octets.length b b' :=
  ⟨h.length, fun i hi => (h.octet i).elim id fun ⟨_, _, _⟩ => by omega⟩

theorem put_within (s : Store) (b : List UInt8) (hl : s.pos + s.octets.length ≤ b.length) :
    Within s.pos s.octets.length b (put s b) := by
  refine ⟨put_length s b hl, fun i hi => ?_⟩
  unfold put
  rcases hi with hi | hi
  · rw [List.append_assoc, List.getElem?_append_left (by simp; omega), List.getElem?_take_of_lt hi]
  · have ha : (b.take s.pos ++ s.octets).length = s.pos + s.octets.length := by simp; omega
    rw [List.getElem?_append_right (by omega), List.getElem?_drop, ha]
    congr 1; omega

theorem Spec.Within.refl (pos len : Nat) (b : List UInt8) : Within pos len b b := ⟨rfl, fun _ _ => rfl⟩

/-- What can be found while the cipher is called and the tag is stored. -/
theorem Spec.Found.doSecure_inv {key : κ} {nonce : List UInt8} {secL : SecurityLevel} {t : Nat} {mic encmic : SecurityLevel}
    {base room offset : Nat} {finish : Out SecErr Nat → Writing κ} {b b' : List UInt8} {c c' : UInt32}
    (hfin : ∀ r, r ≠ .err .securityNotEnabled → ∃ o, finish r = .done o) (hl : b.length = base + room) (ho : offset ≤ room)
    (h : Found (doSecureS key nonce secL t mic encmic base room offset finish) b c b' c') :
    c' = c ∧ ∃ b1, Within base (if secL = encmic ∧ secL ≠ mic then offset else 0) b b1 ∧ Within (base + offset) t b1 b' := by
  have hrest : ∀ (tag : Option (List UInt8)) (b1 : List UInt8), b1.length = base + room →
      (∀ x, tag = some x → x.length = t) →
      Found (match tag with
        | some tag =>
          match SW.write (storeBytes tag) room offset with
          | (st, .ok (), offset) => .stores (st.map (Store.shift base)) (finish (.ok offset))
          | (st, .err e, _) => .stores (st.map (Store.shift base)) (finish (.err (.writeError e)))
          | (st, .panic, _) => .stores (st.map (Store.shift base)) (finish .panic)
        | none => finish (.err .transformationError) : Writing κ) b1 c b' c' →
      c' = c ∧ Within (base + offset) t b1 b' := by
    intro tag b1 hb1 htag h
    rcases tag with _ | tag
    · obtain ⟨o, ho⟩ := hfin (.err .transformationError) (by simp)
      dsimp only at h
      rw [ho] at h
      obtain ⟨rfl, rfl⟩ := h.done_inv
      exact ⟨rfl, .refl _ _ _⟩
    · have ht := htag tag rfl
      dsimp only at h
      unfold SW.write storeBytes at h
      rw [if_neg (by omega)] at h
      by_cases hr : room - offset < tag.length
      · rw [if_pos hr] at h
        dsimp only [List.map] at h
        obtain ⟨o, ho⟩ := hfin (.err (.writeError .incomplete)) (by simp)
        rw [ho] at h
        obtain ⟨rfl, rfl⟩ := Found.done_inv h
        exact ⟨rfl, .refl _ _ _⟩
      · rw [if_neg hr] at h
        dsimp only [List.map, Store.shift, Nat.add_zero] at h
        obtain ⟨o, ho⟩ := hfin (.ok (offset + tag.length)) (by simp)
        rw [ho] at h
        have h' : Found (.store ⟨base + offset, tag⟩ (.done o) : Writing κ) b1 c b' c' := h
        cases h' with
        | here => exact ⟨rfl, .refl _ _ _⟩
        | tearing ht' => exact ⟨rfl, ht ▸ ht'.within⟩
        | store h' =>
          obtain ⟨rfl, rfl⟩ := h'.done_inv
          exact ⟨rfl, ht ▸ put_within ⟨base + offset, tag⟩ b1 (show base + offset + tag.length ≤ b1.length by omega)⟩
  unfold doSecureS at h
  dsimp only at h
  by_cases h1 : secL = mic
  · rw [if_pos h1] at h
    rw [if_neg (fun h => h.2 h1)]
    cases h with
    | here => exact ⟨rfl, b, .refl _ _ _, .refl _ _ _⟩
    | authenticate answer hans h =>
      obtain ⟨h2, h3⟩ := hrest answer b hl hans h
      exact ⟨h2, b, .refl _ _ _, h3⟩
  · rw [if_neg h1] at h
    by_cases h2 : secL = encmic
    · rw [if_pos h2] at h
      rw [if_pos ⟨h2, h1⟩]
      cases h with
      | here => exact ⟨rfl, b, .refl _ _ _, .refl _ _ _⟩
      | ciphering hw => exact ⟨rfl, b', hw, .refl _ _ _⟩
      | encrypt answer b1 hans hw h =>
        obtain ⟨h2, h3⟩ := hrest answer b1 (by rw [hw.length]; exact hl) hans h
        exact ⟨h2, b1, hw, h3⟩
    · rw [if_neg h2] at h
      obtain ⟨o, ho⟩ := hfin .panic (by simp)
      rw [ho] at h
      obtain ⟨rfl, rfl⟩ := Found.done_inv h
      exact ⟨rfl, b', .refl _ _ _, .refl _ _ _⟩

end

/-- The stores of payload and footer of an unsecured frame. -/
theorem Frame.tail_stores (f : Frame) (mode : FooterMode) (len off : Nat) (ho : off ≤ len) :
    ∃ e, Chain off (f.tailStores mode false len off).1 e ∧ e ≤ len ∧
      catStores (f.tailStores mode false len off).1 <+: f.payload ++ footerOctets mode f.footer ∧
      ∀ s ∈ (f.tailStores mode false len off).1, s = ⟨off, f.payload⟩ ∨ s.octets.length ≤ 8 := by
  have hp : f.tailStores mode false = (do
      SW.write (storeBytes f.payload)
      match mode with
      | .none => pure ()
      | .explicit => SW.write (storeBytes [f.footer.1, f.footer.2]) : SW Unit) := by
    unfold Frame.tailStores
    simp
    rfl
  rw [hp, SW.bind_eq]
  unfold SW.write storeBytes
  dsimp only
  rw [if_neg (by omega)]
  by_cases h1 : len - off < f.payload.length
  · rw [if_pos h1]
    exact ⟨off, rfl, ho, List.nil_prefix, fun s h => by cases h⟩
  rw [if_neg h1]
  dsimp only [List.map, Store.shift, Nat.add_zero]
  cases mode with
  | none =>
    refine ⟨off + f.payload.length, ⟨rfl, rfl⟩, by omega, ?_, ?_⟩
    · simp [catStores, pure, SW.pure]
    · intro s hs
      cases hs with
      | head => exact .inl rfl
      | tail _ hs => cases hs
  | explicit =>
    dsimp only
    rw [if_neg (by omega)]
    by_cases h2 : len - (off + f.payload.length) < [f.footer.1, f.footer.2].length
    · rw [if_pos h2]
      refine ⟨off + f.payload.length, ⟨rfl, rfl⟩, by omega, ?_, ?_⟩
      · simp [catStores]
      · intro s hs
        cases hs with
        | head => exact .inl rfl
        | tail _ hs => cases hs
    · rw [if_neg h2]
      simp only [List.length_cons, List.length_nil] at h2
      refine ⟨off + f.payload.length + 2, ⟨rfl, rfl, rfl⟩, by omega, ?_, ?_⟩
      · simp [catStores, footerOctets, Store.shift]
      · intro s hs
        cases hs with
        | head => exact .inl rfl
        | tail _ hs =>
          cases hs with
          | head => exact .inr (by simp [Store.shift])
          | tail _ hs => cases hs

/-- **C102** Wherever a frame write is cut short — between any two of its steps, in the middle of copying a field or the
payload, or inside the cipher — one of two things is found.  Either the counter has not moved, the buffer holds a first
part of the frame's octets in the clear and behind it what was there before, and between these at most one field (or
the payload) is torn, each of its octets being old or new.  Or the frame is a secured one, the counter has moved, the
header is in place, the payload too unless the cipher is to encrypt it, and behind the tag's place nothing has
changed. -/
theorem C102_cut_write {κ : Type} (cfg : Cfg) (f : Frame) (hcontent : ContentFromApi f.content) (mode : FooterMode) (euid : UInt64)
    (c c' : UInt32) (buf buf' : List UInt8)
    (h : Found (f.writing cfg mode (some (euid, c)) buf.length : Writing κ) buf c buf' c') :
    (c' = c ∧ ∃ k k', PartWritten (clearOctets cfg c mode f) buf buf' k k' ∧
      SmallTear (securedHead cfg c f).length f.payload.length k k') ∨
    (∃ aux, Sealing cfg c f mode aux buf buf' c') := by
  have hup0 : ∀ enc : List UInt8, upTo enc buf 0 = buf := fun enc => by simp [upTo]
  by_cases henc : Encodable f.header
  rotate_left
  · -- the header is refused
    have hclear : clearOctets cfg c mode f = le 2 (frameControl f.header false false false) ++ [f.header.seq] := by
      unfold clearOctets
      rw [if_pos]
      unfold Encodable at henc
      cases hp : f.header.panIdCompress <;> cases hd : f.header.destination <;> cases hs : f.header.source <;> simp_all
    obtain ⟨e, h1, h2, h3, h4, h5⟩ := (f.head_rels cfg (some (⟨euid, c, fun _ _ _ => none⟩ : SecCtx κ))).stores_of_spec
      (f.writeHead_refused cfg _ henc) buf.length
    rw [← hclear] at h3
    dsimp only [Option.map] at h1 h3 h4 h5
    unfold Frame.writing at h
    dsimp only [Option.map] at h
    rcases hq : f.headStores cfg (some c) buf.length 0 with ⟨st, r, o⟩
    rw [hq] at h h1 h3 h4 h5
    dsimp only at h h1 h3 h4 h5
    have hst : ∀ {r : Out ByteErr Nat}, Found (.stores st (.done r) : Writing κ) buf c buf' c' →
        CutStores st buf buf' ∧ c' = c := by
      intro r h
      rcases h.stores_inv with h | h
      · exact h
      · obtain ⟨rfl, rfl⟩ := h.done_inv
        exact ⟨⟨st, List.prefix_refl _, .inl rfl⟩, rfl⟩
    have hcut : CutStores st buf buf' ∧ c' = c := by
      rcases r with _ | _ | _
      · cases (h5 rfl).1
      · exact hst h
      · exact hst h
    obtain ⟨k, k', h6, _, _, h7⟩ := h1.cut (enc := clearOctets cfg c mode f) h3 (Nat.zero_le _) h2 (by rw [hup0]; exact hcut.1)
    refine .inl ⟨hcut.2, k, k', h6, .inl ?_⟩
    rcases h7 with rfl | ⟨s, hs, rfl, rfl⟩
    · omega
    · have := h4 s hs; omega
  have hclear : clearOctets cfg c mode f = securedHead cfg c f ++ f.payload ++ footerOctets mode f.footer := by
    unfold clearOctets
    rw [if_neg]
    unfold Encodable at henc
    cases hp : f.header.panIdCompress <;> cases hd : f.header.destination <;> cases hs : f.header.source <;> simp_all
  generalize hE : clearOctets cfg c mode f = enc at hclear ⊢
  have hhead : (securedHead cfg c f).length + f.payload.length ≤ enc.length := by
    rw [hclear]; simp
  obtain ⟨e, h1, h2, h3, h4, h5⟩ := (f.head_rels cfg (some (⟨euid, c, fun _ _ _ => none⟩ : SecCtx κ))).stores_of_spec
    (f.writeHead_ok cfg _ henc hcontent (fun _ => rfl)) buf.length
  dsimp only [Option.map, ctxCounter] at h1 h3 h4 h5
  have hsh : headerOctets f.header false false false (auxAsWritten cfg c f.header.auxSec) ++ contentOctets f.content =
    securedHead cfg c f := rfl
  rw [hsh] at h3 h5
  unfold Frame.writing at h
  dsimp only [Option.map] at h
  rcases hq : f.headStores cfg (some c) buf.length 0 with ⟨st, r, o⟩
  rw [hq] at h h1 h3 h4 h5
  dsimp only at h h1 h3 h4 h5
  have hcutHead : CutStores st buf buf' → c' = c → (c' = c ∧ ∃ k k', PartWritten enc buf buf' k k' ∧
      SmallTear (securedHead cfg c f).length f.payload.length k k') := by
    intro hcut hc
    have h3' : catStores st <+: enc := h3.trans (by rw [hclear, List.append_assoc]; exact List.prefix_append _ _)
    obtain ⟨k, k', h6, _, _, h7⟩ := h1.cut (enc := enc) h3' (Nat.zero_le _) h2 (by rw [hup0]; exact hcut)
    refine ⟨hc, k, k', h6, .inl ?_⟩
    rcases h7 with rfl | ⟨s, hs, rfl, rfl⟩
    · omega
    · have := h4 s hs; omega
  have hst : ∀ {r : Out ByteErr Nat}, Found (.stores st (.done r) : Writing κ) buf c buf' c' →
      CutStores st buf buf' ∧ c' = c := by
    intro r h
    rcases h.stores_inv with h | h
    · exact h
    · obtain ⟨rfl, rfl⟩ := h.done_inv
      exact ⟨⟨st, List.prefix_refl _, .inl rfl⟩, rfl⟩
  rcases r with u | e' | _
  rotate_left
  · exact .inl (hcutHead (hst h).1 (hst h).2)
  · exact .inl (hcutHead (hst h).1 (hst h).2)
  dsimp only at h
  rcases h.stores_inv with h | h
  · exact .inl (hcutHead h.1 h.2)
  obtain ⟨_, hroom, ho, hcat⟩ := h5 rfl
  -- header and content are in place
  have hbuf : putAll st buf = upTo enc buf o := by
    have := h1.end_eq
    rw [h1.putAll_eq buf h2, hcat, this, hcat, upTo, ho, hclear]
    simp
  rw [hbuf] at h
  have hoe : o ≤ enc.length := by omega
  have hob : o ≤ buf.length := by omega
  have here : ∀ {p : Nat}, p ≤ enc.length → p ≤ buf.length → buf' = upTo enc buf p → c' = c →
      (c' = c ∧ ∃ k k', PartWritten enc buf buf' k k' ∧
      SmallTear (securedHead cfg c f).length f.payload.length k k') := by
    intro p hp hp' hb hc
    subst hb
    exact ⟨hc, p, p, upTo_part hp hp', .inl (by omega)⟩
  unfold secureFrameS at h
  cases mode with
  | explicit =>
    dsimp only at h
    obtain ⟨hb, hc⟩ := h.done_inv
    exact .inl (here hoe hob hb hc)
  | none =>
    dsimp only at h
    split at h
    rotate_left
    · -- not secured: payload and footer
      obtain ⟨e2, g1, g2, g3, g4⟩ := f.tail_stores .none buf.length o hob
      have key : CutStores (f.tailStores .none false buf.length o).1 (upTo enc buf o) buf' ∧ c' = c := by
        rcases hq2 : f.tailStores .none false buf.length o with ⟨st2, r2, o2⟩
        rw [hq2] at h
        have hst2 : ∀ {r : Out ByteErr Nat}, Found (.stores st2 (.done r) : Writing κ) (upTo enc buf o) c buf' c' →
            CutStores st2 (upTo enc buf o) buf' ∧ c' = c := by
          intro r h
          rcases h.stores_inv with h | h
          · exact h
          · obtain ⟨rfl, rfl⟩ := h.done_inv
            exact ⟨⟨st2, List.prefix_refl _, .inl rfl⟩, rfl⟩
        rcases r2 with _ | _ | _
        · exact hst2 h
        · exact hst2 h
        · exact hst2 h
      obtain ⟨k, k', h6, _, _, h7⟩ := g1.cut (enc := enc) (by
        have hd : enc.drop o = f.payload ++ footerOctets .none f.footer := by
          rw [hclear, ho, List.append_assoc, List.drop_left]
        rw [hd]; exact g3) hoe g2 key.1
      refine .inl ⟨key.2, k, k', h6, ?_⟩
      rcases h7 with rfl | ⟨s, hs, rfl, rfl⟩
      · exact .inl (by omega)
      · rcases g4 s hs with rfl | hs
        · exact .inr ⟨ho, by simp only; omega⟩
        · exact .inl (by omega)
    rename_i hsec
    split at h
    · obtain ⟨hb, hc⟩ := h.done_inv
      exact .inl (here hoe hob hb hc)
    rename_i hdata
    rcases haux : f.header.auxSec with _ | aux
    · rw [haux] at h
      obtain ⟨hb, hc⟩ := h.done_inv
      exact .inl (here hoe hob hb hc)
    rw [haux] at h
    dsimp only at h
    split at h
    · obtain ⟨hb, hc⟩ := h.done_inv
      exact .inl (here hoe hob hb hc)
    have hsw : SW.write (storeBytes f.payload) (buf.length - o) 0 =
        if buf.length - o < f.payload.length then ([], .err .incomplete, 0)
        else ([⟨0, f.payload⟩], .ok (), f.payload.length) := by
      unfold SW.write storeBytes
      rw [if_neg (by omega), Nat.sub_zero]
      by_cases hlt : buf.length - o < f.payload.length
      · simp only [if_pos hlt, List.map]
      · simp only [if_neg hlt, List.map, Store.shift, Nat.zero_add]
    rw [hsw] at h
    by_cases hpl : buf.length - o < f.payload.length
    · rw [if_pos hpl] at h
      dsimp only [List.map] at h
      obtain ⟨hb, hc⟩ := Spec.Found.done_inv (κ := κ) h
      exact .inl (here hoe hob hb hc)
    rw [if_neg hpl] at h
    dsimp only [List.map, Store.shift, Nat.add_zero] at h
    have hpre : f.payload <+: enc.drop o := by
      rw [hclear, ho, List.append_assoc, List.drop_left]; exact List.prefix_append _ _
    have hput := put_upTo (s := ⟨o, f.payload⟩) rfl hpre (buf := buf) (by simp only; omega) hoe
    rcases h.stores_inv with h | h
    · rcases cutStores_cons h.1 with h' | h' | h'
      · exact .inl (here hoe hob h' h.2)
      · exact .inl ⟨h.2, _, _, torn_upTo rfl hpre (by simp only; omega) hoe h', .inr ⟨ho, by simp only; rw [ho]⟩⟩
      · rw [hput] at h'
        exact .inl (here (by simp only; omega) (by simp only; omega) (cutStores_nil h') h.2)
    have hput' : putAll [⟨o, f.payload⟩] (upTo enc buf o) = upTo enc buf (o + f.payload.length) := hput
    rw [hput'] at h
    have hfe : o + f.payload.length ≤ enc.length := by omega
    have hfb : o + f.payload.length ≤ buf.length := by omega
    split at h
    · obtain ⟨hb, hc⟩ := Spec.Found.done_inv (κ := κ) h
      exact .inl (here hfe hfb hb hc)
    rename_i hlev
    split at h
    · obtain ⟨hb, hc⟩ := Spec.Found.done_inv (κ := κ) h
      exact .inl (here hfe hfb hb hc)
    rename_i hmax
    cases h with
    | here => exact .inl (here hfe hfb rfl rfl)
    | setCounter h =>
    -- the counter has moved
    refine .inr ⟨aux, ?_⟩
    have sealing : c' = c + 1 → (∃ b1, Within o (if EncMic aux.control.securityLevel then f.payload.length else 0)
          (upTo enc buf (o + f.payload.length)) b1 ∧
        Within (o + f.payload.length) (tagLength aux.control.securityLevel) b1 buf') →
        Sealing cfg c f .none aux buf buf' c' := by
      rintro hc ⟨b1, w1, w2⟩
      have hlen := upTo_length hfe hfb
      refine ⟨⟨henc, hcontent, haux, Classical.not_not.1 hdata⟩, hlev, rfl, ⟨hmax, hc⟩, by omega, by rw [w2.length, w1.length, hlen],
        fun i hi => ?_, fun hne i hi => ?_, fun i hi => ?_⟩
      · rw [w2.outside i (.inl (by omega)), w1.outside i (.inl (by omega)), upTo_get hfe, if_pos (by omega), hclear,
          List.append_assoc, List.getElem?_append_left hi]
      · rw [if_neg hne] at w1
        rw [← ho, w2.outside _ (.inl (by omega)), w1.outside _ (.inr (by omega)), upTo_get hfe, if_pos (by omega), hclear,
          List.append_assoc, List.getElem?_append_right (by omega), List.getElem?_append_left (by omega)]
        congr 1; omega
      · rw [w2.outside i (.inr (by omega)), w1.outside i (.inr (by split <;> omega)), upTo_get hfe, if_neg (by omega)]
    have still : buf' = upTo enc buf (o + f.payload.length) → c' = c + 1 → Sealing cfg c f .none aux buf buf' c' := by
      intro hb hc
      subst hb
      exact sealing hc ⟨_, .refl _ _ _, .refl _ _ _⟩
    cases h with
    | here => exact still rfl rfl
    | askKey answer h =>
    rcases answer with _ | ⟨_, key⟩
    · obtain ⟨hb, hc⟩ := Spec.Found.done_inv (κ := κ) h
      exact still hb hc
    dsimp only at h
    have hfin : ∀ r : Out SecErr Nat, r ≠ .err .securityNotEnabled → ∃ o' : Out ByteErr Nat,
        (match r with
          | .ok n =>
            match f.tailStores .none true buf.length (o + n) with
            | (st, .ok (), offset) => .stores st (.done (.ok offset))
            | (st, .err e, _) => .stores st (.done (.err e))
            | (st, .panic, _) => .stores st (.done .panic)
          | .err .securityNotEnabled =>
            match f.tailStores .none false buf.length o with
            | (st, .ok (), offset) => .stores st (.done (.ok offset))
            | (st, .err e, _) => .stores st (.done (.err e))
            | (st, .panic, _) => .stores st (.done .panic)
          | .err e => .done (.err e.toByteErr)
          | .panic => .done .panic : Writing κ) = .done o' := by
      intro r hr
      rcases r with n | e | _
      · exact ⟨_, rfl⟩
      · cases e <;> first | exact ⟨_, rfl⟩ | exact absurd rfl hr
      · exact ⟨_, rfl⟩
    have hlen : (upTo enc buf (o + f.payload.length)).length = o + (buf.length - o) := by
      rw [upTo_length hfe hfb]; omega
    generalize hl : aux.control.securityLevel = l at h hlev sealing
    cases l
    case none => exact absurd rfl hlev
    case enc =>
      obtain ⟨hb, hc⟩ := Spec.Found.done_inv (κ := κ) h
      exact still hb hc
    all_goals
      obtain ⟨hc, b1, w1, w2⟩ := Spec.Found.doSecure_inv hfin hlen (by omega) h
      refine sealing hc ⟨b1, ?_, w2⟩
      simpa [EncMic] using w1

/-- **C102** The same without a security context: a cut leaves a first part of the frame's octets. -/
theorem C102_cut_without_context {κ : Type} (cfg : Cfg) (f : Frame) (hcontent : ContentFromApi f.content) (mode : FooterMode)
    (c c' : UInt32) (buf buf' : List UInt8)
    (h : Found (f.writing cfg mode none buf.length : Writing κ) buf c buf' c') :
    ∃ k k', PartWritten (clearOctets cfg 0 mode f) buf buf' k k' ∧
      SmallTear (securedHead cfg 0 f).length f.payload.length k k' := by
  have hup0 : ∀ enc : List UInt8, upTo enc buf 0 = buf := fun enc => by simp [upTo]
  -- cut in the head
  have headCut : ∀ {res : Out ByteErr Unit} {part : List UInt8}, WSpec (f.writeHead cfg (none : Option (SecCtx κ))) res part →
      part <+: clearOctets cfg 0 mode f → CutStores (f.headStores cfg none buf.length 0).1 buf buf' →
      ∃ k k', PartWritten (clearOctets cfg 0 mode f) buf buf' k k' ∧
        SmallTear (securedHead cfg 0 f).length f.payload.length k k' := by
    intro res part hw hp hcut
    obtain ⟨e, h1, h2, h3, h4, _⟩ := (f.head_rels cfg (none : Option (SecCtx κ))).stores_of_spec hw buf.length
    obtain ⟨k, k', h6, _, _, h7⟩ := h1.cut (enc := clearOctets cfg 0 mode f) (h3.trans hp) (Nat.zero_le _) h2
      (by rw [hup0]; exact hcut)
    refine ⟨k, k', h6, .inl ?_⟩
    rcases h7 with rfl | ⟨s, hs, rfl, rfl⟩
    · omega
    · have := h4 s hs; omega
  have hst : ∀ {st : List Store} {r : Out ByteErr Nat}, Found (.stores st (.done r) : Writing κ) buf c buf' c' →
      CutStores st buf buf' := by
    intro st r h
    rcases h.stores_inv with h | h
    · exact h.1
    · obtain ⟨rfl, rfl⟩ := h.done_inv
      exact ⟨st, List.prefix_refl _, .inl rfl⟩
  -- a head that is refused
  have refused : ∀ {e : ByteErr} {part : List UInt8}, WSpec (f.writeHead cfg (none : Option (SecCtx κ))) (.err e) part →
      CutStores (f.headStores cfg none buf.length 0).1 buf buf' := by
    intro e part hw
    obtain ⟨_, _, _, _, _, h5⟩ := (f.head_rels cfg (none : Option (SecCtx κ))).stores_of_spec hw buf.length
    unfold Frame.writing at h
    dsimp only [Option.map] at h h5
    rcases hq : f.headStores cfg none buf.length 0 with ⟨st, r, o⟩
    rw [hq] at h h5
    rcases r with _ | _ | _
    · cases (h5 rfl).1
    · exact hst h
    · exact hst h
  by_cases henc : Encodable f.header
  rotate_left
  · have hclear : clearOctets cfg 0 mode f = le 2 (frameControl f.header false false false) ++ [f.header.seq] := by
      unfold clearOctets
      rw [if_pos]
      unfold Encodable at henc
      cases hp : f.header.panIdCompress <;> cases hd : f.header.destination <;> cases hs : f.header.source <;> simp_all
    have hw := f.writeHead_refused cfg (none : Option (SecCtx κ)) henc
    exact headCut hw (by rw [hclear]; exact List.prefix_refl _) (refused hw)
  have hclear : clearOctets cfg 0 mode f = securedHead cfg 0 f ++ f.payload ++ footerOctets mode f.footer := by
    unfold clearOctets
    rw [if_neg]
    unfold Encodable at henc
    cases hp : f.header.panIdCompress <;> cases hd : f.header.destination <;> cases hs : f.header.source <;> simp_all
  rcases haux : f.header.auxSec with _ | aux
  rotate_left
  · have hw := f.writeHead_missing (κ := κ) cfg henc (by rw [haux]; rfl)
    refine headCut hw ?_ (refused hw)
    rw [hclear, securedHead]
    simp only [headerOctets, List.append_assoc, List.append_nil]
    exact (List.prefix_append_right_inj _).2 ((List.prefix_append_right_inj _).2 ((List.prefix_append_right_inj _).2
      (List.prefix_append _ _)))
  have hw : WSpec (f.writeHead cfg (none : Option (SecCtx κ))) (.ok ()) (securedHead cfg 0 f) :=
    f.writeHead_ok cfg none henc hcontent (fun h => by rw [haux] at h; cases h)
  have hpre : securedHead cfg 0 f <+: clearOctets cfg 0 mode f := by
    rw [hclear, List.append_assoc]; exact List.prefix_append _ _
  obtain ⟨e, h1, h2, h3, h4, h5⟩ := (f.head_rels cfg (none : Option (SecCtx κ))).stores_of_spec hw buf.length
  replace headCut := headCut hw hpre
  unfold Frame.writing at h
  dsimp only [Option.map] at h h1 h3 h4 h5
  rcases hq : f.headStores cfg none buf.length 0 with ⟨st, r, o⟩
  rw [hq] at h h1 h3 h4 h5 headCut
  dsimp only at h h1 h3 h4 h5 headCut
  rcases r with u | e' | _
  rotate_left
  · exact headCut (hst h)
  · exact headCut (hst h)
  dsimp only at h
  rcases h.stores_inv with h | h
  · exact headCut h.1
  obtain ⟨_, hroom, ho, hcat⟩ := h5 rfl
  generalize clearOctets cfg 0 mode f = enc at hclear hpre ⊢
  have hbuf : putAll st buf = upTo enc buf o := by
    have := h1.end_eq
    rw [h1.putAll_eq buf h2, hcat, this, hcat, upTo, ho, hclear]
    simp
  rw [hbuf] at h
  have hoe : o ≤ enc.length := by rw [ho]; exact hpre.length_le
  have hob : o ≤ buf.length := by omega
  obtain ⟨e2, g1, g2, g3, g4⟩ := f.tail_stores mode buf.length o hob
  have key : CutStores (f.tailStores mode false buf.length o).1 (upTo enc buf o) buf' := by
    rcases hq2 : f.tailStores mode false buf.length o with ⟨st2, r2, o2⟩
    rw [hq2] at h
    have hst2 : ∀ {r : Out ByteErr Nat}, Found (.stores st2 (.done r) : Writing κ) (upTo enc buf o) c buf' c' →
        CutStores st2 (upTo enc buf o) buf' := by
      intro r h
      rcases h.stores_inv with h | h
      · exact h.1
      · obtain ⟨rfl, rfl⟩ := h.done_inv
        exact ⟨st2, List.prefix_refl _, .inl rfl⟩
    rcases r2 with _ | _ | _
    · exact hst2 h
    · exact hst2 h
    · exact hst2 h
  obtain ⟨k, k', h6, _, _, h7⟩ := g1.cut (enc := enc) (by
    have hd : enc.drop o = f.payload ++ footerOctets mode f.footer := by
      rw [hclear, ho, List.append_assoc, List.drop_left]
    rw [hd]; exact g3) hoe g2 key
  refine ⟨k, k', h6, ?_⟩
  rcases h7 with rfl | ⟨s, hs, rfl, rfl⟩
  · exact .inl (by omega)
  · rcases g4 s hs with rfl | hs
    · exact .inr ⟨ho, by simp only; omega⟩
    · exact .inl (by omega)

/-- **C102** As soon as anything is in the buffer that is neither what was there before nor the frame in the clear — an
encrypted octet, an octet of a tag — the counter of the context has moved already: the next write takes another nonce,
however this one was cut short. -/
theorem C102_counter_first {κ : Type} (cfg : Cfg) (f : Frame) (hcontent : ContentFromApi f.content) (mode : FooterMode)
    (euid : UInt64) (c c' : UInt32) (buf buf' : List UInt8)
    (h : Found (f.writing cfg mode (some (euid, c)) buf.length : Writing κ) buf c buf' c') (i : Nat)
    (hi : buf'[i]? ≠ buf[i]? ∧ buf'[i]? ≠ (clearOctets cfg c mode f)[i]?) : c ≠ maxCounter ∧ c' = c + 1 := by
  rcases C102_cut_write cfg f hcontent mode euid c c' buf buf' h with ⟨_, k, k', hp, _⟩ | ⟨aux, hs⟩
  · rcases hp.octet i with h | h
    · exact absurd h hi.1
    · exact absurd h hi.2
  · exact hs.counter

/-! ## Everything else that can be written -/

theorem TRels.cutsClean {w : TryWrite} {t : TryWriteS} (h : TRels 8 w t) {res : Out ByteErr Unit} {enc : List UInt8}
    (hw : Writes w res enc) : CutsClean w t enc := by
  intro buf
  obtain ⟨e, hr⟩ := h buf
  refine ⟨hr.eq, fun buf' hcut => ?_⟩
  have hshift : ∀ st : List Store, st.map (Store.shift 0) = st := by
    intro st
    induction st with
    | nil => rfl
    | cons s st ih => rw [List.map_cons, ih]; simp [Store.shift]
  have hst : (SW.write t buf.length 0).1 = (t buf.length).1 := by
    unfold SW.write
    rw [if_neg (by omega), Nat.sub_zero]
    rcases t buf.length with ⟨st, _ | _ | _⟩ <;> exact hshift st
  obtain ⟨e, h1, h2, h3, h4, _⟩ := (SRels.write h).stores_of_spec (WSpec.write hw) buf.length
  rw [hst] at h1 h3 h4
  obtain ⟨k, k', h6, _, _, h7⟩ := h1.cut (enc := enc) h3 (Nat.zero_le _) h2 (by
    rw [show upTo enc buf 0 = buf by simp [upTo]]; exact hcut)
  refine ⟨k, k', h6, ?_⟩
  rcases h7 with rfl | ⟨s, hs, rfl, rfl⟩
  · omega
  · have := h4 s hs; omega

/-- **C102** The same for everything else that can be written: headers (also those that are refused), auxiliary
headers, beacons and their parts, commands, contents. -/
theorem C102_values {κ : Type} (cfg : Cfg) :
    (∀ (h : Header) (ctx : Option (SecCtx κ)), Encodable h → (h.auxSec.isSome = true → ctx.isSome = true) →
      CutsClean (h.tryWrite cfg ctx) (h.stores cfg (ctx.map (·.frameCounter)))
        (headerOctets h false false false (auxAsWritten cfg (ctxCounter ctx) h.auxSec))) ∧
    (∀ (h : Header) (ctx : Option (SecCtx κ)), ¬ Encodable h →
      CutsClean (h.tryWrite cfg ctx) (h.stores cfg (ctx.map (·.frameCounter)))
        (le 2 (frameControl h false false false) ++ [h.seq])) ∧
    (∀ h : Header, Encodable h → h.auxSec.isSome = true →
      CutsClean (h.tryWrite cfg (none : Option (SecCtx κ))) (h.stores cfg none) (headerOctets h false false false [])) ∧
    (∀ (a : AuxHeader) (ctx : SecCtx κ), CutsClean (a.tryWrite cfg ctx) (a.stores cfg ctx.frameCounter)
      (auxAsWritten cfg ctx.frameCounter (some a))) ∧
    (∀ b : Beacon, BeaconFromApi b → CutsClean b.tryWrite b.stores (beaconOctets b)) ∧
    (∀ s : SuperframeSpec, CutsClean s.tryWrite s.stores (superframeOctets s false)) ∧
    (∀ g : GtsInfo, GtsFromApi g → CutsClean g.tryWrite g.stores (gtsOctets g 0 0)) ∧
    (∀ p : PendingAddress, PendingFromApi p → CutsClean p.tryWrite p.stores (pendingOctets p false false)) ∧
    (∀ c : Command, CutsClean c.tryWrite c.stores (commandOctets c)) ∧
    (∀ c : FrameContent, ContentFromApi c → CutsClean c.tryWrite c.stores (contentOctets c)) := by
  refine ⟨fun h ctx he hc => ?_, fun h ctx hne => (Header.rels cfg h ctx).cutsClean (Header.writes_refused cfg h ctx hne),
    fun h he hs => ?_, fun a ctx => (AuxHeader.rels cfg a ctx).cutsClean (AuxHeader.writes cfg a ctx),
    fun b hb => b.rels.cutsClean (Beacon.writes b hb.shape.1 hb.shape.2), fun s => s.rels.cutsClean (SuperframeSpec.writes s),
    fun g hg => g.rels.cutsClean (GtsInfo.writes g hg.shape),
    fun p hp => p.rels.cutsClean (PendingAddress.writes p hp.shape.1 hp.shape.2.1), fun c => c.rels.cutsClean (Command.writes c),
    fun c hc => c.rels.cutsClean (FrameContent.writes c hc)⟩
  · have ha : Header.auxWritten cfg h ctx = auxAsWritten cfg (ctxCounter ctx) h.auxSec := by
      unfold Header.auxWritten
      cases h1 : h.auxSec <;> cases h2 : ctx <;> simp_all [auxAsWritten, ctxCounter]
    have hw := Header.writes cfg h ctx he
    rw [ha] at hw
    exact (Header.rels cfg h ctx).cutsClean hw
  · have hw := Header.writes cfg h (none : Option (SecCtx κ)) he
    obtain ⟨a, ha⟩ := Option.isSome_iff_exists.mp hs
    have h2 : Header.auxWritten cfg h (none : Option (SecCtx κ)) = [] := by
      unfold Header.auxWritten; rw [ha]
    rw [h2] at hw
    exact (Header.rels cfg h none).cutsClean hw

/-- **C102** And for the parts of these: addresses, security controls, key identifiers, realignment data, slots. -/
theorem C102_parts (cfg : Cfg) :
    (∀ p : PanId, CutsClean p.tryWrite (PanId.stores p) (le 2 p.toNat)) ∧
    (∀ a : ShortAddress, CutsClean a.tryWrite (ShortAddress.stores a) (le 2 a.toNat)) ∧
    (∀ a : ExtendedAddress, CutsClean a.tryWrite (ExtendedAddress.stores a) (le 8 a.toNat)) ∧
    (∀ a : Address, CutsClean (a.tryWrite .normal) (a.stores .normal) (le 2 (panOf a).toNat ++ addrOctets a)) ∧
    (∀ a : Address, CutsClean (a.tryWrite .compressed) (a.stores .compressed) (addrOctets a)) ∧
    (∀ c : SecurityControl, CutsClean c.tryWrite c.stores
      [UInt8.ofNat (levelCode c.securityLevel + 8 * keyIdModeCode c.keyIdMode)]) ∧
    (∀ k : KeyIdentifier, CutsClean (k.tryWrite cfg) (k.stores cfg) (keyIdentifierOctets cfg.native (some k))) ∧
    (∀ d : CoordinatorRealignmentData, CutsClean d.tryWrite d.stores
      (le 2 d.panId.toNat ++ le 2 d.coordinatorAddress.toNat ++ [d.channel] ++
        le 2 d.deviceAddress.toNat ++ pageOctets d.channelPage)) ∧
    (∀ d : GtsDescriptor, SlotInRange d → CutsClean d.tryWrite d.stores (slotOctets d)) :=
  ⟨fun p => (PanId.rels p).cutsClean (PanId.writes p), fun a => (ShortAddress.rels a).cutsClean (ShortAddress.writes a),
   fun a => (ExtendedAddress.rels a).cutsClean (ExtendedAddress.writes a),
   fun a => (a.rels .normal).cutsClean (Address.writes_normal a),
   fun a => (a.rels .compressed).cutsClean (Address.writes_compressed a),
   fun c => c.rels.cutsClean (SecurityControl.writes c), fun k => (k.rels cfg).cutsClean (KeyIdentifier.writes cfg k),
   fun d => by simpa using d.rels.cutsClean (CoordinatorRealignmentData.writes d),
   fun d h => d.rels.cutsClean (GtsDescriptor.writes d h)⟩

end Verif
