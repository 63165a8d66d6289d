import Mathlib.Data.Rat.Defs
import Mathlib.Algebra.Order.Ring.Rat
import Mathlib.Algebra.Order.Group.Abs
import Verif.Spec.EverySpec

/-!
# Specification: ciphers drawn from any family

Computations that ask for encryptions of single blocks, chances over any family of ciphers, how well a computation
tells two families apart, and networks whose devices hold real keys of a real block cipher.
-/

namespace Verif.Spec

/-- A computation that may ask what a block is encrypted to under a key, given by its name. -/
inductive Quiz (κ α : Type) where
  | done (a : α)
  | ask (key : κ) (block : Rfc3610.Block) (next : Rfc3610.Block → Quiz κ α)

/-- What the computation comes to when a cipher answers. -/
def Quiz.result {κ α : Type} (cipher : BlockCipher κ) : Quiz κ α → α
  | .done a => a
  | .ask key block next => (next (cipher key block)).result cipher

/-- The computation asks at most `n` times, whatever the answers are. -/
inductive Quiz.AtMost {κ α : Type} : Nat → Quiz κ α → Prop
  | done (n : Nat) (a : α) : AtMost n (.done a)
  | ask {n : Nat} {key : κ} {block : Rfc3610.Block} {next : Rfc3610.Block → Quiz κ α} (h : ∀ answer, AtMost n (next answer)) :
      AtMost (n + 1) (.ask key block next)

/-- The chance of a property of something drawn uniformly. -/
noncomputable def chance {I : Type} (P : I → Prop) : ℚ := Nat.card {i // P i} / Nat.card I

/-- All functions from keys and blocks to blocks. -/
def anyFunction (κ : Type) : BlockCipher κ → BlockCipher κ := fun e => e

/-- All functions that are a permutation of the blocks under every key. -/
def anyPermutation (κ : Type) : {e : BlockCipher κ // Permutes e} → BlockCipher κ := fun e => e.1

/-- One block cipher, with a key drawn for every name. -/
def randomKeys {K : Type} (κ : Type) (cipher : BlockCipher K) : (κ → K) → BlockCipher κ :=
  fun keys name => cipher (keys name)

/-- How well the verdict of a computation tells two families apart. -/
noncomputable def advantage {κ I J : Type} (quiz : Quiz κ Prop) (family : I → BlockCipher κ) (other : J → BlockCipher κ) : ℚ :=
  |chance (fun i => quiz.result (family i)) - chance (fun j => quiz.result (other j))|

/-- What a single forgery is worth: the bound on the chance of one among `v` slices of at most `limit` octets, with `q`
writes, when the cipher is drawn among all functions. -/
def forgeryBound (q v limit : Nat) : ℚ := v * (2 ^ 96 + 4 * (9 * q + (limit + 33) / 16 : Nat) ^ 2) / 2 ^ 128

/-- The same when the cipher is drawn among permutations and is asked for at most `s` blocks. -/
def forgeryBoundPermutation (q v limit s : Nat) : ℚ :=
  2 * (v * (2 ^ 96 + 4 * (9 * q + (limit + 33) / 16 : Nat) ^ 2)) / (2 ^ 129 - s ^ 2)

/-- What telling two payloads apart is worth, when the cipher is drawn among all functions. -/
def secrecyBound (q v limit : Nat) : ℚ :=
  (324 * q ^ 2 + 2 * (v * (2 ^ 96 + 4 * (9 * q + (limit + 33) / 16 : Nat) ^ 2))) / 2 ^ 128

/-- The same when the cipher is drawn among permutations and is asked for at most `s` blocks. -/
def secrecyBoundPermutation (q v limit s : Nat) : ℚ :=
  (2 * (324 * q ^ 2 + 2 * (v * (2 ^ 96 + 4 * (9 * q + (limit + 33) / 16 : Nat) ^ 2))) + s ^ 2) / (2 ^ 129 - s ^ 2)

/-- The number of block encryptions in `q` writes and in reading `v` slices of at most `limit` octets. -/
def blockCalls (q v limit : Nat) : Nat := 18 * q + 2 * v * ((limit + 33) / 16)

/-! ## Devices holding real keys -/

/-- The security context with keys in place of their names. -/
def contextWith {κ K : Type} (keys : κ → K) (sc : SecCtx κ) : SecCtx K :=
  ⟨sc.euid, sc.frameCounter, fun mode id addr => (sc.keyProvider mode id addr).map fun found => (found.1, keys found.2)⟩

/-- The context of a call with keys in place of their names. -/
def callContextWith {κ K : Type} (keys : κ → K) (ctx : SerDesCtx κ) : SerDesCtx K :=
  ⟨ctx.footerMode, ctx.securityCtx.map (contextWith keys)⟩

/-- An AEAD that is given names of keys and looks the keys up. -/
def aeadWith {κ K : Type} (keys : κ → K) (aead : Aead K) : Aead κ :=
  ⟨fun t name => aead.encrypt t (keys name), fun t name => aead.decrypt t (keys name)⟩

def senderWith {κ K : Type} (keys : κ → K) (s : Sender κ) : Sender K := ⟨s.cfg, contextWith keys s.context, s.calls⟩

def offerWith {κ K σ : Type} (keys : κ → K) (a : Offer κ σ) : Offer K σ :=
  ⟨a.cfg, callContextWith keys a.ctx, a.lookup, a.device, a.slice⟩

/-- The first steps of a play among devices and receivers that hold real keys and use a real cipher.  The attacker
knows keys only by name. -/
def realPlay {κ K σ : Type} (cipher : BlockCipher K) (keys : κ → K) (start : List (Sender κ)) (A : Attacker κ σ) :
    Nat → Play κ σ
  | 0 => ⟨start, []⟩
  | n + 1 =>
    let now := realPlay cipher keys start A n
    match A now.log with
    | none => now
    | some (.write i call) =>
      ⟨wrote now.net i call,
        now.log ++ [.sent i call
          (observed cipher ((wrote now.net i call).map (senderWith keys)) i (writesOf now.net i))]⟩
    | some (.offer a) =>
      ⟨now.net, now.log ++ [.answered a
        ((answer cipher (offerWith keys a)).1, (answer cipher (offerWith keys a)).2.1, a.ctx,
          (answer cipher (offerWith keys a)).2.2.2)]⟩

/-- Something went wrong in a network with real keys: at some step the attacker offers a slice that is accepted as a
secured frame, though no device has, up to then, sent a frame with this key, level, nonce and payload; or what some
receiver has delivered as coming from some device is not a part, in order and without repetition, of what that device
has sent up to then. -/
def RealTrouble {κ K σ ι ρ : Type} [DecidableEq ι] (cipher : BlockCipher K) (keys : κ → K) (start : List (Sender κ))
    (A : Attacker κ σ) (stations : ρ → Station κ σ ι) : Prop :=
  (∃ n a, A (realPlay cipher keys start A n).log = some (.offer a) ∧
    Forged cipher ((realPlay cipher keys start A n).net.map (senderWith keys)) 0 (offerWith keys a)) ∨
  ∃ n r d s, ((realPlay cipher keys start A n).net.map (senderWith keys))[d]? = some s ∧
    ¬ List.Sublist
      (deliveredIn (stations r).mine (stations r).table.identify ((stations r).entry d) (realPlay cipher keys start A n).log)
      (sentBy s.cfg (Ccm.aead cipher) s.context s.calls)

/-- What a tester gets in the first `n` steps in a network with real keys. -/
def realGlimpses {κ K σ : Type} (cipher : BlockCipher K) (keys : κ → K) (start : List (Sender κ)) (right : Bool)
    (B : Tester κ σ) (n : Nat) : List (Glimpse κ σ) :=
  (realPlay cipher keys start (plays right B) n).log.map glimpse

end Verif.Spec
