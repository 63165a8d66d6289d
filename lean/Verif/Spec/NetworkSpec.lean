import Verif.Spec.NodeSpec

/-!
# Specification: a network of nodes

Any number of nodes, each with its build, its security context and its device table, sending and
receiving in any order.  The air is the adversary's: a reception is of any octets at all.  Between the
calls a node's application may change what it owns — raise its counter, exchange the key lookup, add
devices — and a node may stop at any point and start again from what it has stored.
-/

namespace Verif.Spec

/-- What is fixed about a node: its build and how it looks devices up. -/
structure NodeCode (σ : Type) where
  cfg : Cfg
  lookup : DevLookup σ

/-- What changes about a node: its security context and its device state. -/
structure NodeState (κ σ : Type) where
  ctx : SecCtx κ
  devices : σ

/-- What happens at a node: it writes or receives a frame, or its application changes its state, as it does
too when the node restarts. -/
inductive NetAction (κ σ : Type) where
  | act (event : NodeEvent)
  | change (update : NodeState κ σ → NodeState κ σ)

/-- Something happens at a node. -/
structure NetEvent (N κ σ : Type) where
  node : N
  action : NetAction κ σ

/-- A network: its nodes, the cipher they share, how it starts and what happens, in order. -/
structure Network (N κ σ : Type) where
  code : N → NodeCode σ
  aead : Aead κ
  start : N → NodeState κ σ
  events : List (NetEvent N κ σ)

/-- The state of a node after something happened at it. -/
def actionStep {κ σ : Type} (code : NodeCode σ) (aead : Aead κ) (s : NodeState κ σ) :
    NetAction κ σ → NodeState κ σ
  | .act event =>
    let r := nodeStep code.cfg aead code.lookup s.ctx s.devices event
    ⟨r.2.1, r.2.2⟩
  | .change update => update s

/-- The states of all nodes after an event: only the node it happens at changes. -/
def netStep {N κ σ : Type} [DecidableEq N] (code : N → NodeCode σ) (aead : Aead κ) (s : N → NodeState κ σ)
    (e : NetEvent N κ σ) : N → NodeState κ σ :=
  fun j => if j = e.node then actionStep (code j) aead (s j) e.action else s j

namespace Network

variable {N κ σ : Type} [DecidableEq N] (net : Network N κ σ)

/-- The states of all nodes before event number `p`. -/
def before (p : Nat) : N → NodeState κ σ :=
  (net.events.take p).foldl (netStep net.code net.aead) net.start

/-- Event number `p` is a write at node `i`. -/
def WritesAt (p : Nat) (i : N) (call : WriteCall) : Prop := net.events[p]? = some ⟨i, .act (.send call)⟩

/-- Event number `p` is a write at node `i` that uses the nonce. -/
def UsesNonceAt (p : Nat) (i : N) (nonce : List UInt8) : Prop :=
  ∃ call, net.WritesAt p i call ∧ UsesNonce (net.code i).cfg (net.before p i).ctx call nonce

/-- Event number `p` is a successful write at node `i` of the secured data frame `f` with auxiliary
header `aux` under the key `key`, and `body` and `tag` are on the air in the place of the payload. -/
def SendsAt (p : Nat) (i : N) (f : Frame) (aux : AuxHeader) (key : κ) (body tag : List UInt8) : Prop :=
  ∃ buf eui n out ctx, net.WritesAt p i ⟨f, .none, buf⟩ ∧ SecuredData f aux ∧
    (net.before p i).ctx.keyProvider .dst aux.keyIdentifier f.header.destination = some (eui, key) ∧
    f.tryWrite (net.code i).cfg net.aead ⟨.none, some (net.before p i).ctx⟩ buf = (.ok n, out, ctx) ∧
    out.take n = securedHead (net.code i).cfg (net.before p i).ctx.frameCounter f ++ body ++ tag

/-- Event number `p` is a reception at node `j` that accepts the secured frame `f`, for which the node's
key lookup gave `eui` and `key`. -/
def AcceptsAt (p : Nat) (j : N) (f : Frame) (aux : AuxHeader) (eui : UInt64) (key : κ) : Prop :=
  ∃ mode buf, net.events[p]? = some ⟨j, .act (.receive mode buf)⟩ ∧
    Accepts (net.code j).cfg net.aead (net.code j).lookup (net.before p j).devices
      ⟨buf, ⟨mode, some (net.before p j).ctx⟩⟩ f ∧
    f.header.auxSec = some aux ∧
    (net.before p j).ctx.keyProvider .src aux.keyIdentifier f.header.source = some (eui, key)

/-- The cipher is not forged: whatever verifies at a reception, under the key and EUI-64 the receiving
node's lookup gives for it, was put on the air by an earlier write under that key and nonce. -/
def Unforged : Prop :=
  ∀ (p : Nat) (j : N) (mode : FooterMode) (buf : List UInt8), net.events[p]? = some ⟨j, .act (.receive mode buf)⟩ →
  ∀ h n aux src eui key body tag payload, Header.tryRead (net.code j).cfg buf = .ok (h, n) →
    h.auxSec = some aux → h.source = some src →
    (net.before p j).ctx.keyProvider .src aux.keyIdentifier (some src) = some (eui, key) →
    buf.drop n = body ++ tag → tag.length = tagLength aux.control.securityLevel →
    unprotect net.aead aux.control.securityLevel key
      (nonceOctets eui aux.frameCounter aux.control.securityLevel) body tag = some payload →
    ∃ q, q < p ∧ ∃ i f aux', net.SendsAt q i f aux' key body tag ∧
      aux'.control.securityLevel = aux.control.securityLevel ∧
      nonceOctets (net.before q i).ctx.euid (net.before q i).ctx.frameCounter aux.control.securityLevel =
        nonceOctets eui aux.frameCounter aux.control.securityLevel

/-- Event number `q`, a successful write of a secured frame at node `i`, is the origin of what event
number `p` accepts at node `j`: same EUI-64, key, counter, level and payload. -/
def Origin (q p : Nat) (i j : N) : Prop :=
  ∃ f aux g aux' eui key body tag, net.AcceptsAt p j f aux eui key ∧ net.SendsAt q i g aux' key body tag ∧
    (net.before q i).ctx.euid = eui ∧ (net.before q i).ctx.frameCounter = aux.frameCounter ∧
    aux'.control.securityLevel = aux.control.securityLevel ∧ g.payload = f.payload

/-- No application lowers the counter of its node or changes its EUI-64: in particular a node that
restarts starts from a counter not below the one it stopped at. -/
def KeepsCounters : Prop :=
  ∀ (p : Nat) (i : N) (update : NodeState κ σ → NodeState κ σ), net.events[p]? = some ⟨i, .change update⟩ →
    (update (net.before p i)).ctx.euid = (net.before p i).ctx.euid ∧
    (net.before p i).ctx.frameCounter ≤ (update (net.before p i)).ctx.frameCounter

/-- The application of node `j` forgets no device and lowers no counter stored for one: in particular its
table survives restarts. -/
def KeepsDevices (j : N) {ι : Type} (table : DeviceTable ι (net.code j).lookup) : Prop :=
  ∀ (p : Nat) (update : NodeState κ σ → NodeState κ σ), net.events[p]? = some ⟨j, .change update⟩ →
    ∀ d x, table.get (net.before p j).devices d = some x →
      ∃ y, table.get (update (net.before p j)).devices d = some y ∧ x.frameCounter ≤ y.frameCounter

/-- The key lookups node `j` has in its course tell devices apart by EUI-64 (see `EuiTellsDevices`). -/
def TellsDevices (j : N) {ι : Type} (identify : Address → ι) : Prop :=
  ∀ p p' k k' a a' eui key key',
    (net.before p j).ctx.keyProvider .src k (some a) = some (eui, key) →
    (net.before p' j).ctx.keyProvider .src k' (some a') = some (eui, key') → identify a = identify a'

/-- What happens at node `j`, in order. -/
def actionsAt (j : N) (events : List (NetEvent N κ σ)) : List (NetAction κ σ) :=
  (events.filter fun e => decide (e.node = j)).map NetEvent.action

end Network

end Verif.Spec
