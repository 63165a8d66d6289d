# Formal model of rust-ieee802.15.4 in Lean 4

## Approach

The crate is a pure encoder/decoder plus a small amount of state (frame counters). Everything is
modelled as total computable Lean functions over `List UInt8` buffers and `UInt8/16/32/64` fields,
function by function:

* `Verif/Base.lean` - outcome type (`ok / err / panic`: a Rust panic is a third, explicit outcome),
  build configuration (`overflowChecks`, pointer width, host endianness) and the parts of the external
  `byte` crate (0.2.7) used by the code.
* `Verif/Model/*.lean` - one file per Rust module; every definition cites file and lines.
* `Verif/Spec/*.lean` - small independent specifications: wire layouts in arithmetic (no bit
  operations), relations "these octets are a received X", what a writer may do to a buffer, what it
  means to protect a payload, histories of calls, complete case tables of securing and unsecuring.
* `Verif/Lemmas/*.lean` - helper lemmas. `Verif/Props/*.lean` - the property theorems, named
  `Cnn_...` after the property they belong to, each followed by an `example` showing that its
  hypotheses are met by a concrete, non-trivial case.
* `Verif/Tests/*.lean` - the crate's own unit tests and doc examples replayed on the model by kernel
  evaluation, with real AES-128 (these are tests of the model's fidelity, not proofs).
* `Verif/Witness/*.lean` - every theorem `Cnn_…` that has hypotheses is applied here to concrete frames, slices,
  contexts, networks, attackers and schedules that meet all of them (no hypothesis left open), so that none holds
  for want of a case.

`&mut [u8]` buffers become a returned buffer (also on error, since partial writes stay visible);
`&mut` contexts become returned contexts. Loops become folds over `List.range`. Array indexing,
`unwrap`, `assert!`, `unimplemented!`/`todo!` and checked subtraction are explicit panic outcomes.

The AEAD is a parameter (`Aead`), with its laws as an explicit structure; `Verif/Model/Ccm.lean` models
the `ccm` crate over an arbitrary block cipher, and C50 proves those laws for it, so the security
theorems hold for CCM over every block cipher with no assumption. Key lookups are arbitrary functions,
device lookups arbitrary state machines; only theorems about particular devices assume that the lookup
behaves like a table (`DeviceTable`).

## Plan per property

| Id | Model | Proof |
|----|-------|-------|
| C01 C06 C07 | `Header.tryRead` | compositional predicates on readers; exact outcome by case analysis on the frame control field |
| C02 C03 C04 C05 C08 C09 | `Header.tryWrite`, `Header.tryRead` | writer = explicit octet list (Spec); reader inverts it; full finite table of the control field |
| C10 C11 | all writers | one predicate `Writes w result enc`, closed under sequencing |
| C12-C17 | `Model/Beacon.lean` | as above; API-obtainable values as an inductive predicate with an invariant |
| C18-C22 | `Model/Command.lean`, enums | case analysis, full finite tables |
| C23-C29 | `Model/Frame.lean` | composition of header and content lemmas |
| C30 | `calculateNonce` | injectivity of little-endian encodings |
| C31 C32 | `Frame.tryWrite` folded over a history | invariant by induction over the list of calls; "uses a nonce" is observational (exchanging the cipher under that nonce changes the outcome) |
| C33 C48 | `AuxHeader.tryWrite/tryRead`, host endianness a parameter | direct |
| C34 C40-C42 C44 | `secureFrame`, `Frame.tryWrite` | direct, with the AEAD laws |
| C35-C39 C43 C45-C47 | `unsecureFrame`, `Frame.tryReadAndUnsecure` | direct; histories by induction |
| C49 | sender and receiver folds | simulation by induction over the schedule |
| C50 | `Model/Ccm.lean` | CTR-mode xor involution, tag recomputation |
| C51 | all readers | `ReadsExactly`: soundness and completeness against the wire relation |
| C52 C53 | all codecs | induction over lists of values; prefix-freeness from C51 |
| C54 | error conversions | case analysis over all pairs |
| C55 C56 | `Frame.tryWrite`, `Frame.tryReadAndUnsecure` | equality with a complete table of result, buffer and state |
| C57 | addresses, constructors | case analysis; readers by C51's method |
| C58 | `unimplementedCipher` | commutation of the frame functions with exchanging keys |
| C59 | `Ccm.ctrBlock`, `Ccm.b0` | injectivity, with C31 |
| C60 | all writers | from C11 |
| C61 | two hosts | `HeaderOnWire` for the reader's host; C56 |
| C62 | `Frame.tryRead`, `Command.tryRead` | equivalence with `FrameOnWire`, as C51 |
| C63 | `Frame.tryRead` then `Frame.tryWrite` | C62, then the writer on what was read |
| C64 | beacon parts | case analysis on count, unused entries are canonical |
| C65 | sessions of `Frame.tryWrite` | C31's monotonicity over sessions; C40 with CCM for the leak |
| C66 C67 | `Frame.tryReadAndUnsecure` | C38 in two device states; C35 |
| C68 | histories of `Frame.tryWrite` and of `Frame.tryReadAndUnsecure` | both sequences strictly increase in the counter (induction), every accepted pair was sent (C38, C40, AEAD laws), hence a subsequence |
| C69 | `extended_enum!` over an arbitrary table | induction over the table; the three uses by cases |
| C70 | a context and a copy of it, each with its own history of writes | nonce of each write (C31), injectivity of nonces; C65 for the leak |
| C71 | receptions interleaved with arbitrary changes of the table | induction over events with "known implies above the counter"; C36, C37 |
| C72 | two receivers with tables of any types, agreeing on counters | relational proof by cases over `unsecure_frame`, induction over histories |
| C73 | writes interleaved with arbitrary changes of the context's fields | induction over events with "at that address implies above the counter"; C31 |
| C74 | one node: writes and receptions interleaved | relational proof over `unsecure_frame` with two contexts, induction over events |
| C75 | the buffer after a refused reception or write | from the accounts of C55/C56; CCM's zeroing of the body when the tag does not verify is part of the `Ccm` model (the `ccm` crate is read as documented, see trusted base) |
| C76 | every frame write | `WriteTable` in `Spec/TotalSpec`; case analysis on header, context, footer mode; C55 for the secured row |
| C77 | every frame read | `plainVerdict`, `ReceiveTable` in `Spec/TotalSpec`, built from the octet-level verdicts of C07, C17, C21 and the tables of C56 |
| C78 | a network of nodes | `Network` in `Spec/NetworkSpec`: any nodes, any schedule, arbitrary octets received, applications changing or restarting nodes; independence by induction on the schedule, nonces by C31 per node and distinct addresses, agreement from C38/C40 under `Unforged`, order and uniqueness by monotone counters |
| C79 | `Model/Ccm.lean` against RFC 3610 | `Spec/CcmSpec` is written from the RFC octet by octet and replays its packet vectors 1, 2 and 7 (`Tests/Rfc3610`); equality by induction on blocks, then composed with C38 and C40 |
| C80 | the `From` conversions of `Model/Beacon.lean` and `Model/Command.lean`, the realignment codec, `new` | equality with the bit-position specification (`capabilityOf`, `characteristicsOf`, `realignmentRead`), all octets by kernel enumeration, out-of-range values by arithmetic |
| C81 | `Model/Steps.lean`: the write as a program whose effects outside the buffer are single steps; `Spec/StepSpec.lean`: steps with arbitrary answers of key lookup and cipher, attempts cut anywhere, histories | refinement to `Frame.tryWrite`; shape of the program (inversion of steps), induction over histories |
| C82 | the same for `try_read_and_unsecure`, with the device lookup's state as memory | refinement to `Frame.tryReadAndUnsecure`; shape of the program, device table laws, induction over histories |
| C83 | sums and products of lengths and offsets as `usize` operations that panic or wrap (`Model/Arith.lean`) | equal to the `Nat` sums of the model for every slice of at most `isize::MAX` octets |
| C84 | the readers of the model on a slice, its extensions and prefixes (`Spec/StreamSpec.lean`) | from exact acceptance (C07, C17, C21) and decoding (C51); case analysis for commands |
| C85 | a fleet of senders, each with two histories of writes, under two block ciphers, the CCM model over them (`Spec/SecrecySpec.lean`) | an involution on ciphers that shifts the values at the counter blocks of sent frames; nonces are never reused (C31), RFC 3610 form of what is sent (C79), counter blocks are injective |
| C86 | a cipher changed at one block, senders and a receiver (`Spec/SecrecySpec.lean`) | what is sent does not depend on the block (C79, chain congruence); acceptance (C79) solved for the block's value |
| C87 | the number of ciphers with a property, keys out of a finite set (`Spec/ChanceSpec.lean`) | the chained blocks of all frames sent form a trie of nodes; with no collision the value at each node is fresh, so each further collision has chance 2^-128 (resampling one value, `Props/Counting`, `Props/Collision`); then C85's involution |
| C88 | an attacker as a function of all that is on the air; the receiver of the model in a state of the attacker's choice | the authentication values are moved from the tags into the cipher's values at first counter blocks, an involution (`mixed`), so that what is seen is a function of the values at counter blocks alone; the value at the end of the attacker's chain is then fresh and has to begin with one string (`Props/Unforgeable`) |
| C89 | the same with an attacker who is a function of the air and of all answers so far | as long as nothing is a hit, every answer is a function of what is on the air (`answer_determined`), so the first hit is one of a non-interactive attacker (C88's bound) |
| C90 | C68's receiver, its calls made up by such an attacker | without a hit there is no forgery (`NoForgery`), then C68 |
| C91 | plays (`Spec/PlaySpec.lean`): step by step a write of a device or a call of a receiver, chosen in view of all before | up to the first hit the play is a script of what is seen on the air; ciphers without clash correspond one to one to ciphers with the authentication values mixed into the tags' masks, for which the script depends on the values at counter blocks only, so the value at the end of the guessed chain can be drawn anew |
| C92 | such plays with one receiver whose device table is handed on | without a hit there is no forgery among its calls, then C68 at every step |
| C93 | such plays in which each write names two frames that differ at most in the payload to be encrypted, and a tester who gets all but the payloads revealed | both sides run at once along the same script; but for clashes and hits, a bijection of ciphers makes the right side show what the left side shows |
| C94 | the plays of C91 to C93 with the cipher drawn among permutations (`Spec/PermSpec.lean`) | what a play of limited length settles is settled by the cipher's values at at most s points, which are themselves settled by these values (`Props/PermPlay`); each such set of values occurs among permutations hardly more often than among functions (`Props/Permute`, double counting, swaps of two values) |
| C95 | the plays of C91 with any number of receivers, each with its device table (`Spec/EverySpec.lean`) | all go wrong only through the same hits, so one bound goes for all at once; `Props/PermPlay` for permutations |
| C96 | the programs of C81 and C82, each step with what the buffer holds before it (`Model/Steps`) | a predicate that holds at every point where a call can stop, through sequencing (`Props/Held`) |
| C97 | lists of errors (`Spec/ErrorLists.lean`) | one direction from the tables of C76 and C77, the other by an input for each error, on every host; a wrong tag exists since two tags cannot both verify |
| C98 | derived `Hash` and `Hash32` as the calls made to a hasher (`Model/Hash.lean`) | prefix-freeness, composed field by field and variant by variant; with C64 for the unused entries of arrays |
| C99 | Calls of the derived `Serialize`, visitors of the derived `Deserialize` (`Model/Serde`); a format is anything that shows an offer for what it stored, perhaps only if it is asked for under the names it was stored under | deserialising is shown equivalent to the relation `Shows`, case by case; the round trip follows |
| C100 | The programs of `Model/Steps` with every question, its arguments and its answer on record (`Spec/TalkSpec`); answers are arbitrary | a claim about conversation and result is carried along the program tree (`Trail`) and through sequencing; a run to the end with given lookups and cipher is one such conversation (C81, C82) |
| C101 | The conversations of C100 with arbitrary answers (`Spec/AnyAppSpec`) | each call asks each question at most once (C100), so constant lookups and a cipher that knows one answer give the same conversation, and a conversation with truthful answers determines the run (C81, C82) |
| C102 | All writers once more as lists of stores into a slice of given length, `Frame::try_write` as a program of stores, counter store, lookup and cipher call (`Model/Stores`); stores torn in any order of octets, cipher cut short with anything in its part (`Spec/StoreSpec`) | refinement to `Frame.tryWrite` and to the other writers, writer by writer (each store appends to what is written); inversion of `Found` through the program |
| C103 | Lives (`Spec/LifeSpec`): the step programs of C81/C82 with the key lookup allowed to change the device table at its step, cut anywhere, with changes of address, counter and table by the application in between; one trace of all that happens | inversion of a call's trace (all changes stand right before the key lookup's answer); induction over the life with the invariants "the device is above the first frame's counter" and "the address is above the first nonce's counter" |
| C104 | Networks whose devices hold keys of any block cipher (`Spec/QuizSpec`); computations asking for single block encryptions, advantage in telling families of ciphers apart | keys may be replaced by their names (every function of the model is natural in the keys); CCM and the programs of `Model/Steps` are interpreted as computations with at most so many questions; then C95, C93, C94 for the ideal cipher and the triangle inequality |
| C105 | Networks with two kinds of key names (`Spec/LostSpec`): under the lost ones the cipher is any function the attacker knows, under the held ones it is drawn | the play with all keys is rebuilt from a play of another attacker in the network without the lost keys (a write under a lost key fails there, but moves the counter alike), whose hits are bounded by C91's counting; then C68 as in C95, and C104; secrecy: the tester with all keys is rebuilt in the same way (`SameUnderLost`: under lost keys his two frames are equal), then C93, C94, C104 |
| C106 | The attacker of C91's plays who only guesses (`Spec/GuessSpec`) | a play of misses leaves the descriptor found as it is (C38, table laws), so he succeeds exactly if the right tag is in his list; the ciphers are counted by exchanging the value at the nonce's first counter block, which is free unless met while authenticating (C91's counting of collisions) |
| C107 | C95's plays with packets handed over as they were sent (`Spec/ShutSpec`) | a device's stored counter is the one at first or one more than that of the last frame delivered (induction over the history, C36, C37); while all that is delivered was sent (C95), that is not above a packet's counter unless the packet has been overtaken (C68), so C49's account of a received packet applies; with real keys (`Spec/ShutRealSpec`) by C104 |
| C108 | the text derived `Debug` prints with `{:?}` (`Model/Debug`); logs (`Spec/DebugSpec`) | decimal numbers are recovered by induction on the number, names and numbers as words set off from what follows, lists by induction on their length with their items in step, structs and variants field by field; logs by induction on their length |

All properties can be expressed in the model; none is not applicable, none is partial.

## Trusted base

* Lean 4.33.0's kernel. No axioms are added; the theorems depend at most on `propext`,
  `Classical.choice` and `Quot.sound` (see the `#print axioms` check run by `vcheck`). Nothing rests on
  compiled evaluation: `decide +kernel` is reduction by the kernel.
* That the model is the code. Every definition in `Verif/Model` cites the lines it models; the
  `Verif/Tests` modules replay the crate's tests and documentation examples on it. `tools/citations.py` checks
  the citations: each names lines that contain the name, and every line of the crate's code is cited.
* That the specification in `Verif/Spec` says what the English says.
* For C85 and C86: the block cipher ranges over all functions (a random function, not a permutation and not AES);
  no computational claim about AES is made. The conditions (`NoClash`, `Unspent`) that a chained authentication
  value never happens to be a counter block are stated there; their chance is bounded in C87.
* For C87 to C93 and C95: the cipher is drawn uniformly among all functions of key and block to block; in C94 (and in C95 too) among those
  that are permutations under every key. No claim about AES itself is made; C104 carries the bounds over to any block cipher with random keys,
  with the cipher's strength as a term (`advantage`) that is not itself bounded. The computation whose advantage it is asks
  for at most `blockCalls` block encryptions; nothing is said about how long it takes otherwise. In C87 to C90 the
  histories of writes are fixed beforehand (payloads chosen without sight of the air); in C91 to C95 they are not.
  Attackers are functions, without chance of their own (averaging over their coins changes no bound). A forgery concerns key, level, address, counter
  and payload: the rest of the header is not authenticated by the crate (C39). The Mathlib modules used are
  `Data.Set.Card`, `SetTheory.Cardinal.Finite`, `Tactic.Ring` and `Tactic.Linarith`.
* The behaviour of the external crates as modelled: `byte` 0.2.7 (`BytesExt::read_with/write_with`,
  `TryRead/TryWrite` of integers and slices, `check_len`, native byte order by default) in
  `Verif/Base.lean`; `ccm` 0.4 in `Verif/Model/Ccm.lean`; the derives of `Debug`, `Hash`, `hash32` and `serde` in `Verif/Model/Debug.lean`, `Verif/Model/Hash.lean` and
  `Verif/Model/Serde.lean`. Their sources are not in `/repo`.
  One detail the crate's own tests settle: reading at an offset equal to the length is no error by itself
  (`decode_ver0_ack` reads content and payload behind the last of three octets), so only offsets beyond the
  length are.

### Modelled

| Rust | Lean |
|------|------|
| `src/utils.rs` `extended_enum!` (`From`, `OptionalFrom`, `PartialEq`) | `Model/Enums` |
| `src/mac/frame/frame_control.rs` (types, versions, address modes, masks, offsets) | `Model/Enums`, `Model/Address`, `Model/Header` |
| `src/mac/frame/header.rs` (whole file) | `Model/Header`, `Model/Address` |
| `src/mac/frame/mod.rs` (frames, contexts, content, errors) | `Model/Frame`, `Model/Security`, `Model/Enums` |
| `src/mac/frame/security/mod.rs` (nonce, `secure_frame`, `unsecure_frame`, contexts, errors) | `Model/Security`, `Model/AuxSec`, `Model/Enums` |
| `src/mac/frame/security/auxiliary_security_header.rs`, `security_control.rs` (whole files) | `Model/AuxSec`, `Model/Enums` |
| `src/mac/frame/security/default.rs` (lookups and block encryption of `Unimplemented`) | `Model/AuxSec`, `Model/Security`, `Model/Ccm` |
| `src/mac/beacon.rs` (whole file) | `Model/Beacon` |
| `src/mac/command.rs` (whole file) | `Model/Command` |
| all `TryWrite` impls, store by store | `Model/Stores` |
| derived `Hash`, `Hash32` of all public types | `Model/Hash` |
| derived `serde` of the address types | `Model/Serde` |
| derived `Debug` of all public types, plain form `{:?}` | `Model/Debug` |

### Not modelled

* `{:#?}` and other flags of derived `Debug`, derived `defmt::Format` and `PartialEq` impls (equality of model values is structural, as
  derived equality is); a hasher's own methods (C98 has any); `Unimplemented`'s block *decryption*, never used.
* Interior mutability of a key lookup (`lookup_key_descriptor(&self)`) or cipher: in each call it is a function of
  its arguments, which is no restriction (C101: every sequence of answers is one of lookups and a cipher that always
  answer the same; C73 and C71 let them change between calls; in C81 and C82 they may answer anything). A key lookup
  that changes the *device table* while it is asked is covered by C103 only, not by the other
  theorems about histories.
* Panics raised inside caller-supplied lookups or ciphers, except in C81, C82, C96, C102 and C103, where a call may stop at
  any effect. In C81, C82, C96 and C103 the effects are those outside the buffer; in C102 every store into the buffer is a step
  that may itself be cut short. A store to a counter is one step throughout (no torn counters), and what a cipher cut
  short has done to the part of the buffer it was handed is open.
* AES itself, except as a test vector in `Verif/Tests/Aes.lean`. Cryptographic strength, timing.
* The contents of a buffer longer than 65535 octets after the `ccm` crate refused it (only its length).

### Simplifications

* Sums of lengths and offsets are computed in `Nat`, except in `Model/Arith.lean`; C83 shows that in `usize`
  they are the same for slices Rust can hold (at most `isize::MAX` octets). Theorems about differences of
  lengths, which can underflow, use `usub` and assume `SliceFits` where it matters.
* `PanId`, `ShortAddress`, `ExtendedAddress` are their field type.
* A mutable reference to a device descriptor is its value plus the function giving the lookup's state
  after storing another value.
* Frame payload slices are octet lists; arrays with a count are `Vector`s with a count.
* Unreachable arms behind an earlier panic (explicit footer in `do_secure!`/`do_unsecure!`) are omitted.

## Findings about the code

What the theorems say that a user may not expect:

1. **Native byte order** (C33, C61). `bytes.write(offset, u32)` uses the host's byte order: a big-endian
   host sends the frame counter reversed while the reader expects little-endian, and key sources are in
   host order both ways. Frames from a big-endian host are refused unless the counter is a palindrome
   (the crate's own test uses the counter `0x03030303`, which is one).
2. **Remote panic on short secured frames** (C43). A secured frame with fewer octets behind the header than
   its tag needs makes `try_read_and_unsecure` panic in every build profile.
3. **Counter 0xFFFFFFFF** (C36). A frame with this counter passes the check; then a build with overflow
   checks panics and one without stores 0, after which every old frame is accepted again.
4. **The header is not authenticated** (C39). The tag covers the payload only: source PAN, sequence number,
   flags, destination can be changed in transit.
5. **Explicit footer with a security context always panics** (C44), even for unsecured frames, once header
   and content fit; reading with an explicit footer and a security context panics for secured frames (C43).
6. **Level None** (C42) is sent in clear and consumes no counter; such frames can never be received.
   **ENC** is refused only after consuming a counter value. So do a missing key, a refusing cipher and
   a missing place for the tag (C32, C55).
7. **Reading with explicit footer** panics with overflow checks if fewer than two octets follow the content
   (C25).
8. **Commands** (C19, C52): a coordinator realignment without channel page followed by anything reads back
   with one.
9. **GTS information** (C14, C51) needs one octet more than it consists of.
10. **PAN compression** (C05): a compressed source in another PAN silently changes its PAN; the decoder accepts
    compression without source, the encoder refuses it, having written three octets.
11. **`get_octet_size`** (C09) ignores compression and the auxiliary header; so compressed secured frames
    are refused two octets early (C41). Unsecured frames have no limit (C60).
12. **Flags** `seq_no_suppress`, `ie_present` are read but never written (C04).
13. **Content of another type than the header says** is written as it is (C29).
14. **`Unimplemented` as a cipher** raises no error and gives no security (C58).
15. **`From<integer>`** of command identifiers, statuses and reasons panics on other values (C22), and so does
    that of every enum made with the exported macro (C69), whose comment promises the first pair as default.
16. **Restarts** (C65, C66). The crate stores nothing: a sender that starts again from an old counter reuses
    nonces (and leaks payloads), a receiver whose table is set back accepts old frames.
17. **Replay protection is per source address** (C67): a sender known under two addresses with the same key can
    be replayed from one as the other, since the header is not authenticated.
18. **`SecurityContext` is `Copy`** (C70): passing it by value and writing with both copies reuses nonces.
19. **`exempt` is never consulted** (C72), and no minimum security level is checked.
20. **Refused writes leave the payload in clear** in the caller's buffer (C75) when the counter is exhausted, the
    key is missing or the level is ENC; a caller that sends the buffer in spite of the error sends plaintext.
21. **Errors that never come** (C97): reading or receiving never gives `InvalidSecurityLevel`, `InvalidKeyIdentifierMode`,
    `AuxSecHeaderAbsent`, `SecurityNotEnabled`, `KeyFailure`, `NoDestinationAddress`, `TagWriteError`,
    `KeyIdentifierMismatch` or `KeyLookupAddressTypeMismatch`; a tag without place is `Incomplete`.

## Testing the theorems

`seeded/LOG.jsonl` records, one line each, edits of the model a realistic bug would cause, the claim broken
and the theorems that no longer prove. They were run in a scratch copy. Four kinds of lines:

- `muts*`: hand-written realistic bugs; the listed theorems fail to build.
- `refute-*`: since a broken proof does not show that the statement became false, the *negation* of the listed
  theorem was proved of the edited model, with a concrete counterexample. This tests the statement, not the proof.
- `hash-*`, `serde-*`: fields, discriminants and lengths dropped or swapped in the derived hashes (C98) and
  `serde` impls (C99).
- `auto-*`: mutants generated for every definition of the model (literals, comparison and arithmetic operators,
  constructors, dropped branches). Edits that no longer typecheck as a model are left out. The dozen that survive
  are listed with the reason; one showed a real gap (`tryWriteP` without a context), closed by
  `C81_without_context` and `C82_without_context`.

The whole project was also built once with `autoImplicit = false` (the lakefile is left as given), so no name
in a statement is an accidental variable.
