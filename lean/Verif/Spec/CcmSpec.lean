import Verif.Spec.SecuritySpec

/-!
# Specification: CCM as in RFC 3610, sections 2.2 to 2.4

Written from the RFC, octet by octet, with nothing taken from `Verif/Model/Ccm.lean`.  `E` is the
block cipher under a fixed key, `N` the nonce, `a` the additional authenticated data, `m` the
message, `M` the number of octets in the authentication field and `L = 15 - |N|` the number of
octets in the length field.
-/

namespace Verif.Spec.Rfc3610

/-- A 128-bit block. -/
abbrev Block := Vector UInt8 16

/-- The `k` low-order octets of `n`, most significant first. -/
def number (k n : Nat) : List UInt8 := (List.range k).map fun i => UInt8.ofNat (n / 256 ^ (k - 1 - i))

/-- The octet at position `i` of a string, zero past its end. -/
def octet (s : List UInt8) (i : Nat) : UInt8 := (s[i]?).getD 0

/-- An octet string cut in blocks of 16 octets, the last one padded with zeros. -/
def blocks (s : List UInt8) : List Block :=
  (List.range ((s.length + 15) / 16)).map fun j => Vector.ofFn fun i => octet s (16 * j + i)

/-- Exclusive or of two blocks. -/
def xor (x y : Block) : Block := Vector.zipWith (· ^^^ ·) x y

/-- 2.2: the encoding of the length of the additional authenticated data. -/
def lengthOf (a : List UInt8) : List UInt8 :=
  if a.length < 2 ^ 16 - 2 ^ 8 then number 2 a.length
  else if a.length < 2 ^ 32 then 0xFF :: 0xFE :: number 4 a.length
  else 0xFF :: 0xFF :: number 8 a.length

/-- 2.2: the block `B_0`: flags, nonce, length of the message.  The flags are `64 Adata + 8 M' + L'`
with `M' = (M - 2) / 2` and `L' = L - 1`. -/
def firstBlock (M : Nat) (N a m : List UInt8) : Block :=
  Vector.ofFn fun i => octet
    (UInt8.ofNat (64 * (if a.length = 0 then 0 else 1) + 8 * ((M - 2) / 2) + (15 - N.length - 1)) ::
      (N ++ number (15 - N.length) m.length)) i

/-- 2.2: the blocks `B_0, B_1, …, B_n` to authenticate. -/
def authenticated (M : Nat) (N a m : List UInt8) : List Block :=
  firstBlock M N a m :: ((if a.length = 0 then [] else blocks (lengthOf a ++ a)) ++ blocks m)

/-- 2.2: `X_1 = E(B_0)`, `X_{i+1} = E(X_i xor B_i)`; the last one.  (`X_1` is written here as
`E(0 xor B_0)`.) -/
def chained (E : Block → Block) (bs : List Block) : Block :=
  bs.foldl (fun x b => E (xor x b)) (Vector.replicate 16 0)

/-- 2.3: the block `A_i`: flags `L'`, nonce, counter. -/
def counterBlock (N : List UInt8) (i : Nat) : Block :=
  Vector.ofFn fun j => octet (UInt8.ofNat (15 - N.length - 1) :: (N ++ number (15 - N.length) i)) j

/-- 2.3: octet `j` of the message is masked with octet `j` of `S_1 S_2 S_3 …`, where
`S_i = E(A_i)`. -/
def encrypted (E : Block → Block) (N m : List UInt8) : List UInt8 :=
  m.mapIdx fun j x => x ^^^ octet (E (counterBlock N (1 + j / 16))).toList (j % 16)

/-- 2.3: the authentication value `U = T xor first-M-octets(S_0)`, `T` being the first `M` octets of
the last `X`. -/
def authValue (E : Block → Block) (M : Nat) (N a m : List UInt8) : List UInt8 :=
  (List.range M).map fun j =>
    octet (chained E (authenticated M N a m)).toList j ^^^ octet (E (counterBlock N 0)).toList j

/-- The octets a frame carries in place of its payload, and its tag, at the authenticating levels:
with MIC the payload is additional authenticated data and there is no message, with ENC-MIC the
payload is the message and there is no additional authenticated data. -/
def protected_ (E : Block → Block) (level : SecurityLevel) (N payload : List UInt8) :
    List UInt8 × List UInt8 :=
  if MicOnly level then (payload, authValue E (tagLength level) N payload [])
  else (encrypted E N payload, authValue E (tagLength level) N [] payload)

end Verif.Spec.Rfc3610
