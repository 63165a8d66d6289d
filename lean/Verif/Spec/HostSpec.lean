import Verif.Spec.HeaderSpec

/-!
# Specification: frames between hosts of different byte order
-/

namespace Verif.Spec

/-- The number with the given octets, most significant first. -/
def bigValue (l : List UInt8) : Nat := l.foldl (fun a b => 256 * a + b.toNat) 0

/-- The eight octets of `v` in the opposite order. -/
def swap64 (v : UInt64) : UInt64 := UInt64.ofNat (bigValue (le 8 v.toNat))

/-- The key source a host of byte order `reader` finds where one of byte order `writer` wrote `s`. -/
def keySourceAcross (writer reader : Endian) : KeySource → KeySource
  | .short v => .short (if writer = reader then v else swap32 v)
  | .long v => .long (if writer = reader then v else swap64 v)

/-- The key identifier found likewise. -/
def keyIdentifierAcross (writer reader : Endian) (k : KeyIdentifier) : KeyIdentifier :=
  { k with keySource := k.keySource.map (keySourceAcross writer reader) }

/-- The header a host `rcfg` reads where a host `cfg` wrote `h` with a context whose counter is `c`. -/
def headerAcross (cfg rcfg : Cfg) (c : UInt32) (h : Header) : Header :=
  { h with
    seqNoSuppress := false
    iePresent := false
    source := sourceAsRead h
    auxSec := h.auxSec.map fun a =>
      { control := ⟨a.control.securityLevel, keyIdModeOf a.keyIdentifier⟩
        frameCounter := counterOnAir cfg c
        keyIdentifier := a.keyIdentifier.map (keyIdentifierAcross cfg.native rcfg.native) } }

end Verif.Spec
