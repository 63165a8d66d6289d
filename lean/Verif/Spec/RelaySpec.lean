import Verif.Spec.OnWire

/-!
# Specification: a frame received and sent on

What becomes of the octets of a frame that is read and written again, as a function of the octets
alone: the bits the crate does not represent are cleared.
-/

namespace Verif.Spec

/-- Pending addresses: bits 3 and 7 of the first octet cleared. -/
def clearPending : List UInt8 → List UInt8
  | p :: rest => UInt8.ofNat (p.toNat % 8 + p.toNat / 16 % 8 * 16) :: rest
  | [] => []

/-- GTS information and what follows: bits 3-6 of the first octet and the directions of absent slots
cleared. -/
def clearGts : List UInt8 → List UInt8
  | g :: rest =>
    let n := g.toNat % 8
    UInt8.ofNat (n + g.toNat / 128 * 128) ::
      if n = 0 then clearPending rest
      else match rest with
        | d :: rest => UInt8.ofNat (d.toNat % 2 ^ n) :: (rest.take (3 * n) ++ clearPending (rest.drop (3 * n)))
        | [] => []
  | [] => []

/-- Beacons: moreover bit 13 of the superframe specification cleared. -/
def clearBeacon : List UInt8 → List UInt8
  | s0 :: s1 :: rest => s0 :: UInt8.ofNat (s1.toNat % 32 + s1.toNat / 64 * 64) :: clearGts rest
  | l => l

/-- Commands: capability bits 0, 4, 5 and bits 6, 7 of GTS characteristics cleared. -/
def clearCommand : List UInt8 → List UInt8
  | id :: c :: rest =>
    if id = 1 then id :: UInt8.ofNat (c.toNat % 16 / 2 * 2 + c.toNat / 64 * 64) :: rest
    else if id = 9 then id :: UInt8.ofNat (c.toNat % 64) :: rest
    else id :: c :: rest
  | l => l

/-- Content of a frame of the given type. -/
def clearContent (t : FrameType) (l : List UInt8) : List UInt8 :=
  match t with
  | .beacon => clearBeacon l
  | .macCommand => clearCommand l
  | _ => l

end Verif.Spec
