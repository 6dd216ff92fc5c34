import Mathlib.Tactic.Ring

/-!
# CBOR (RFC 8949), as a verifier reads it

A decoder, written from the RFC and independent of the encoder in `Model`. Only what tokens use: definite
lengths, no negative numbers, no floats.
-/

namespace Verif.Attest

abbrev Byte := BitVec 8

namespace Cbor

/-- A data item. The entries of a map are listed as key, value, key, value, … -/
inductive Item
  | uint (n : Nat)
  | bytes (b : List Byte)
  | text (b : List Byte)
  | array (l : List Item)
  | map (l : List Item)
  | tag (n : Nat) (i : Item)

/-- A big-endian number of `k` bytes. -/
def number (k : Nat) (r : List Byte) : Option (Nat × List Byte) :=
  if r.length < k then none
  else some ((r.take k).foldl (fun x b => x * 256 + b.toNat) 0, r.drop k)

/-- Major type and argument (RFC 8949, section 3). -/
def getHead : List Byte → Option (Nat × Nat × List Byte)
  | [] => none
  | b :: r =>
    let m := b.toNat / 32
    let a := b.toNat % 32
    if a < 24 then some (m, a, r)
    else if a = 24 then (number 1 r).map fun p => (m, p.1, p.2)
    else if a = 25 then (number 2 r).map fun p => (m, p.1, p.2)
    else if a = 26 then (number 4 r).map fun p => (m, p.1, p.2)
    else if a = 27 then (number 8 r).map fun p => (m, p.1, p.2)
    else none

/-- `n` items in a row. -/
def items (f : List Byte → Option (Item × List Byte)) : Nat → List Byte → Option (List Item × List Byte)
  | 0, r => some ([], r)
  | n + 1, r => (f r).bind fun p => (items f n p.2).map fun q => (p.1 :: q.1, q.2)

def split (n : Nat) (r : List Byte) : Option (List Byte × List Byte) :=
  if r.length < n then none else some (r.take n, r.drop n)

/-- One item and what follows it; at most `fuel` levels deep. -/
def decode : Nat → List Byte → Option (Item × List Byte)
  | 0, _ => none
  | fuel + 1, bs =>
    (getHead bs).bind fun h =>
      match h.1 with
      | 0 => some (.uint h.2.1, h.2.2)
      | 2 => (split h.2.1 h.2.2).map fun p => (.bytes p.1, p.2)
      | 3 => (split h.2.1 h.2.2).map fun p => (.text p.1, p.2)
      | 4 => (items (decode fuel) h.2.1 h.2.2).map fun p => (.array p.1, p.2)
      | 5 => (items (decode fuel) (2 * h.2.1) h.2.2).map fun p => (.map p.1, p.2)
      | 6 => (decode fuel h.2.2).map fun p => (.tag h.2.1 p.1, p.2)
      | _ => none

/-- The item that the whole string stands for. -/
def parse (bs : List Byte) : Option Item :=
  match decode (bs.length + 1) bs with
  | some (v, []) => some v
  | _ => none

/-- The value of a key. -/
def Item.get (k : Nat) : Item → Option Item
  | .map l => go l
  | _ => none
where
  go : List Item → Option Item
    | .uint n :: v :: l => if n = k then some v else go l
    | _ :: _ :: l => go l
    | _ => none

end Cbor
end Verif.Attest
