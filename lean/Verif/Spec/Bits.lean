/-!
# Reading integers bit by bit and byte by byte

The specification vocabulary for the arithmetic properties: it mentions none of the
model's functions.
-/

namespace Necro.Spec

/-- Bit `i` of an integer in (infinite) two's complement. -/
def bit (x : Int) (i : Nat) : Bool := (x / 2 ^ i) % 2 = 1

/-- The number written by a list of bytes, least significant byte first. -/
def ofLE : List (BitVec 8) → Nat
  | [] => 0
  | b :: bs => b.toNat + 256 * ofLE bs

/-- The number written by a list of bytes, most significant byte first. -/
def ofBE (bs : List (BitVec 8)) : Nat := bs.foldl (fun acc b => 256 * acc + b.toNat) 0

/-- The number in the chosen byte order. -/
def ofBytes (be : Bool) (bs : List (BitVec 8)) : Nat := if be then ofBE bs else ofLE bs

/-- The two's complement reading of an `n`-bit pattern. -/
def toSigned (n : Nat) (v : Nat) : Int := if 2 * v < 2 ^ n then v else (v : Int) - 2 ^ n

/-- Cut a list into consecutive chunks of `n` elements; a short tail is kept. -/
def chunks (n : Nat) : Nat → List α → List (List α)
  | 0, _ => []
  | k + 1, l => l.take n :: chunks n k (l.drop n)

end Necro.Spec
