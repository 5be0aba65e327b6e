import Verif.Model.Platform.Tiles
/-!
# What the `main` functions of gba.py, genesis.py and psx.py do to the linked bytes
-/

namespace Necro

open M (throw get modify lift forEach)

/-- gba.py:13-15: the loop of the header checksum. -/
def gbaLoop : List Nat → Int → M Int
  | [], acc => pure acc
  | i :: is, acc => do
    let b ← readByte i
    gbaLoop is (acc - (b.toNat : Int))

/-- gba.py:10-16 -/
def gbaFix : M Unit := do
  let sum ← gbaLoop ((List.range (0xBD - 0xA0)).map (0xA0 + ·)) 0
  setByte 0xBD (BitVec.ofInt 8 (pyAnd (sum - 0x19) 0xFF))

/-- genesis.py:14-17: the loop of the checksum; `n` is the number of rounds left. -/
def genesisLoop : Nat → Nat → Int → M Int
  | 0, _, acc => pure acc
  | n + 1, i, acc => do
    let high ← readByte i
    let low ← readByte (i + 1)
    genesisLoop n (i + 2) (acc + pyOr (pyShl (high.toNat : Int) 8) (low.toNat : Int))

/-- genesis.py:10-19; `range(0x200, len, 2)` has `⌈(len - 0x200) / 2⌉` items. -/
def genesisFix : M Unit := do
  let s ← get
  let sum ← genesisLoop ((s.bytes.length - 0x200 + 1) / 2) 0x200 0
  setByte 0x18e (BitVec.ofInt 8 (pyAnd (pyShr sum 8) 0xFF))
  setByte 0x18f (BitVec.ofInt 8 (pyAnd sum 0xFF))

/-- `output.seek(pos); output.write(data)` on a binary file: a gap is filled with zeros. -/
def seekWrite (f : Bytes) (pos : Nat) (data : Bytes) : Bytes :=
  (f ++ List.replicate (pos - f.length) 0#8).take pos ++ data ++ f.drop (pos + data.length)

/-- psx.py:16-18 -/
def psxPad (code : Bytes) : Bytes :=
  let padding := code.length % 2048
  if padding ≠ 0 then code ++ List.replicate (2048 - padding) 0#8 else code

/-- psx.py:23-27: the registers and the size. -/
def psxRegs (size : Bytes) : Bytes :=
  [0x00, 0x00, 0x01, 0x80] ++ [0xFF, 0xFF, 0xFF, 0xFF] ++ [0x00, 0x00, 0x01, 0x80] ++ size ++ [0xF0, 0xFF, 0x1F, 0x80]

/-- psx.py:20-32: the writes, given the three encoded parts.  Python encodes the region text
only after the first writes; the file of a run that fails is not modelled. -/
def psxWrite (magic size region : Except Err Bytes) (code : Bytes) : Except Err Bytes :=
  match magic, size, region with
  | .ok magic, .ok size, .ok region =>
    .ok (seekWrite (seekWrite (seekWrite (seekWrite [] 0 magic) 0x10 (psxRegs size)) 0x4C region) 0x800 code)
  | .error e, _, _ => .error e
  | _, .error e, _ => .error e
  | _, _, .error e => .error e

/-- psx.py:20-32: the file written for the linked bytes. -/
def psxFile (code : Bytes) : Except Err Bytes :=
  psxWrite (encodeAscii "PS-X EXE".toList) (packLe32u [some ((psxPad code).length : Int)])
    (encodeAscii "Sony Computer Entertainment Inc. for Europe area".toList) (psxPad code)

end Necro
