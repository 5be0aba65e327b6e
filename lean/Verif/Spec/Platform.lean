import Verif.Spec.Bits
import Verif.Spec.Link
import Verif.Model.State
/-!
# What the consoles expect of a ROM image

Taken from the hardware documentation, not from the code: the checks done at power up and
the formats of the tiles.
-/

namespace Necro.Spec

/-- The sum of some bytes. -/
def total (bs : Bytes) : Nat := (bs.map BitVec.toNat).sum

/-- The big-endian word at position `i`. -/
def wordAt (rom : Bytes) (i : Nat) : Nat := 256 * (rom.getD i 0).toNat + (rom.getD (i + 1) 0).toNat

/-- Game Boy boot ROM: start from zero and for every byte from 0x134 to 0x14C subtract the
byte and one, in eight bit arithmetic; the result must be the byte at 0x14D. -/
def BootCheck (rom : Bytes) : Prop :=
  (List.range (0x14C - 0x134 + 1)).foldl (fun x i => x - rom.getD (0x134 + i) 0 - 1#8) 0#8 = rom.getD 0x14D 0

/-- Game Boy global checksum: the word at 0x14E is the sum of all the other bytes. -/
def GlobalCheck (rom : Bytes) : Prop :=
  wordAt rom 0x14E = (total (rom.take 0x14E) + total (rom.drop 0x150)) % 2 ^ 16

/-- GBA BIOS: the bytes from 0xA0 to 0xBD and 0x19 add up to zero modulo 256. -/
def GbaCheck (rom : Bytes) : Prop := (total (window rom 0xA0 (0xBD - 0xA0 + 1)) + 0x19) % 256 = 0

/-- Genesis: the word at 0x18E is the sum of the words from 0x200 to the end. -/
def GenesisCheck (rom : Bytes) : Prop :=
  wordAt rom 0x18E = ((List.range ((rom.length - 0x200) / 2)).map fun i => wordAt rom (0x200 + 2 * i)).sum % 2 ^ 16

/-- A PlayStation executable for `code`: a header of 2048 bytes with the magic at 0, the
entry point at 0x10, the load address at 0x18 and the size of the rest at 0x1C, then the
code, then zeros up to the next multiple of 2048. -/
structure PsxExe (code file : Bytes) : Prop where
  length : file.length = 0x800 + 2048 * ((code.length + 2047) / 2048)
  magic : window file 0 8 = [0x50, 0x53, 0x2D, 0x58, 0x20, 0x45, 0x58, 0x45]
  entry : ofLE (window file 0x10 4) = 0x80010000
  load : ofLE (window file 0x18 4) = 0x80010000
  size : ofLE (window file 0x1C 4) = (file.length - 0x800) % 2 ^ 32
  body : window file 0x800 code.length = code
  rest : ∀ i, 0x800 + code.length ≤ i → i < file.length → file[i]? = some 0

/-- The two images have the same length and differ at most at the positions `a … b`. -/
def SameOutside (a b : Nat) (rom rom' : Bytes) : Prop :=
  rom'.length = rom.length ∧ ∀ i, (i < a ∨ b < i) → rom'[i]? = rom[i]?

/-- The logo the Game Boy compares at power up. -/
def logo : Bytes :=
  [0xCE, 0xED, 0x66, 0x66, 0xCC, 0x0D, 0x00, 0x0B, 0x03, 0x73, 0x00, 0x83, 0x00, 0x0C, 0x00, 0x0D,
   0x00, 0x08, 0x11, 0x1F, 0x88, 0x89, 0x00, 0x0E, 0xDC, 0xCC, 0x6E, 0xE6, 0xDD, 0xDD, 0xD9, 0x99,
   0xBB, 0xBB, 0x67, 0x63, 0x6E, 0x0E, 0xEC, 0xCC, 0xDD, 0xDC, 0x99, 0x9F, 0xBB, 0xB9, 0x33, 0x3E]

/-- A Game Boy image with a header: `nop; jp $0150` at the entry point 0x100 and the logo. -/
structure HasHeader (rom : Bytes) : Prop where
  length : 0x150 ≤ rom.length
  entry : window rom 0x100 4 = [0x00, 0xC3, 0x50, 0x01]
  logo : window rom 0x104 48 = Spec.logo

/-- The Game Boy header fields that have a statement of their own: position and size. -/
def gameboyFields : List (String × Nat × Nat) :=
  [("cartridge_title", 0x134, 16), ("cartridge_license", 0x144, 2), ("cartridge_cgb", 0x143, 1), ("cartridge_sgb", 0x146, 1),
   ("cartridge_type", 0x147, 1), ("cartridge_destination", 0x14A, 1)]

/-- An iNES header: the magic, then the number of program and of character banks. -/
structure InesHeader (rom : Bytes) (prg chr : Nat) : Prop where
  length : 16 ≤ rom.length
  magic : window rom 0 4 = [0x4E, 0x45, 0x53, 0x1A]
  prg : (rom.getD 4 0).toNat = prg
  chr : (rom.getD 5 0).toNat = chr

/-- The pixel in column `x`, counted from the left, of a byte of a plane. -/
def planeBit (b : Byte) (x : Nat) : Nat := (b.getLsbD (7 - x)).toNat

/-- Pixel `(x, y)` of a Game Boy tile: two bytes per row, low plane first. -/
def gbPixel (t : Bytes) (x y : Nat) : Nat :=
  planeBit (t.getD (2 * y) 0) x + 2 * planeBit (t.getD (2 * y + 1) 0) x

/-- Pixel `(x, y)` of a NES tile: the low plane in eight bytes, then the high plane. -/
def nesPixel (t : Bytes) (x y : Nat) : Nat :=
  planeBit (t.getD y 0) x + 2 * planeBit (t.getD (8 + y) 0) x

/-- Pixel `(x, y)` of a Master System tile: four bytes per row. -/
def smsPixel (t : Bytes) (x y : Nat) : Nat :=
  planeBit (t.getD (4 * y) 0) x + 2 * planeBit (t.getD (4 * y + 1) 0) x +
    4 * planeBit (t.getD (4 * y + 2) 0) x + 8 * planeBit (t.getD (4 * y + 3) 0) x

/-- Pixel `(px, py)` of a picture `w` tiles wide stored tile by tile, `size` bytes each, row
of tiles after row of tiles. -/
def sheetPixel (pixel : Bytes → Nat → Nat → Nat) (size w : Nat) (sheet : Bytes) (px py : Nat) : Nat :=
  pixel (window sheet (size * ((py / 8) * w + px / 8)) size) (px % 8) (py % 8)

/-- Every pixel of the picture is a palette index from 0 to `limit`. -/
def InPalette (limit : Int) (img : Image) : Prop :=
  ∀ px py, px < img.width → py < img.height → 0 ≤ img.pixel px py ∧ img.pixel px py ≤ limit

/-- `sheet` holds all the tiles of the picture: reading it back gives the picture. -/
structure HoldsPicture (pixel : Bytes → Nat → Nat → Nat) (size : Nat) (img : Image) (sheet : Bytes) : Prop where
  length : sheet.length = size * ((img.width / 8) * (img.height / 8))
  pixels : ∀ px py, px < img.width → py < img.height →
    (sheetPixel pixel size (img.width / 8) sheet px py : Int) = img.pixel px py

end Necro.Spec
