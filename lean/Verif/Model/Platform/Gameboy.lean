import Verif.Model.Platform.Tiles
/-!
# /repo/necroassembler/platforms/gameboy.py

`AssemblerGameboy` extends the LR35902 assembler, which is the parameter `base` here.
-/

namespace Necro

open M (throw get modify lift forEach)

/-- gameboy.py:30-46 -/
def gameboyDefines : List (Str × Str) :=
  [("VRAM", "$8000"), ("LCDC", "$FF40"), ("STAT", "$FF41"), ("SCY", "$FF42"), ("SCX", "$FF43"), ("LY", "$FF44"),
   ("LYC", "$FF45"), ("WY", "$FF4A"), ("WX", "$FF4B"), ("TMAP0", "$9800"), ("TMAP1", "$9C00"), ("WRAM", "$C000"),
   ("WRAM0", "$C000"), ("WRAM1", "$D000"), ("HRAM", "$FF80")].map fun p => (p.1.toList, p.2.toList)

/-- gameboy.py:55-61 -/
def nintendoLogo : Bytes :=
  [0xCE, 0xED, 0x66, 0x66, 0xCC, 0x0D, 0x00, 0x0B,
   0x03, 0x73, 0x00, 0x83, 0x00, 0x0C, 0x00, 0x0D,
   0x00, 0x08, 0x11, 0x1F, 0x88, 0x89, 0x00, 0x0E,
   0xDC, 0xCC, 0x6E, 0xE6, 0xDD, 0xDD, 0xD9, 0x99,
   0xBB, 0xBB, 0x67, 0x63, 0x6E, 0x0E, 0xEC, 0xCC,
   0xDD, 0xDC, 0x99, 0x9F, 0xBB, 0xB9, 0x33, 0x3E]

/-- gameboy.py:54, 62-79: the bytes of the header. -/
def gameboyHeader : Bytes :=
  [0x00, 0xC3, 0x50, 0x01] ++ nintendoLogo ++ List.replicate 16 0 ++ List.replicate 2 0 ++ List.replicate 2 0 ++
    List.replicate 2 0 ++ [0x01] ++ [0x33] ++ [0x00] ++ List.replicate 3 0

/-- gameboy.py:48-80 `_generate_cartridge_header` -/
def gameboyCartridge (d : Dialect) (_tokens : List Str) : M Unit := do
  let s ← get
  if s.bytes.length ≠ 256 then throw (.platform "InvalidCartidgeHeaderOffset")
  else
    changeOrg d 0x100 s.orgEnd
    appendBytes gameboyHeader
    modify fun s => { s with cartridgeSet := true }

/-- gameboy.py:133-134 the two planes; the limit is at 131. -/
def gameboyPlanes : List (Int → Int) := [fun v => pyAnd v 1, fun v => pyShr v 1]

/-- gameboy.py:120-154 `_build_tiles` -/
def gameboyTiles (env : Env) : List Str → M Unit :=
  tilesDirective env (fun w h => w % 8 = 0 ∧ h % 8 = 0) (fun img => (img.width / 8, img.height / 8))
    (cellInterleaved 3 gameboyPlanes)

/-- gameboy.py:158-162: the loop of the header checksum. -/
def headerLoop : List Nat → Int → M Int
  | [], acc => pure acc
  | i :: is, acc => do
    let b ← readByte i
    headerLoop is (acc - (b.toNat : Int) - 1)

/-- gameboy.py:156-171 `_fix` -/
def gameboyFix : M Unit := do
  let sum ← headerLoop ((List.range (0x14d - 0x134)).map (0x134 + ·)) 0
  setByte 0x14d (BitVec.ofInt 8 (pyAnd sum 0xFF))
  let s ← get
  let global : Int := s.bytes.foldl (fun acc b => acc + (b.toNat : Int)) 0
  setByte 0x14e (BitVec.ofInt 8 (pyAnd (pyShr global 8) 0xFF))
  setByte 0x14f (BitVec.ofInt 8 (pyAnd global 0xFF))

/-- gameboy.py:48-154: the directives of the class. -/
def gameboyDirectives (d : Dialect) (env : Env) : List (String × (List Str → M Unit)) :=
  [("cartridge", gameboyCartridge d),
   ("cartridge_title", cartridgeFill d 0x134 16),
   ("cartridge_license", cartridgeFill d 0x144 2),
   ("cartridge_cgb", cartridgeFill d 0x143 1),
   ("cartridge_sgb", cartridgeFill d 0x146 1),
   ("cartridge_type", cartridgeFill d 0x147 1),
   ("cartridge_destination", cartridgeFill d 0x14A 1),
   ("tiles", gameboyTiles env)]

/-- gameboy.py:26-171 `AssemblerGameboy` on top of `base`. -/
def gameboyOn (base : Dialect) : Dialect :=
  { base with
    defines := gameboyDefines
    directives := fun env key => classDirectives base (gameboyDirectives base env) key
    postLink := gameboyFix }

end Necro
