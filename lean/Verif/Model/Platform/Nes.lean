import Verif.Model.Platform.Tiles
import Verif.Model.Cpu.Mos6502
/-!
# /repo/necroassembler/platforms/nes.py

The debug symbol files written by `main` are in `Symbols.lean`.
-/

namespace Necro

open M (throw get modify lift forEach)

/-- nes.py:30-40 -/
def nesDefines : List (Str × Str) :=
  [("PPUCTRL", "$2000"), ("PPUMASK", "$2001"), ("PPUSTATUS", "$2002"), ("OAMADDR", "$2003"), ("OAMDATA", "$2004"),
   ("PPUSCROLL", "$2005"), ("PPUADDR", "$2006"), ("PPUDATA", "$2007"), ("OAMDMA", "$4014")].map fun p => (p.1.toList, p.2.toList)

/-- nes.py:47-53 -/
def nesHeader : Bytes := [0x4E, 0x45, 0x53, 0x1A, 0x02, 0x00] ++ List.replicate 10 0

/-- nes.py:42-54 `_generate_cartridge_header` -/
def nesCartridge (_tokens : List Str) : M Unit := do
  let s ← get
  if s.bytes.length ≠ 0 then throw (.platform "InvalidCartidgeHeaderOffset")
  else
    appendBytes nesHeader
    modify fun s => { s with cartridgeSet := true }

/-- nes.py:92-93 the two planes. -/
def nesPlanes : List (Int → Int) := [fun v => pyAnd v 1, fun v => pyShr v 1]

/-- nes.py:79-101 `_convert_cell`: the eight bytes of the first plane, then the eight of
the second. -/
def nesCell (img : Image) (cx cy : Nat) : Except Err Bytes :=
  match cellRows 3 nesPlanes img cx cy (List.range 8) with
  | .error e => .error e
  | .ok rows =>
    match pyBytes (rows.map fun r => r.getD 0 0) with
    | .error e => .error e
    | .ok p0 =>
      match pyBytes (rows.map fun r => r.getD 1 0) with
      | .error e => .error e
      | .ok p1 => .ok (p0 ++ p1)

/-- nes.py:78-116 `_build_chr_pattern_table` -/
def nesPatternTable (env : Env) : List Str → M Unit :=
  tilesDirective env (fun w h => w = 128 ∧ h = 128) (fun _ => (16, 16)) nesCell

/-- nes.py:42-116: the directives of the class. -/
def nesDirectives (d : Dialect) (env : Env) : List (String × (List Str → M Unit)) :=
  [("cartridge", nesCartridge),
   ("cartridge_prg_roms", cartridgeFill d 0x05 1),
   ("cartridge_chr_roms", cartridgeFill d 0x06 1),
   ("chr_pattern_table", nesPatternTable env)]

/-- nes.py:26-116 `AssemblerNES` -/
def nes : Dialect :=
  { mos6502 with
    defines := nesDefines
    directives := fun env key => classDirectives mos6502 (nesDirectives mos6502 env) key }

end Necro
