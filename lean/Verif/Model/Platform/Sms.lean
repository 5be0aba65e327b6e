import Verif.Model.Platform.Tiles
/-!
# /repo/necroassembler/platforms/sms.py

`AssemblerSegaMasterSystem` extends the Z80 assembler, the parameter `base`.
-/

namespace Necro

/-- sms.py:20-31 -/
def smsDefines : List (Str × Str) :=
  [("RAM", "$C000"), ("JOY1", "$DC"), ("JOY2", "$DD"), ("PSG", "$7F"), ("VDPDATA", "$BE"), ("VDPADDR", "$BF"),
   ("CMD_VRAM", "$40"), ("CMD_REG", "$80"), ("CMD_CRAM", "$C0")].map fun p => (p.1.toList, p.2.toList)

/-- sms.py:49-52 the four planes; the limit is at 47. -/
def smsPlanes : List (Int → Int) :=
  [fun v => pyAnd v 1, fun v => pyAnd (pyShr v 1) 1, fun v => pyAnd (pyShr v 2) 1, fun v => pyAnd (pyShr v 3) 1]

/-- sms.py:33-71 `_build_tiles` -/
def smsTiles (env : Env) : List Str → M Unit :=
  tilesDirective env (fun w h => w % 8 = 0 ∧ h % 8 = 0) (fun img => (img.width / 8, img.height / 8))
    (cellInterleaved 15 smsPlanes)

/-- sms.py:18-71 `AssemblerSegaMasterSystem` on top of `base`. -/
def smsOn (base : Dialect) : Dialect :=
  { base with
    defines := smsDefines
    directives := fun env key => classDirectives base [("tiles", smsTiles env)] key }

end Necro
