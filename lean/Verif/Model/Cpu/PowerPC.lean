import Verif.Model.Cpu.Mips32
/-!
# /repo/necroassembler/cpu/powerpc.py
-/

namespace Necro

/-- powerpc.py:4 `GREGS` -/
def ppcGregs : List Str := (List.range 32).map fun n => 'r' :: (toString n).toList

/-- powerpc.py:5 `FREGS` -/
def ppcFregs : List Str := (List.range 32).map fun n => 'f' :: (toString n).toList

/-- The third part of an operand in `OPCODES_TABLE`: one of the functions of powerpc.py:8-116, or one of the names
`SGREG` … `VREG` of powerpc.py:119-130, which are all bound to `None`. -/
inductive PpcKind where
  | greg | g0reg | freg | pcrel | baddr | si | hi | ui | num | num0 | snum | unset
deriving DecidableEq, Repr

/-- An operand: its lowest bit, its width, and what is written there. -/
abbrev PpcItem := Nat × Nat × PpcKind

/-- A row of `OPCODES_TABLE` without its name. -/
abbrev PpcRow := Nat × Option (List PpcItem)

/-- The functions called with one argument, as `match` does; `None` matches anything (utils.py:177-178). -/
def PpcKind.pat : PpcKind → Pat
  | .greg => .pred fun t => if lower t = "r0".toList then false else ppcGregs.contains (lower t)   -- 8-14
  | .g0reg => .pred fun t => if lower t = "0".toList then true else ppcGregs.contains (lower t)    -- 17-25
  | .freg => .pred fun t => ppcFregs.contains (lower t)                                            -- 28-32
  | .unset => .any
  | _ => .pred fun t => !(ppcGregs ++ ppcFregs).contains t                                         -- 45, 56, …, 116

/-- `int(token[1:])` for a token that passed `_greg`, `_g0reg` or `_freg`: the entry at index `i` of the tuple ends in
the decimal digits of `i`. -/
def ppcReg (names : List Str) (t : Str) : H Int :=
  match names.findIdx? (· == lower t) with
  | some i => pure (i : Int)
  | none => H.throw .valueError

/-- The functions called with a token, the assembler and the bits `(hi, lo)`; calling `None` is a `TypeError`. -/
def PpcKind.value (k : PpcKind) (hi lo : Nat) (t : Str) : H Int :=
  let number (signed : Bool) : H Int :=
    H.parseIntegerOrLabel { label := t, size := 4, bitsSize := hi - lo + 1, bits := some (hi, lo) } signed
  match k with
  | .greg => ppcReg ppcGregs t                                            -- 8-14
  | .g0reg => if t = "0".toList then pure 0 else ppcReg ppcGregs t         -- 17-25
  | .freg => ppcReg ppcFregs t                                            -- 28-32
  | .pcrel => do                                                          -- 35-45
    let c ← H.read
    H.parseIntegerOrLabel { label := t, size := 4, bitsSize := hi - lo + 1, bits := some (hi, lo), filter := some fun x => pyShr x 2, relative := c.pc }
  | .baddr =>                                                             -- 48-56
    H.parseIntegerOrLabel { label := t, size := 4, bitsSize := hi - lo + 1, bits := some (hi, lo), filter := some fun x => pyShr x 2 }
  | .si => number true                                                    -- 59-66
  | .hi => number false                                                   -- 69-76
  | .ui => number false                                                   -- 79-86
  | .num => number false                                                  -- 89-96
  | .num0 => number false                                                 -- 99-106
  | .snum => number true                                                  -- 109-116
  | .unset => H.throw .typeError

/-- powerpc.py:1342-1347: the list of bit fields, from left to right. -/
def ppcFields (tokens : List Str) : List PpcItem → Nat → H (List BitField)
  | [], _ => pure []
  | (lo, width, k) :: items, index => do
    let v ← k.value (lo + width - 1) lo (tokens.getD (index + 1) [])
    let fs ← ppcFields tokens items (index + 1)
    pure (⟨lo + width - 1, lo, v⟩ :: fs)

/-- powerpc.py:1336-1347 `__call__`: the first condition that fits. -/
def ppcCall (base : Nat) (tokens : List Str) : List (Option (List PpcItem)) → H (Option Bytes)
  | [] => pure none
  | none :: conds =>
    if tokens.length = 1 then do
      let b ← H.lift (packBe32u [some (base : Int)])
      pure (some b)
    else ppcCall base tokens conds
  | some items :: conds =>
    if instrMatch tokens (items.map fun x => x.2.2.pat) then do
      let fs ← ppcFields tokens items 0
      let v ← H.lift (packBits (base : Int) fs)
      let b ← H.lift (packBe32u [some v])
      pure (some b)
    else ppcCall base tokens conds

def ppcRows0 : List (String × List PpcRow) :=
  [("addi", [(0x38000000, some [(21, 5, .greg), (16, 5, .g0reg), (0, 16, .si)])]), ("li", [(0x38000000, some [(21, 5, .greg), (0, 16, .si)])]),
   ("addis", [(0x3C000000, some [(21, 5, .greg), (16, 5, .g0reg), (0, 16, .hi)])]),
   ("lis", [(0x3C000000, some [(21, 5, .greg), (0, 16, .hi)])]), ("addic", [(0x30000000, some [(21, 5, .greg), (16, 5, .greg), (0, 16, .si)])]),
   ("addic.", [(0x34000000, some [(21, 5, .greg), (16, 5, .greg), (0, 16, .si)])]),
   ("add", [(0x7C000214, some [(21, 5, .greg), (16, 5, .greg), (11, 5, .greg)])]),
   ("add.", [(0x7C000215, some [(21, 5, .greg), (16, 5, .greg), (11, 5, .greg)])]),
   ("addo", [(0x7C000614, some [(21, 5, .greg), (16, 5, .greg), (11, 5, .greg)])]),
   ("addo.", [(0x7C000615, some [(21, 5, .greg), (16, 5, .greg), (11, 5, .greg)])]),
   ("addc", [(0x7C000014, some [(21, 5, .greg), (16, 5, .greg), (11, 5, .greg)])]),
   ("addc.", [(0x7C000015, some [(21, 5, .greg), (16, 5, .greg), (11, 5, .greg)])]),
   ("addco", [(0x7C000414, some [(21, 5, .greg), (16, 5, .greg), (11, 5, .greg)])]),
   ("addco.", [(0x7C000415, some [(21, 5, .greg), (16, 5, .greg), (11, 5, .greg)])]),
   ("adde", [(0x7C000114, some [(21, 5, .greg), (16, 5, .greg), (11, 5, .greg)])]),
   ("adde.", [(0x7C000115, some [(21, 5, .greg), (16, 5, .greg), (11, 5, .greg)])]),
   ("addeo", [(0x7C000514, some [(21, 5, .greg), (16, 5, .greg), (11, 5, .greg)])]),
   ("addeo.", [(0x7C000515, some [(21, 5, .greg), (16, 5, .greg), (11, 5, .greg)])]),
   ("addme", [(0x7C0001D4, some [(21, 5, .greg), (16, 5, .greg)])]), ("addme.", [(0x7C0001D5, some [(21, 5, .greg), (16, 5, .greg)])]),
   ("addmeo", [(0x7C0005D4, some [(21, 5, .greg), (16, 5, .greg)])]), ("addmeo.", [(0x7C0005D5, some [(21, 5, .greg), (16, 5, .greg)])]),
   ("addze", [(0x7C000194, some [(21, 5, .greg), (16, 5, .greg)])]), ("addze.", [(0x7C000195, some [(21, 5, .greg), (16, 5, .greg)])]),
   ("addzeo", [(0x7C000594, some [(21, 5, .greg), (16, 5, .greg)])]), ("addzeo.", [(0x7C000595, some [(21, 5, .greg), (16, 5, .greg)])]),
   ("andi.", [(0x70000000, some [(16, 5, .greg), (21, 5, .greg), (0, 16, .ui)])]),
   ("andis.", [(0x74000000, some [(16, 5, .greg), (21, 5, .greg), (0, 16, .ui)])]),
   ("and", [(0x7C000038, some [(16, 5, .greg), (21, 5, .greg), (11, 5, .greg)])]),
   ("and.", [(0x7C000039, some [(16, 5, .greg), (21, 5, .greg), (11, 5, .greg)])]),
   ("andc", [(0x7C000078, some [(16, 5, .greg), (21, 5, .greg), (11, 5, .greg)])]),
   ("andc.", [(0x7C000079, some [(16, 5, .greg), (21, 5, .greg), (11, 5, .greg)])]), ("b", [(0x48000000, some [(2, 24, .pcrel)])]),
   ("ba", [(0x48000002, some [(2, 24, .baddr)])]), ("bl", [(0x48000001, some [(2, 24, .pcrel)])]),
   ("bla", [(0x48000003, some [(2, 24, .baddr)])]), ("jbsr", [(0x48000001, some [(0, 0, .unset), (2, 24, .pcrel)])]),
   ("jmp", [(0x48000000, some [(0, 0, .unset), (2, 24, .pcrel)])]),
   ("bc", [(0x40000000, some [(21, 5, .num), (16, 5, .num), (2, 14, .pcrel)])]),
   ("bca", [(0x40000002, some [(21, 5, .num), (16, 5, .num), (2, 14, .baddr)])]),
   ("bcl", [(0x40000001, some [(21, 5, .num), (16, 5, .num), (2, 14, .pcrel)])]),
   ("bcla", [(0x40000003, some [(21, 5, .num), (16, 5, .num), (2, 14, .baddr)])]),
   ("bcctr", [(0x4C000420, some [(21, 5, .num), (16, 5, .num)]), (0x4C000420, some [(21, 5, .num), (16, 5, .num), (11, 2, .num)])]),
   ("bcctrl", [(0x4C000421, some [(21, 5, .num), (16, 5, .num)]), (0x4C000421, some [(21, 5, .num), (16, 5, .num), (11, 2, .num)])]),
   ("bclr", [(0x4C000020, some [(21, 5, .num), (16, 5, .num)]), (0x4C000020, some [(21, 5, .num), (16, 5, .num), (11, 2, .num)])]),
   ("bclrl", [(0x4C000021, some [(21, 5, .num), (16, 5, .num)]), (0x4C000021, some [(21, 5, .num), (16, 5, .num), (11, 2, .num)])]),
   ("bt", [(0x41800000, some [(16, 5, .unset), (2, 14, .pcrel)])]), ("btl", [(0x41800001, some [(16, 5, .unset), (2, 14, .pcrel)])]),
   ("bf", [(0x40800000, some [(16, 5, .unset), (2, 14, .pcrel)])]), ("bfl", [(0x40800001, some [(16, 5, .unset), (2, 14, .pcrel)])]),
   ("bdnz", [(0x42000000, some [(2, 14, .pcrel)])]), ("bdnzl", [(0x42000001, some [(2, 14, .pcrel)])]),
   ("bdnzt", [(0x41000000, some [(16, 5, .unset), (2, 14, .pcrel)])]), ("bdnztl", [(0x41000001, some [(16, 5, .unset), (2, 14, .pcrel)])]),
   ("bdnzf", [(0x40000000, some [(16, 5, .unset), (2, 14, .pcrel)])]), ("bdnzfl", [(0x40000001, some [(16, 5, .unset), (2, 14, .pcrel)])]),
   ("bdz", [(0x42400000, some [(2, 14, .pcrel)])]), ("bdzl", [(0x42400001, some [(2, 14, .pcrel)])]),
   ("bdzt", [(0x41400000, some [(16, 5, .unset), (2, 14, .pcrel)])]), ("bdztl", [(0x41400001, some [(16, 5, .unset), (2, 14, .pcrel)])])]

def ppcRows1 : List (String × List PpcRow) :=
  [("bdzf", [(0x40400000, some [(16, 5, .unset), (2, 14, .pcrel)])]), ("bdzfl", [(0x40400001, some [(16, 5, .unset), (2, 14, .pcrel)])]),
   ("bta", [(0x41800002, some [(16, 5, .unset), (2, 14, .baddr)])]), ("btla", [(0x41800003, some [(16, 5, .unset), (2, 14, .baddr)])]),
   ("bfa", [(0x40800002, some [(16, 5, .unset), (2, 14, .baddr)])]), ("bfla", [(0x40800003, some [(16, 5, .unset), (2, 14, .baddr)])]),
   ("bdnza", [(0x42000002, some [(2, 14, .baddr)])]), ("bdnzla", [(0x42000003, some [(2, 14, .baddr)])]),
   ("bdnzta", [(0x41000002, some [(16, 5, .unset), (2, 14, .baddr)])]), ("bdnztla", [(0x41000003, some [(16, 5, .unset), (2, 14, .baddr)])]),
   ("bdnzfa", [(0x40000002, some [(16, 5, .unset), (2, 14, .baddr)])]), ("bdnzfla", [(0x40000003, some [(16, 5, .unset), (2, 14, .baddr)])]),
   ("bdza", [(0x42400002, some [(2, 14, .baddr)])]), ("bdzla", [(0x42400003, some [(2, 14, .baddr)])]),
   ("bdzta", [(0x41400002, some [(16, 5, .unset), (2, 14, .baddr)])]), ("bdztla", [(0x41400003, some [(16, 5, .unset), (2, 14, .baddr)])]),
   ("bdzfa", [(0x40400002, some [(16, 5, .unset), (2, 14, .baddr)])]), ("bdzfla", [(0x40400003, some [(16, 5, .unset), (2, 14, .baddr)])]),
   ("blr", [(0x4E800020, none), (0x4E800020, some [(11, 2, .num)])]), ("blrl", [(0x4E800021, none), (0x4E800021, some [(11, 2, .num)])]),
   ("btlr", [(0x4D800020, some [(16, 5, .unset)]), (0x4D800020, some [(16, 5, .unset), (11, 2, .num)])]),
   ("btlrl", [(0x4D800021, some [(16, 5, .unset)]), (0x4D800021, some [(16, 5, .unset), (11, 2, .num)])]),
   ("bflr", [(0x4C800020, some [(16, 5, .unset)]), (0x4C800020, some [(16, 5, .unset), (11, 2, .num)])]),
   ("bflrl", [(0x4C800021, some [(16, 5, .unset)]), (0x4C800021, some [(16, 5, .unset), (11, 2, .num)])]),
   ("bdnzlr", [(0x4E000020, none), (0x4E000020, some [(11, 2, .num)])]), ("bdnzlrl", [(0x4E000021, none), (0x4E000021, some [(11, 2, .num)])]),
   ("bdnztlr", [(0x4D000020, some [(16, 5, .unset)]), (0x4D000020, some [(16, 5, .unset), (11, 2, .num)])]),
   ("bdnztlrl", [(0x4D000021, some [(16, 5, .unset)]), (0x4D000021, some [(16, 5, .unset), (11, 2, .num)])]),
   ("bdnzflr", [(0x4C000020, some [(16, 5, .unset)]), (0x4C000020, some [(16, 5, .unset), (11, 2, .num)])]),
   ("bdnzflrl", [(0x4C000021, some [(16, 5, .unset)]), (0x4C000021, some [(16, 5, .unset), (11, 2, .num)])]),
   ("bdzlr", [(0x4E400020, none), (0x4E400020, some [(11, 2, .num)])]), ("bdzlrl", [(0x4E400021, none), (0x4E400021, some [(11, 2, .num)])]),
   ("bdztlr", [(0x4D400020, some [(16, 5, .unset)]), (0x4D400020, some [(16, 5, .unset), (11, 2, .num)])]),
   ("bdztlrl", [(0x4D400021, some [(16, 5, .unset)]), (0x4D400021, some [(16, 5, .unset), (11, 2, .num)])]),
   ("bdzflr", [(0x4C400020, some [(16, 5, .unset)]), (0x4C400020, some [(16, 5, .unset), (11, 2, .num)])]),
   ("bdzflrl", [(0x4C400021, some [(16, 5, .unset)]), (0x4C400021, some [(16, 5, .unset), (11, 2, .num)])]),
   ("bctr", [(0x4C000420, some [(21, 5, .num), (16, 5, .num)]), (0x4E800420, none), (0x4E800420, some [(11, 2, .num)])]),
   ("bctrl", [(0x4C000421, some [(21, 5, .num), (16, 5, .num)]), (0x4E800421, none), (0x4E800421, some [(11, 2, .num)])]),
   ("btctr", [(0x4D800420, some [(16, 5, .unset)]), (0x4D800420, some [(16, 5, .unset), (11, 2, .num)])]),
   ("btctrl", [(0x4D800421, some [(16, 5, .unset)]), (0x4D800421, some [(16, 5, .unset), (11, 2, .num)])]),
   ("bfctr", [(0x4C800420, some [(16, 5, .unset)]), (0x4C800420, some [(16, 5, .unset), (11, 2, .num)])]),
   ("bfctrl", [(0x4C800421, some [(16, 5, .unset)]), (0x4C800421, some [(16, 5, .unset), (11, 2, .num)])]),
   ("blt", [(0x41800000, some [(16, 5, .unset), (2, 14, .pcrel)]), (0x41800000, some [(2, 14, .pcrel)])]),
   ("bltl", [(0x41800001, some [(16, 5, .unset), (2, 14, .pcrel)]), (0x41800001, some [(2, 14, .pcrel)])]),
   ("ble", [(0x40810000, some [(16, 5, .unset), (2, 14, .pcrel)]), (0x40810000, some [(2, 14, .pcrel)])]),
   ("blel", [(0x40810001, some [(16, 5, .unset), (2, 14, .pcrel)]), (0x40810001, some [(2, 14, .pcrel)])]),
   ("beq", [(0x41820000, some [(16, 5, .unset), (2, 14, .pcrel)]), (0x41820000, some [(2, 14, .pcrel)])]),
   ("beql", [(0x41820001, some [(16, 5, .unset), (2, 14, .pcrel)]), (0x41820001, some [(2, 14, .pcrel)])]),
   ("bge", [(0x40800000, some [(16, 5, .unset), (2, 14, .pcrel)]), (0x40800000, some [(2, 14, .pcrel)])]),
   ("bgel", [(0x40800001, some [(16, 5, .unset), (2, 14, .pcrel)]), (0x40800001, some [(2, 14, .pcrel)])]),
   ("bgt", [(0x41810000, some [(16, 5, .unset), (2, 14, .pcrel)]), (0x41810000, some [(2, 14, .pcrel)])]),
   ("bgtl", [(0x41810001, some [(16, 5, .unset), (2, 14, .pcrel)]), (0x41810001, some [(2, 14, .pcrel)])]),
   ("bnl", [(0x40800000, some [(16, 5, .unset), (2, 14, .pcrel)]), (0x40800000, some [(2, 14, .pcrel)])]),
   ("bnll", [(0x40800001, some [(16, 5, .unset), (2, 14, .pcrel)]), (0x40800001, some [(2, 14, .pcrel)])]),
   ("bne", [(0x40820000, some [(16, 5, .unset), (2, 14, .pcrel)]), (0x40820000, some [(2, 14, .pcrel)])]),
   ("bnel", [(0x40820001, some [(16, 5, .unset), (2, 14, .pcrel)]), (0x40820001, some [(2, 14, .pcrel)])]),
   ("bng", [(0x40810000, some [(16, 5, .unset), (2, 14, .pcrel)]), (0x40810000, some [(2, 14, .pcrel)])]),
   ("bngl", [(0x40810001, some [(16, 5, .unset), (2, 14, .pcrel)]), (0x40810001, some [(2, 14, .pcrel)])]),
   ("bso", [(0x41830000, some [(16, 5, .unset), (2, 14, .pcrel)]), (0x41830000, some [(2, 14, .pcrel)])]),
   ("bsol", [(0x41830001, some [(16, 5, .unset), (2, 14, .pcrel)]), (0x41830001, some [(2, 14, .pcrel)])])]

def ppcRows2 : List (String × List PpcRow) :=
  [("bns", [(0x40830000, some [(16, 5, .unset), (2, 14, .pcrel)]), (0x40830000, some [(2, 14, .pcrel)])]),
   ("bnsl", [(0x40830001, some [(16, 5, .unset), (2, 14, .pcrel)]), (0x40830001, some [(2, 14, .pcrel)])]),
   ("bun", [(0x41830000, some [(16, 5, .unset), (2, 14, .pcrel)]), (0x41830000, some [(2, 14, .pcrel)])]),
   ("bunl", [(0x41830001, some [(16, 5, .unset), (2, 14, .pcrel)]), (0x41830001, some [(2, 14, .pcrel)])]),
   ("bnu", [(0x40830000, some [(16, 5, .unset), (2, 14, .pcrel)]), (0x40830000, some [(2, 14, .pcrel)])]),
   ("bnul", [(0x40830001, some [(16, 5, .unset), (2, 14, .pcrel)]), (0x40830001, some [(2, 14, .pcrel)])]),
   ("blta", [(0x41800002, some [(16, 5, .unset), (2, 14, .baddr)]), (0x41800002, some [(2, 14, .baddr)])]),
   ("bltla", [(0x41800003, some [(16, 5, .unset), (2, 14, .baddr)]), (0x41800003, some [(2, 14, .baddr)])]),
   ("blea", [(0x40810002, some [(16, 5, .unset), (2, 14, .baddr)]), (0x40810002, some [(2, 14, .baddr)])]),
   ("blela", [(0x40810003, some [(16, 5, .unset), (2, 14, .baddr)]), (0x40810003, some [(2, 14, .baddr)])]),
   ("beqa", [(0x41820002, some [(16, 5, .unset), (2, 14, .baddr)]), (0x41820002, some [(2, 14, .baddr)])]),
   ("beqla", [(0x41820003, some [(16, 5, .unset), (2, 14, .baddr)]), (0x41820003, some [(2, 14, .baddr)])]),
   ("bgea", [(0x40800002, some [(16, 5, .unset), (2, 14, .baddr)]), (0x40800002, some [(2, 14, .baddr)])]),
   ("bgela", [(0x40800003, some [(16, 5, .unset), (2, 14, .baddr)]), (0x40800003, some [(2, 14, .baddr)])]),
   ("bgta", [(0x41810002, some [(16, 5, .unset), (2, 14, .baddr)]), (0x41810002, some [(2, 14, .baddr)])]),
   ("bgtla", [(0x41810003, some [(16, 5, .unset), (2, 14, .baddr)]), (0x41810003, some [(2, 14, .baddr)])]),
   ("bnla", [(0x40800002, some [(16, 5, .unset), (2, 14, .baddr)]), (0x40800002, some [(2, 14, .baddr)])]),
   ("bnlla", [(0x40800003, some [(16, 5, .unset), (2, 14, .baddr)]), (0x40800003, some [(2, 14, .baddr)])]),
   ("bnea", [(0x40820002, some [(16, 5, .unset), (2, 14, .baddr)]), (0x40820002, some [(2, 14, .baddr)])]),
   ("bnela", [(0x40820003, some [(16, 5, .unset), (2, 14, .baddr)]), (0x40820003, some [(2, 14, .baddr)])]),
   ("bnga", [(0x40810002, some [(16, 5, .unset), (2, 14, .baddr)]), (0x40810002, some [(2, 14, .baddr)])]),
   ("bngla", [(0x40810003, some [(16, 5, .unset), (2, 14, .baddr)]), (0x40810003, some [(2, 14, .baddr)])]),
   ("bsoa", [(0x41830002, some [(16, 5, .unset), (2, 14, .baddr)]), (0x41830002, some [(2, 14, .baddr)])]),
   ("bsola", [(0x41830003, some [(16, 5, .unset), (2, 14, .baddr)]), (0x41830003, some [(2, 14, .baddr)])]),
   ("bnsa", [(0x40830002, some [(16, 5, .unset), (2, 14, .baddr)]), (0x40830002, some [(2, 14, .baddr)])]),
   ("bnsla", [(0x40830003, some [(16, 5, .unset), (2, 14, .baddr)]), (0x40830003, some [(2, 14, .baddr)])]),
   ("buna", [(0x41830002, some [(16, 5, .unset), (2, 14, .baddr)]), (0x41830002, some [(2, 14, .baddr)])]),
   ("bunla", [(0x41830003, some [(16, 5, .unset), (2, 14, .baddr)]), (0x41830003, some [(2, 14, .baddr)])]),
   ("bnua", [(0x40830002, some [(16, 5, .unset), (2, 14, .baddr)]), (0x40830002, some [(2, 14, .baddr)])]),
   ("bnula", [(0x40830003, some [(16, 5, .unset), (2, 14, .baddr)]), (0x40830003, some [(2, 14, .baddr)])]),
   ("bltlr", [(0x4D800020, some [(16, 5, .unset)]), (0x4D800020, some [(16, 5, .unset), (11, 2, .num)]), (0x4D800020, none)]),
   ("bltlrl", [(0x4D800021, some [(16, 5, .unset)]), (0x4D800021, some [(16, 5, .unset), (11, 2, .num)]), (0x4D800021, none)]),
   ("blelr", [(0x4C810020, some [(16, 5, .unset)]), (0x4C810020, some [(16, 5, .unset), (11, 2, .num)]), (0x4C810020, none)]),
   ("blelrl", [(0x4C810021, some [(16, 5, .unset)]), (0x4C810021, some [(16, 5, .unset), (11, 2, .num)]), (0x4C810021, none)]),
   ("beqlr", [(0x4D820020, some [(16, 5, .unset)]), (0x4D820020, some [(16, 5, .unset), (11, 2, .num)]), (0x4D820020, none)]),
   ("beqlrl", [(0x4D820021, some [(16, 5, .unset)]), (0x4D820021, some [(16, 5, .unset), (11, 2, .num)]), (0x4D820021, none)]),
   ("bgelr", [(0x4C800020, some [(16, 5, .unset)]), (0x4C800020, some [(16, 5, .unset), (11, 2, .num)]), (0x4C800020, none)]),
   ("bgelrl", [(0x4C800021, some [(16, 5, .unset)]), (0x4C800021, some [(16, 5, .unset), (11, 2, .num)]), (0x4C800021, none)]),
   ("bgtlr", [(0x4D810020, some [(16, 5, .unset)]), (0x4D810020, some [(16, 5, .unset), (11, 2, .num)]), (0x4D810020, none)]),
   ("bgtlrl", [(0x4D810021, some [(16, 5, .unset)]), (0x4D810021, some [(16, 5, .unset), (11, 2, .num)]), (0x4D810021, none)]),
   ("bnllr", [(0x4C800020, some [(16, 5, .unset)]), (0x4C800020, some [(16, 5, .unset), (11, 2, .num)]), (0x4C800020, none)]),
   ("bnllrl", [(0x4C800021, some [(16, 5, .unset)]), (0x4C800021, some [(16, 5, .unset), (11, 2, .num)]), (0x4C800021, none)]),
   ("bnelr", [(0x4C820020, some [(16, 5, .unset)]), (0x4C820020, some [(16, 5, .unset), (11, 2, .num)]), (0x4C820020, none)]),
   ("bnelrl", [(0x4C820021, some [(16, 5, .unset)]), (0x4C820021, some [(16, 5, .unset), (11, 2, .num)]), (0x4C820021, none)]),
   ("bnglr", [(0x4C810020, some [(16, 5, .unset)]), (0x4C810020, some [(16, 5, .unset), (11, 2, .num)]), (0x4C810020, none)]),
   ("bnglrl", [(0x4C810021, some [(16, 5, .unset)]), (0x4C810021, some [(16, 5, .unset), (11, 2, .num)]), (0x4C810021, none)]),
   ("bsolr", [(0x4D830020, some [(16, 5, .unset)]), (0x4D830020, some [(16, 5, .unset), (11, 2, .num)]), (0x4D830020, none)]),
   ("bsolrl", [(0x4D830021, some [(16, 5, .unset)]), (0x4D830021, some [(16, 5, .unset), (11, 2, .num)]), (0x4D830021, none)]),
   ("bnslr", [(0x4C830020, some [(16, 5, .unset)]), (0x4C830020, some [(16, 5, .unset), (11, 2, .num)]), (0x4C830020, none)]),
   ("bnslrl", [(0x4C830021, some [(16, 5, .unset)]), (0x4C830021, some [(16, 5, .unset), (11, 2, .num)]), (0x4C830021, none)]),
   ("bunlr", [(0x4D830020, some [(16, 5, .unset)]), (0x4D830020, some [(16, 5, .unset), (11, 2, .num)]), (0x4D830020, none)]),
   ("bunlrl", [(0x4D830021, some [(16, 5, .unset)]), (0x4D830021, some [(16, 5, .unset), (11, 2, .num)]), (0x4D830021, none)]),
   ("bnulr", [(0x4C830020, some [(16, 5, .unset)]), (0x4C830020, some [(16, 5, .unset), (11, 2, .num)]), (0x4C830020, none)]),
   ("bnulrl", [(0x4C830021, some [(16, 5, .unset)]), (0x4C830021, some [(16, 5, .unset), (11, 2, .num)]), (0x4C830021, none)]),
   ("bltctr", [(0x4D800420, some [(16, 5, .unset)]), (0x4D800420, some [(16, 5, .unset), (11, 2, .num)]), (0x4D800420, none)]),
   ("bltctrl", [(0x4D800421, some [(16, 5, .unset)]), (0x4D800421, some [(16, 5, .unset), (11, 2, .num)]), (0x4D800421, none)]),
   ("blectr", [(0x4C810420, some [(16, 5, .unset)]), (0x4C810420, some [(16, 5, .unset), (11, 2, .num)]), (0x4C810420, none)]),
   ("blectrl", [(0x4C810421, some [(16, 5, .unset)]), (0x4C810421, some [(16, 5, .unset), (11, 2, .num)]), (0x4C810421, none)]),
   ("beqctr", [(0x4D820420, some [(16, 5, .unset)]), (0x4D820420, some [(16, 5, .unset), (11, 2, .num)]), (0x4D820420, none)]),
   ("beqctrl", [(0x4D820421, some [(16, 5, .unset)]), (0x4D820421, some [(16, 5, .unset), (11, 2, .num)]), (0x4D820421, none)])]

def ppcRows3 : List (String × List PpcRow) :=
  [("bgectr", [(0x4C800420, some [(16, 5, .unset)]), (0x4C800420, some [(16, 5, .unset), (11, 2, .num)]), (0x4C800420, none)]),
   ("bgectrl", [(0x4C800421, some [(16, 5, .unset)]), (0x4C800421, some [(16, 5, .unset), (11, 2, .num)]), (0x4C800421, none)]),
   ("bgtctr", [(0x4D810420, some [(16, 5, .unset)]), (0x4D810420, some [(16, 5, .unset), (11, 2, .num)]), (0x4D810420, none)]),
   ("bgtctrl", [(0x4D810421, some [(16, 5, .unset)]), (0x4D810421, some [(16, 5, .unset), (11, 2, .num)]), (0x4D810421, none)]),
   ("bnlctr", [(0x4C800420, some [(16, 5, .unset)]), (0x4C800420, some [(16, 5, .unset), (11, 2, .num)]), (0x4C800420, none)]),
   ("bnlctrl", [(0x4C800421, some [(16, 5, .unset)]), (0x4C800421, some [(16, 5, .unset), (11, 2, .num)]), (0x4C800421, none)]),
   ("bnectr", [(0x4C820420, some [(16, 5, .unset)]), (0x4C820420, some [(16, 5, .unset), (11, 2, .num)]), (0x4C820420, none)]),
   ("bnectrl", [(0x4C820421, some [(16, 5, .unset)]), (0x4C820421, some [(16, 5, .unset), (11, 2, .num)]), (0x4C820421, none)]),
   ("bngctr", [(0x4C810420, some [(16, 5, .unset)]), (0x4C810420, some [(16, 5, .unset), (11, 2, .num)]), (0x4C810420, none)]),
   ("bngctrl", [(0x4C810421, some [(16, 5, .unset)]), (0x4C810421, some [(16, 5, .unset), (11, 2, .num)]), (0x4C810421, none)]),
   ("bsoctr", [(0x4D830420, some [(16, 5, .unset)]), (0x4D830420, some [(16, 5, .unset), (11, 2, .num)]), (0x4D830420, none)]),
   ("bsoctrl", [(0x4D830421, some [(16, 5, .unset)]), (0x4D830421, some [(16, 5, .unset), (11, 2, .num)]), (0x4D830421, none)]),
   ("bnsctr", [(0x4C830420, some [(16, 5, .unset)]), (0x4C830420, some [(16, 5, .unset), (11, 2, .num)]), (0x4C830420, none)]),
   ("bnsctrl", [(0x4C830421, some [(16, 5, .unset)]), (0x4C830421, some [(16, 5, .unset), (11, 2, .num)]), (0x4C830421, none)]),
   ("bunctr", [(0x4D830420, some [(16, 5, .unset)]), (0x4D830420, some [(16, 5, .unset), (11, 2, .num)]), (0x4D830420, none)]),
   ("bunctrl", [(0x4D830421, some [(16, 5, .unset)]), (0x4D830421, some [(16, 5, .unset), (11, 2, .num)]), (0x4D830421, none)]),
   ("bnuctr", [(0x4C830420, some [(16, 5, .unset)]), (0x4C830420, some [(16, 5, .unset), (11, 2, .num)]), (0x4C830420, none)]),
   ("bnuctrl", [(0x4C830421, some [(16, 5, .unset)]), (0x4C830421, some [(16, 5, .unset), (11, 2, .num)]), (0x4C830421, none)]),
   ("cmpi", [(0x2C000000, some [(21, 5, .unset), (16, 5, .greg), (0, 16, .si)]), (0x2C000000, some [(21, 5, .unset), (21, 1, .num), (16, 5, .greg), (0, 16, .si)]), (0x2C000000, some [(23, 3, .num), (16, 5, .greg), (0, 16, .si)]), (0x2C000000, some [(23, 3, .num), (21, 1, .num), (16, 5, .greg), (0, 16, .si)])]),
   ("cmpwi", [(0x2C000000, some [(16, 5, .greg), (0, 16, .si)]), (0x2C000000, some [(21, 5, .unset), (16, 5, .greg), (0, 16, .si)]), (0x2C000000, some [(23, 3, .num), (16, 5, .greg), (0, 16, .si)])]),
   ("cmpdi", [(0x2C200000, some [(16, 5, .greg), (0, 16, .si)]), (0x2C200000, some [(21, 5, .unset), (16, 5, .greg), (0, 16, .si)]), (0x2C200000, some [(23, 3, .num), (16, 5, .greg), (0, 16, .si)])]),
   ("cmp", [(0x7C000000, some [(21, 5, .unset), (16, 5, .greg), (11, 5, .greg)]), (0x7C000000, some [(21, 5, .unset), (21, 1, .num), (16, 5, .greg), (11, 5, .greg)]), (0x7C000000, some [(23, 3, .num), (16, 5, .greg), (11, 5, .greg)]), (0x7C000000, some [(23, 3, .num), (21, 1, .num), (16, 5, .greg), (11, 5, .greg)])]),
   ("cmpw", [(0x7C000000, some [(16, 5, .greg), (11, 5, .greg)]), (0x7C000000, some [(21, 5, .unset), (16, 5, .greg), (11, 5, .greg)]), (0x7C000000, some [(23, 3, .num), (16, 5, .greg), (11, 5, .greg)])]),
   ("cmpd", [(0x7C200000, some [(16, 5, .greg), (11, 5, .greg)]), (0x7C200000, some [(21, 5, .unset), (16, 5, .greg), (11, 5, .greg)]), (0x7C200000, some [(23, 3, .num), (16, 5, .greg), (11, 5, .greg)])]),
   ("cmpli", [(0x28000000, some [(21, 5, .unset), (16, 5, .greg), (0, 16, .ui)]), (0x28000000, some [(21, 5, .unset), (21, 1, .num), (16, 5, .greg), (0, 16, .ui)]), (0x28000000, some [(23, 3, .num), (16, 5, .greg), (0, 16, .ui)]), (0x28000000, some [(23, 3, .num), (21, 1, .num), (16, 5, .greg), (0, 16, .ui)])]),
   ("cmplwi", [(0x28000000, some [(16, 5, .greg), (0, 16, .ui)]), (0x28000000, some [(21, 5, .unset), (16, 5, .greg), (0, 16, .ui)]), (0x28000000, some [(23, 3, .num), (16, 5, .greg), (0, 16, .ui)])]),
   ("cmpldi", [(0x28200000, some [(16, 5, .greg), (0, 16, .ui)]), (0x28200000, some [(21, 5, .unset), (16, 5, .greg), (0, 16, .ui)]), (0x28200000, some [(23, 3, .num), (16, 5, .greg), (0, 16, .ui)])]),
   ("cmpl", [(0x7C000040, some [(21, 5, .unset), (16, 5, .greg), (11, 5, .greg)]), (0x7C000040, some [(21, 5, .unset), (21, 1, .num), (16, 5, .greg), (11, 5, .greg)]), (0x7C000040, some [(23, 3, .num), (16, 5, .greg), (11, 5, .greg)]), (0x7C000040, some [(23, 3, .num), (21, 1, .num), (16, 5, .greg), (11, 5, .greg)])]),
   ("cmplw", [(0x7C000040, some [(16, 5, .greg), (11, 5, .greg)]), (0x7C000040, some [(21, 5, .unset), (16, 5, .greg), (11, 5, .greg)]), (0x7C000040, some [(23, 3, .num), (16, 5, .greg), (11, 5, .greg)])]),
   ("cmpld", [(0x7C200040, some [(16, 5, .greg), (11, 5, .greg)]), (0x7C200040, some [(21, 5, .unset), (16, 5, .greg), (11, 5, .greg)]), (0x7C200040, some [(23, 3, .num), (16, 5, .greg), (11, 5, .greg)])]),
   ("cntlzw", [(0x7C000034, some [(16, 5, .greg), (21, 5, .greg)])]), ("cntlzw.", [(0x7C000035, some [(16, 5, .greg), (21, 5, .greg)])]),
   ("crand", [(0x4C000202, some [(21, 5, .num), (16, 5, .num), (11, 5, .num)])]),
   ("crandc", [(0x4C000102, some [(21, 5, .num), (16, 5, .num), (11, 5, .num)])]),
   ("creqv", [(0x4C000242, some [(21, 5, .num), (16, 5, .num), (11, 5, .num)])]),
   ("crnand", [(0x4C0001C2, some [(21, 5, .num), (16, 5, .num), (11, 5, .num)])]),
   ("crnor", [(0x4C000042, some [(21, 5, .num), (16, 5, .num), (11, 5, .num)])]),
   ("cror", [(0x4C000382, some [(21, 5, .num), (16, 5, .num), (11, 5, .num)])]),
   ("crorc", [(0x4C000342, some [(21, 5, .num), (16, 5, .num), (11, 5, .num)])]),
   ("crxor", [(0x4C000182, some [(21, 5, .num), (16, 5, .num), (11, 5, .num)])]),
   ("divw", [(0x7C0003D6, some [(21, 5, .greg), (16, 5, .greg), (11, 5, .greg)])]),
   ("divw.", [(0x7C0003D7, some [(21, 5, .greg), (16, 5, .greg), (11, 5, .greg)])]),
   ("divwo", [(0x7C0007D6, some [(21, 5, .greg), (16, 5, .greg), (11, 5, .greg)])]),
   ("divwo.", [(0x7C0007D7, some [(21, 5, .greg), (16, 5, .greg), (11, 5, .greg)])]),
   ("divwu", [(0x7C000396, some [(21, 5, .greg), (16, 5, .greg), (11, 5, .greg)])]),
   ("divwu.", [(0x7C000397, some [(21, 5, .greg), (16, 5, .greg), (11, 5, .greg)])]),
   ("divwuo", [(0x7C000796, some [(21, 5, .greg), (16, 5, .greg), (11, 5, .greg)])]),
   ("divwuo.", [(0x7C000797, some [(21, 5, .greg), (16, 5, .greg), (11, 5, .greg)])]),
   ("eqv", [(0x7C000238, some [(16, 5, .greg), (21, 5, .greg), (11, 5, .greg)])]),
   ("eqv.", [(0x7C000239, some [(16, 5, .greg), (21, 5, .greg), (11, 5, .greg)])]),
   ("extsb", [(0x7C000774, some [(16, 5, .greg), (21, 5, .greg)])]), ("extsb.", [(0x7C000775, some [(16, 5, .greg), (21, 5, .greg)])]),
   ("extsh", [(0x7C000734, some [(16, 5, .greg), (21, 5, .greg)])]), ("extsh.", [(0x7C000735, some [(16, 5, .greg), (21, 5, .greg)])]),
   ("fadd", [(0xFC00002A, some [(21, 5, .freg), (16, 5, .freg), (11, 5, .freg)])]),
   ("fadd.", [(0xFC00002B, some [(21, 5, .freg), (16, 5, .freg), (11, 5, .freg)])]),
   ("fadds", [(0xEC00002A, some [(21, 5, .freg), (16, 5, .freg), (11, 5, .freg)])]),
   ("fadds.", [(0xEC00002B, some [(21, 5, .freg), (16, 5, .freg), (11, 5, .freg)])]),
   ("fsub", [(0xFC000028, some [(21, 5, .freg), (16, 5, .freg), (11, 5, .freg)])]),
   ("fsub.", [(0xFC000029, some [(21, 5, .freg), (16, 5, .freg), (11, 5, .freg)])])]

def ppcRows4 : List (String × List PpcRow) :=
  [("fsubs", [(0xEC000028, some [(21, 5, .freg), (16, 5, .freg), (11, 5, .freg)])]),
   ("fsubs.", [(0xEC000029, some [(21, 5, .freg), (16, 5, .freg), (11, 5, .freg)])]),
   ("fmul", [(0xFC000032, some [(21, 5, .freg), (16, 5, .freg), (6, 5, .freg)])]),
   ("fmul.", [(0xFC000033, some [(21, 5, .freg), (16, 5, .freg), (6, 5, .freg)])]),
   ("fmuls", [(0xEC000032, some [(21, 5, .freg), (16, 5, .freg), (6, 5, .freg)])]),
   ("fmuls.", [(0xEC000033, some [(21, 5, .freg), (16, 5, .freg), (6, 5, .freg)])]),
   ("fdiv", [(0xFC000024, some [(21, 5, .freg), (16, 5, .freg), (11, 5, .freg)])]),
   ("fdiv.", [(0xFC000025, some [(21, 5, .freg), (16, 5, .freg), (11, 5, .freg)])]),
   ("fdivs", [(0xEC000024, some [(21, 5, .freg), (16, 5, .freg), (11, 5, .freg)])]),
   ("fdivs.", [(0xEC000025, some [(21, 5, .freg), (16, 5, .freg), (11, 5, .freg)])]),
   ("fmadd", [(0xFC00003A, some [(21, 5, .freg), (16, 5, .freg), (6, 5, .freg), (11, 5, .freg)])]),
   ("fmadd.", [(0xFC00003B, some [(21, 5, .freg), (16, 5, .freg), (6, 5, .freg), (11, 5, .freg)])]),
   ("fmadds", [(0xEC00003A, some [(21, 5, .freg), (16, 5, .freg), (6, 5, .freg), (11, 5, .freg)])]),
   ("fmadds.", [(0xEC00003B, some [(21, 5, .freg), (16, 5, .freg), (6, 5, .freg), (11, 5, .freg)])]),
   ("fmsub", [(0xFC000038, some [(21, 5, .freg), (16, 5, .freg), (6, 5, .freg), (11, 5, .freg)])]),
   ("fmsub.", [(0xFC000039, some [(21, 5, .freg), (16, 5, .freg), (6, 5, .freg), (11, 5, .freg)])]),
   ("fmsubs", [(0xEC000038, some [(21, 5, .freg), (16, 5, .freg), (6, 5, .freg), (11, 5, .freg)])]),
   ("fmsubs.", [(0xEC000039, some [(21, 5, .freg), (16, 5, .freg), (6, 5, .freg), (11, 5, .freg)])]),
   ("fnmadd", [(0xFC00003E, some [(21, 5, .freg), (16, 5, .freg), (6, 5, .freg), (11, 5, .freg)])]),
   ("fnmadd.", [(0xFC00003F, some [(21, 5, .freg), (16, 5, .freg), (6, 5, .freg), (11, 5, .freg)])]),
   ("fnmadds", [(0xEC00003E, some [(21, 5, .freg), (16, 5, .freg), (6, 5, .freg), (11, 5, .freg)])]),
   ("fnmadds.", [(0xEC00003F, some [(21, 5, .freg), (16, 5, .freg), (6, 5, .freg), (11, 5, .freg)])]),
   ("fnmsub", [(0xFC00003C, some [(21, 5, .freg), (16, 5, .freg), (6, 5, .freg), (11, 5, .freg)])]),
   ("fnmsub.", [(0xFC00003D, some [(21, 5, .freg), (16, 5, .freg), (6, 5, .freg), (11, 5, .freg)])]),
   ("fnmsubs", [(0xEC00003C, some [(21, 5, .freg), (16, 5, .freg), (6, 5, .freg), (11, 5, .freg)])]),
   ("fnmsubs.", [(0xEC00003D, some [(21, 5, .freg), (16, 5, .freg), (6, 5, .freg), (11, 5, .freg)])]),
   ("fmr", [(0xFC000090, some [(21, 5, .freg), (11, 5, .freg)])]), ("fmr.", [(0xFC000091, some [(21, 5, .freg), (11, 5, .freg)])]),
   ("fabs", [(0xFC000210, some [(21, 5, .freg), (11, 5, .freg)])]), ("fabs.", [(0xFC000211, some [(21, 5, .freg), (11, 5, .freg)])]),
   ("fneg", [(0xFC000050, some [(21, 5, .freg), (11, 5, .freg)])]), ("fneg.", [(0xFC000051, some [(21, 5, .freg), (11, 5, .freg)])]),
   ("fnabs", [(0xFC000110, some [(21, 5, .freg), (11, 5, .freg)])]), ("fnabs.", [(0xFC000111, some [(21, 5, .freg), (11, 5, .freg)])]),
   ("fres", [(0xEC000030, some [(21, 5, .freg), (11, 5, .freg)])]), ("fres.", [(0xEC000031, some [(21, 5, .freg), (11, 5, .freg)])]),
   ("frsp", [(0xFC000018, some [(21, 5, .freg), (11, 5, .freg)])]), ("frsp.", [(0xFC000019, some [(21, 5, .freg), (11, 5, .freg)])]),
   ("frsqrte", [(0xFC000034, some [(21, 5, .freg), (11, 5, .freg)])]), ("frsqrte.", [(0xFC000035, some [(21, 5, .freg), (11, 5, .freg)])]),
   ("fsel", [(0xFC00002E, some [(21, 5, .freg), (16, 5, .freg), (6, 5, .freg), (11, 5, .freg)])]),
   ("fsel.", [(0xFC00002F, some [(21, 5, .freg), (16, 5, .freg), (6, 5, .freg), (11, 5, .freg)])]),
   ("fsqrt", [(0xFC00002C, some [(21, 5, .freg), (11, 5, .freg)])]), ("fsqrt.", [(0xFC00002D, some [(21, 5, .freg), (11, 5, .freg)])]),
   ("fsqrts", [(0xEC00002C, some [(21, 5, .freg), (11, 5, .freg)])]), ("fsqrts.", [(0xEC00002D, some [(21, 5, .freg), (11, 5, .freg)])]),
   ("fctiw", [(0xFC00001C, some [(21, 5, .freg), (11, 5, .freg)])]), ("fctiw.", [(0xFC00001D, some [(21, 5, .freg), (11, 5, .freg)])]),
   ("fctiwz", [(0xFC00001E, some [(21, 5, .freg), (11, 5, .freg)])]), ("fctiwz.", [(0xFC00001F, some [(21, 5, .freg), (11, 5, .freg)])]),
   ("fcmpu", [(0xFC000000, some [(21, 5, .unset), (16, 5, .freg), (11, 5, .freg)]), (0xFC000000, some [(23, 3, .num), (16, 5, .freg), (11, 5, .freg)])]),
   ("fcmpo", [(0xFC000040, some [(21, 5, .unset), (16, 5, .freg), (11, 5, .freg)]), (0xFC000040, some [(23, 3, .num), (16, 5, .freg), (11, 5, .freg)])]),
   ("mffs", [(0xFC00048E, some [(21, 5, .freg)])]), ("mffs.", [(0xFC00048F, some [(21, 5, .freg)])]),
   ("mcrfs", [(0xFC000080, some [(21, 5, .unset), (18, 5, .num)]), (0xFC000080, some [(23, 3, .num), (18, 5, .num)])]),
   ("mtfsfi", [(0xFC00010C, some [(23, 3, .num), (12, 4, .num)])]), ("mtfsfi.", [(0xFC00010D, some [(23, 3, .num), (12, 4, .num)])]),
   ("mtfsf", [(0xFC00058E, some [(17, 8, .num), (11, 5, .freg)])]), ("mtfsf.", [(0xFC00058F, some [(17, 8, .num), (11, 5, .freg)])]),
   ("mtfsb0", [(0xFC00008C, some [(21, 5, .num)])])]

def ppcRows5 : List (String × List PpcRow) :=
  [("mtfsb0.", [(0xFC00008D, some [(21, 5, .num)])]), ("mtfsb1", [(0xFC00004C, some [(21, 5, .num)])]),
   ("mtfsb1.", [(0xFC00004D, some [(21, 5, .num)])]), ("lbz", [(0x88000000, some [(21, 5, .greg), (0, 16, .unset), (16, 5, .g0reg)])]),
   ("lbzx", [(0x7C0000AE, some [(21, 5, .greg), (16, 5, .g0reg), (11, 5, .greg)])]),
   ("lbzu", [(0x8C000000, some [(21, 5, .greg), (0, 16, .unset), (16, 5, .g0reg)])]),
   ("lbzux", [(0x7C0000EE, some [(21, 5, .greg), (16, 5, .greg), (11, 5, .greg)])]),
   ("lhz", [(0xA0000000, some [(21, 5, .greg), (0, 16, .unset), (16, 5, .g0reg)])]),
   ("lhzx", [(0x7C00022E, some [(21, 5, .greg), (16, 5, .g0reg), (11, 5, .greg)])]),
   ("lhzu", [(0xA4000000, some [(21, 5, .greg), (0, 16, .unset), (16, 5, .g0reg)])]),
   ("lhzux", [(0x7C00026E, some [(21, 5, .greg), (16, 5, .greg), (11, 5, .greg)])]),
   ("lha", [(0xA8000000, some [(21, 5, .greg), (0, 16, .unset), (16, 5, .g0reg)])]),
   ("lhax", [(0x7C0002AE, some [(21, 5, .greg), (16, 5, .g0reg), (11, 5, .greg)])]),
   ("lhau", [(0xAC000000, some [(21, 5, .greg), (0, 16, .unset), (16, 5, .greg)])]),
   ("lhaux", [(0x7C0002EE, some [(21, 5, .greg), (16, 5, .greg), (11, 5, .greg)])]),
   ("lwz", [(0x80000000, some [(21, 5, .greg), (0, 16, .unset), (16, 5, .g0reg)])]),
   ("lwzx", [(0x7C00002E, some [(21, 5, .greg), (16, 5, .g0reg), (11, 5, .greg)])]),
   ("lwzu", [(0x84000000, some [(21, 5, .greg), (0, 16, .unset), (16, 5, .greg)])]),
   ("lwzux", [(0x7C00006E, some [(21, 5, .greg), (16, 5, .greg), (11, 5, .greg)])]),
   ("lmw", [(0xB8000000, some [(21, 5, .greg), (0, 16, .unset), (16, 5, .g0reg)])]),
   ("stmw", [(0xBC000000, some [(21, 5, .greg), (0, 16, .unset), (16, 5, .g0reg)])]),
   ("lhbrx", [(0x7C00062C, some [(21, 5, .greg), (16, 5, .g0reg), (11, 5, .greg)])]),
   ("lwbrx", [(0x7C00042C, some [(21, 5, .greg), (16, 5, .g0reg), (11, 5, .greg)])]),
   ("lswx", [(0x7C00042A, some [(21, 5, .greg), (16, 5, .g0reg), (11, 5, .greg)])]),
   ("lwarx", [(0x7C000028, some [(21, 5, .greg), (16, 5, .g0reg), (11, 5, .greg)])]),
   ("lscbx", [(0x7C00022A, some [(21, 5, .greg), (16, 5, .g0reg), (11, 5, .greg)])]),
   ("lscbx.", [(0x7C00022B, some [(21, 5, .greg), (16, 5, .g0reg), (11, 5, .greg)])]),
   ("lswi", [(0x7C0004AA, some [(21, 5, .greg), (16, 5, .g0reg), (11, 5, .num0)])]),
   ("lfs", [(0xC0000000, some [(21, 5, .freg), (0, 16, .unset), (16, 5, .g0reg)])]),
   ("lfsu", [(0xC4000000, some [(21, 5, .freg), (0, 16, .unset), (16, 5, .greg)])]),
   ("lfsx", [(0x7C00042E, some [(21, 5, .freg), (16, 5, .g0reg), (11, 5, .greg)])]),
   ("lfsux", [(0x7C00046E, some [(21, 5, .freg), (16, 5, .greg), (11, 5, .greg)])]),
   ("lfd", [(0xC8000000, some [(21, 5, .freg), (0, 16, .unset), (16, 5, .g0reg)])]),
   ("lfdu", [(0xCC000000, some [(21, 5, .freg), (0, 16, .unset), (16, 5, .greg)])]),
   ("lfdx", [(0x7C0004AE, some [(21, 5, .freg), (16, 5, .g0reg), (11, 5, .greg)])]),
   ("lfdux", [(0x7C0004EE, some [(21, 5, .freg), (16, 5, .greg), (11, 5, .greg)])]),
   ("la", [(0x38000000, some [(21, 5, .greg), (0, 16, .unset), (16, 5, .g0reg)])]),
   ("mcrf", [(0x4C000000, some [(21, 5, .unset), (16, 5, .unset)]), (0x4C000000, some [(23, 3, .num), (18, 3, .num)])]),
   ("mfspr", [(0x7C0002A6, some [(21, 5, .greg), (11, 10, .unset)])]), ("mtspr", [(0x7C0003A6, some [(11, 10, .unset), (21, 5, .greg)])]),
   ("mtcrf", [(0x7C000120, some [(12, 8, .unset), (21, 5, .greg)])]), ("mtocrf", [(0x7C000120, some [(12, 8, .unset), (21, 5, .greg)])]),
   ("mcrxr", [(0x7C000400, some [(21, 5, .unset)]), (0x7C000400, some [(23, 3, .num)])]),
   ("mfcr", [(0x7C000026, some [(21, 5, .greg)]), (0x7C100026, some [(21, 5, .greg), (12, 8, .unset)])]),
   ("mfocrf", [(0x7C100026, some [(21, 5, .greg), (12, 8, .unset)])]), ("mfxer", [(0x7C0102A6, some [(21, 5, .greg)])]),
   ("mflr", [(0x7C0802A6, some [(21, 5, .greg)])]), ("mfctr", [(0x7C0902A6, some [(21, 5, .greg)])]),
   ("mtxer", [(0x7C0103A6, some [(21, 5, .greg)])]), ("mtlr", [(0x7C0803A6, some [(21, 5, .greg)])]),
   ("mtctr", [(0x7C0903A6, some [(21, 5, .greg)])]), ("mfmq", [(0x7C0002A6, some [(21, 5, .greg)])]),
   ("mfrtcl", [(0x7C0502A6, some [(21, 5, .greg)])]), ("mfrtcu", [(0x7C0402A6, some [(21, 5, .greg)])]),
   ("mtmq", [(0x7C0003A6, some [(21, 5, .greg)])]), ("mtrtcl", [(0x7C1503A6, some [(21, 5, .greg)])]),
   ("mtrtcu", [(0x7C1403A6, some [(21, 5, .greg)])]), ("mull", [(0x7C0001D6, some [(21, 5, .greg), (16, 5, .greg), (11, 5, .greg)])]),
   ("mull.", [(0x7C0001D7, some [(21, 5, .greg), (16, 5, .greg), (11, 5, .greg)])]),
   ("mullo", [(0x7C0005D6, some [(21, 5, .greg), (16, 5, .greg), (11, 5, .greg)])])]

def ppcRows6 : List (String × List PpcRow) :=
  [("mullo.", [(0x7C0005D7, some [(21, 5, .greg), (16, 5, .greg), (11, 5, .greg)])]),
   ("mullw", [(0x7C0001D6, some [(21, 5, .greg), (16, 5, .greg), (11, 5, .greg)])]),
   ("mullw.", [(0x7C0001D7, some [(21, 5, .greg), (16, 5, .greg), (11, 5, .greg)])]),
   ("mullwo", [(0x7C0005D6, some [(21, 5, .greg), (16, 5, .greg), (11, 5, .greg)])]),
   ("mullwo.", [(0x7C0005D7, some [(21, 5, .greg), (16, 5, .greg), (11, 5, .greg)])]),
   ("mulwd", [(0x7C000096, some [(21, 5, .greg), (16, 5, .greg), (11, 5, .greg)])]),
   ("mulwd.", [(0x7C000097, some [(21, 5, .greg), (16, 5, .greg), (11, 5, .greg)])]),
   ("mulhw", [(0x7C000096, some [(21, 5, .greg), (16, 5, .greg), (11, 5, .greg)])]),
   ("mulhw.", [(0x7C000097, some [(21, 5, .greg), (16, 5, .greg), (11, 5, .greg)])]),
   ("mulhwu", [(0x7C000016, some [(21, 5, .greg), (16, 5, .greg), (11, 5, .greg)])]),
   ("mulhwu.", [(0x7C000017, some [(21, 5, .greg), (16, 5, .greg), (11, 5, .greg)])]),
   ("nand", [(0x7C0003B8, some [(16, 5, .greg), (21, 5, .greg), (11, 5, .greg)])]),
   ("nand.", [(0x7C0003B9, some [(16, 5, .greg), (21, 5, .greg), (11, 5, .greg)])]),
   ("neg", [(0x7C0000D0, some [(21, 5, .greg), (16, 5, .greg)])]), ("neg.", [(0x7C0000D1, some [(21, 5, .greg), (16, 5, .greg)])]),
   ("nego", [(0x7C0004D0, some [(21, 5, .greg), (16, 5, .greg)])]), ("nego.", [(0x7C0004D1, some [(21, 5, .greg), (16, 5, .greg)])]),
   ("nor", [(0x7C0000F8, some [(16, 5, .greg), (21, 5, .greg), (11, 5, .greg)])]),
   ("nor.", [(0x7C0000F9, some [(16, 5, .greg), (21, 5, .greg), (11, 5, .greg)])]), ("nop", [(0x60000000, none)]),
   ("ori", [(0x60000000, some [(16, 5, .greg), (21, 5, .greg), (0, 16, .ui)]), (0x60000000, some [(16, 5, .unset), (21, 5, .unset), (0, 16, .unset)])]),
   ("oris", [(0x64000000, some [(16, 5, .greg), (21, 5, .greg), (0, 16, .ui)])]),
   ("or", [(0x7C000378, some [(16, 5, .greg), (21, 5, .greg), (11, 5, .greg)])]),
   ("or.", [(0x7C000379, some [(16, 5, .greg), (21, 5, .greg), (11, 5, .greg)])]),
   ("orc", [(0x7C000338, some [(16, 5, .greg), (21, 5, .greg), (11, 5, .greg)])]),
   ("orc.", [(0x7C000339, some [(16, 5, .greg), (21, 5, .greg), (11, 5, .greg)])]),
   ("rlwinm", [(0x54000000, some [(16, 5, .greg), (21, 5, .greg), (11, 5, .num0), (6, 5, .unset), (1, 5, .unset)])]),
   ("rlwinm.", [(0x54000001, some [(16, 5, .greg), (21, 5, .greg), (11, 5, .num0), (6, 5, .unset), (1, 5, .unset)])]),
   ("rlwnm", [(0x5C000000, some [(16, 5, .greg), (21, 5, .greg), (11, 5, .greg), (6, 5, .unset), (1, 5, .unset)])]),
   ("rlwnm.", [(0x5C000001, some [(16, 5, .greg), (21, 5, .greg), (11, 5, .greg), (6, 5, .unset), (1, 5, .unset)])]),
   ("rlwimi", [(0x50000000, some [(16, 5, .greg), (21, 5, .greg), (11, 5, .num0), (6, 5, .unset), (1, 5, .unset)])]),
   ("rlwimi.", [(0x50000001, some [(16, 5, .greg), (21, 5, .greg), (11, 5, .num0), (6, 5, .unset), (1, 5, .unset)])]),
   ("sc", [(0x44000002, none)]), ("slw", [(0x7C000030, some [(16, 5, .greg), (21, 5, .greg), (11, 5, .greg)])]),
   ("slw.", [(0x7C000031, some [(16, 5, .greg), (21, 5, .greg), (11, 5, .greg)])]),
   ("srw", [(0x7C000430, some [(16, 5, .greg), (21, 5, .greg), (11, 5, .greg)])]),
   ("srw.", [(0x7C000431, some [(16, 5, .greg), (21, 5, .greg), (11, 5, .greg)])]),
   ("srawi", [(0x7C000670, some [(16, 5, .greg), (21, 5, .greg), (11, 5, .num)])]),
   ("srawi.", [(0x7C000671, some [(16, 5, .greg), (21, 5, .greg), (11, 5, .num)])]),
   ("sraw", [(0x7C000630, some [(16, 5, .greg), (21, 5, .greg), (11, 5, .greg)])]),
   ("sraw.", [(0x7C000631, some [(16, 5, .greg), (21, 5, .greg), (11, 5, .greg)])]),
   ("stb", [(0x98000000, some [(21, 5, .greg), (0, 16, .unset), (16, 5, .g0reg)])]),
   ("stbu", [(0x9C000000, some [(21, 5, .greg), (0, 16, .unset), (16, 5, .greg)])]),
   ("stbx", [(0x7C0001AE, some [(21, 5, .greg), (16, 5, .g0reg), (11, 5, .greg)])]),
   ("stbux", [(0x7C0001EE, some [(21, 5, .greg), (16, 5, .greg), (11, 5, .greg)])]),
   ("sth", [(0xB0000000, some [(21, 5, .greg), (0, 16, .unset), (16, 5, .g0reg)])]),
   ("sthu", [(0xB4000000, some [(21, 5, .greg), (0, 16, .unset), (16, 5, .greg)])]),
   ("sthx", [(0x7C00032E, some [(21, 5, .greg), (16, 5, .g0reg), (11, 5, .greg)])]),
   ("sthux", [(0x7C00036E, some [(21, 5, .greg), (16, 5, .greg), (11, 5, .greg)])]),
   ("stw", [(0x90000000, some [(21, 5, .greg), (0, 16, .unset), (16, 5, .g0reg)])]),
   ("stwu", [(0x94000000, some [(21, 5, .greg), (0, 16, .unset), (16, 5, .greg)])]),
   ("stwx", [(0x7C00012E, some [(21, 5, .greg), (16, 5, .g0reg), (11, 5, .greg)])]),
   ("stwux", [(0x7C00016E, some [(21, 5, .greg), (16, 5, .greg), (11, 5, .greg)])]),
   ("sthbrx", [(0x7C00072C, some [(21, 5, .greg), (16, 5, .g0reg), (11, 5, .greg)])]),
   ("stwbrx", [(0x7C00052C, some [(21, 5, .greg), (16, 5, .g0reg), (11, 5, .greg)])]),
   ("stswx", [(0x7C00052A, some [(21, 5, .greg), (16, 5, .g0reg), (11, 5, .greg)])]),
   ("stwcx.", [(0x7C00012D, some [(21, 5, .greg), (16, 5, .g0reg), (11, 5, .greg)])]),
   ("stswi", [(0x7C0005AA, some [(21, 5, .greg), (16, 5, .g0reg), (11, 5, .num0)])]),
   ("stfiwx", [(0x7C0007AE, some [(21, 5, .freg), (16, 5, .g0reg), (11, 5, .greg)])]),
   ("stfs", [(0xD0000000, some [(21, 5, .freg), (0, 16, .unset), (16, 5, .g0reg)])])]

def ppcRows7 : List (String × List PpcRow) :=
  [("stfsu", [(0xD4000000, some [(21, 5, .freg), (0, 16, .unset), (16, 5, .greg)])]),
   ("stfsx", [(0x7C00052E, some [(21, 5, .freg), (16, 5, .g0reg), (11, 5, .greg)])]),
   ("stfsux", [(0x7C00056E, some [(21, 5, .freg), (16, 5, .greg), (11, 5, .greg)])]),
   ("stfd", [(0xD8000000, some [(21, 5, .freg), (0, 16, .unset), (16, 5, .g0reg)])]),
   ("stfdu", [(0xDC000000, some [(21, 5, .freg), (0, 16, .unset), (16, 5, .greg)])]),
   ("stfdx", [(0x7C0005AE, some [(21, 5, .freg), (16, 5, .g0reg), (11, 5, .greg)])]),
   ("stfdux", [(0x7C0005EE, some [(21, 5, .freg), (16, 5, .greg), (11, 5, .greg)])]),
   ("subfic", [(0x20000000, some [(21, 5, .greg), (16, 5, .greg), (0, 16, .si)])]),
   ("sub", [(0x7C000050, some [(21, 5, .greg), (11, 5, .greg), (16, 5, .greg)])]),
   ("sub.", [(0x7C000051, some [(21, 5, .greg), (11, 5, .greg), (16, 5, .greg)])]),
   ("subo", [(0x7C000450, some [(21, 5, .greg), (11, 5, .greg), (16, 5, .greg)])]),
   ("subo.", [(0x7C000451, some [(21, 5, .greg), (11, 5, .greg), (16, 5, .greg)])]),
   ("subf", [(0x7C000050, some [(21, 5, .greg), (16, 5, .greg), (11, 5, .greg)])]),
   ("subf.", [(0x7C000051, some [(21, 5, .greg), (16, 5, .greg), (11, 5, .greg)])]),
   ("subfo", [(0x7C000450, some [(21, 5, .greg), (16, 5, .greg), (11, 5, .greg)])]),
   ("subfo.", [(0x7C000451, some [(21, 5, .greg), (16, 5, .greg), (11, 5, .greg)])]),
   ("subc", [(0x7C000010, some [(21, 5, .greg), (11, 5, .greg), (16, 5, .greg)])]),
   ("subc.", [(0x7C000011, some [(21, 5, .greg), (11, 5, .greg), (16, 5, .greg)])]),
   ("subco", [(0x7C000410, some [(21, 5, .greg), (11, 5, .greg), (16, 5, .greg)])]),
   ("subco.", [(0x7C000411, some [(21, 5, .greg), (11, 5, .greg), (16, 5, .greg)])]),
   ("subfc", [(0x7C000010, some [(21, 5, .greg), (16, 5, .greg), (11, 5, .greg)])]),
   ("subfc.", [(0x7C000011, some [(21, 5, .greg), (16, 5, .greg), (11, 5, .greg)])]),
   ("subfco", [(0x7C000410, some [(21, 5, .greg), (16, 5, .greg), (11, 5, .greg)])]),
   ("subfco.", [(0x7C000411, some [(21, 5, .greg), (16, 5, .greg), (11, 5, .greg)])]),
   ("subfe", [(0x7C000110, some [(21, 5, .greg), (16, 5, .greg), (11, 5, .greg)])]),
   ("subfe.", [(0x7C000111, some [(21, 5, .greg), (16, 5, .greg), (11, 5, .greg)])]),
   ("subfeo", [(0x7C000510, some [(21, 5, .greg), (16, 5, .greg), (11, 5, .greg)])]),
   ("subfeo.", [(0x7C000511, some [(21, 5, .greg), (16, 5, .greg), (11, 5, .greg)])]),
   ("subfme", [(0x7C0001D0, some [(21, 5, .greg), (16, 5, .greg)])]), ("subfme.", [(0x7C0001D1, some [(21, 5, .greg), (16, 5, .greg)])]),
   ("subfmeo", [(0x7C0005D0, some [(21, 5, .greg), (16, 5, .greg)])]), ("subfmeo.", [(0x7C0005D1, some [(21, 5, .greg), (16, 5, .greg)])]),
   ("subfze", [(0x7C000190, some [(21, 5, .greg), (16, 5, .greg)])]), ("subfze.", [(0x7C000191, some [(21, 5, .greg), (16, 5, .greg)])]),
   ("subfzeo", [(0x7C000590, some [(21, 5, .greg), (16, 5, .greg)])]), ("subfzeo.", [(0x7C000591, some [(21, 5, .greg), (16, 5, .greg)])]),
   ("sync", [(0x7C0004AC, none), (0x7C0004AC, some [(21, 2, .num)])]), ("lwsync", [(0x7C2004AC, none)]), ("ptesync", [(0x7C4004AC, none)]),
   ("twi", [(0x0C000000, some [(21, 5, .num), (16, 5, .greg), (0, 16, .si)])]), ("twlti", [(0x0E000000, some [(16, 5, .greg), (0, 16, .si)])]),
   ("twlei", [(0x0E800000, some [(16, 5, .greg), (0, 16, .si)])]), ("tweqi", [(0x0C800000, some [(16, 5, .greg), (0, 16, .si)])]),
   ("twgei", [(0x0D800000, some [(16, 5, .greg), (0, 16, .si)])]), ("twgti", [(0x0D000000, some [(16, 5, .greg), (0, 16, .si)])]),
   ("twnli", [(0x0D800000, some [(16, 5, .greg), (0, 16, .si)])]), ("twnei", [(0x0F000000, some [(16, 5, .greg), (0, 16, .si)])]),
   ("twngi", [(0x0E800000, some [(16, 5, .greg), (0, 16, .si)])]), ("twllti", [(0x0C400000, some [(16, 5, .greg), (0, 16, .si)])]),
   ("twllei", [(0x0CC00000, some [(16, 5, .greg), (0, 16, .si)])]), ("twlgei", [(0x0CA00000, some [(16, 5, .greg), (0, 16, .si)])]),
   ("twlgti", [(0x0C200000, some [(16, 5, .greg), (0, 16, .si)])]), ("twlnli", [(0x0CA00000, some [(16, 5, .greg), (0, 16, .si)])]),
   ("twlngi", [(0x0CC00000, some [(16, 5, .greg), (0, 16, .si)])]),
   ("tw", [(0x7C000008, some [(21, 5, .num), (16, 5, .greg), (11, 5, .greg)]), (0x7C000008, some [(21, 5, .num), (16, 5, .unset), (11, 5, .unset)])]),
   ("twlt", [(0x7E000008, some [(16, 5, .greg), (11, 5, .greg)])]), ("twle", [(0x7E800008, some [(16, 5, .greg), (11, 5, .greg)])]),
   ("tweq", [(0x7C800008, some [(16, 5, .greg), (11, 5, .greg)])]), ("twge", [(0x7D800008, some [(16, 5, .greg), (11, 5, .greg)])]),
   ("twgt", [(0x7D000008, some [(16, 5, .greg), (11, 5, .greg)])])]

def ppcRows8 : List (String × List PpcRow) :=
  [("twnl", [(0x7D800008, some [(16, 5, .greg), (11, 5, .greg)])]), ("twne", [(0x7F000008, some [(16, 5, .greg), (11, 5, .greg)])]),
   ("twng", [(0x7E800008, some [(16, 5, .greg), (11, 5, .greg)])]), ("twllt", [(0x7C400008, some [(16, 5, .greg), (11, 5, .greg)])]),
   ("twlle", [(0x7CC00008, some [(16, 5, .greg), (11, 5, .greg)])]), ("twlge", [(0x7CA00008, some [(16, 5, .greg), (11, 5, .greg)])]),
   ("twlgt", [(0x7C200008, some [(16, 5, .greg), (11, 5, .greg)])]), ("twlnl", [(0x7CA00008, some [(16, 5, .greg), (11, 5, .greg)])]),
   ("twlng", [(0x7CC00008, some [(16, 5, .greg), (11, 5, .greg)])]), ("trap", [(0x7FE00008, none)]),
   ("xori", [(0x68000000, some [(16, 5, .greg), (21, 5, .greg), (0, 16, .ui)])]),
   ("xoris", [(0x6C000000, some [(16, 5, .greg), (21, 5, .greg), (0, 16, .ui)])]),
   ("xor", [(0x7C000278, some [(16, 5, .greg), (21, 5, .greg), (11, 5, .greg)])]),
   ("xor.", [(0x7C000279, some [(16, 5, .greg), (21, 5, .greg), (11, 5, .greg)])]),
   ("icbi", [(0x7C0007AC, some [(16, 5, .g0reg), (11, 5, .greg)])]), ("isync", [(0x4C00012C, none)]),
   ("dcbt", [(0x7C00022C, some [(16, 5, .g0reg), (11, 5, .greg)]), (0x7C00022C, some [(16, 5, .g0reg), (11, 5, .greg), (21, 4, .num)])]),
   ("dcbtst", [(0x7C0001EC, some [(16, 5, .g0reg), (11, 5, .greg)])]), ("dcbz", [(0x7C0007EC, some [(16, 5, .g0reg), (11, 5, .greg)])]),
   ("dcbzl", [(0x7C2007EC, some [(16, 5, .g0reg), (11, 5, .greg)])]), ("dcbst", [(0x7C00006C, some [(16, 5, .g0reg), (11, 5, .greg)])]),
   ("dcbf", [(0x7C0000AC, some [(16, 5, .g0reg), (11, 5, .greg)])]),
   ("eciwx", [(0x7C00026C, some [(21, 5, .greg), (16, 5, .g0reg), (11, 5, .greg)])]),
   ("ecowx", [(0x7C00036C, some [(21, 5, .greg), (16, 5, .g0reg), (11, 5, .greg)])]), ("eieio", [(0x7C0006AC, none)]),
   ("rfi", [(0x4C000064, none)]), ("mtmsr", [(0x7C000124, some [(21, 5, .greg)])]), ("mfmsr", [(0x7C0000A6, some [(21, 5, .greg)])]),
   ("dcba", [(0x7C0005EC, some [(16, 5, .g0reg), (11, 5, .greg)])]), ("dcbi", [(0x7C0003AC, some [(16, 5, .g0reg), (11, 5, .greg)])]),
   ("mtsr", [(0x7C0001A4, some [(16, 4, .unset), (21, 5, .greg)])]), ("mfsr", [(0x7C0004A6, some [(21, 5, .greg), (16, 4, .unset)])]),
   ("mtsrin", [(0x7C0001E4, some [(21, 5, .greg), (11, 5, .greg)])]), ("mfsrin", [(0x7C000526, some [(21, 5, .greg), (11, 5, .greg)])]),
   ("tlbia", [(0x7C0002E4, none)]), ("tlbsync", [(0x7C00046C, none)]), ("mttbl", [(0x7C1C43A6, some [(21, 5, .greg)])]),
   ("mttbu", [(0x7C1D43A6, some [(21, 5, .greg)])]),
   ("mftb", [(0x7C0002E6, some [(21, 5, .greg), (11, 10, .unset)]), (0x7C0C42E6, some [(21, 5, .greg)])]),
   ("mftbu", [(0x7C0D42E6, some [(21, 5, .greg)])]), ("attn", [(0x00000200, some [(11, 15, .num)])]),
   ("dozi", [(0x24000000, some [(21, 5, .greg), (16, 5, .greg), (0, 16, .si)])]),
   ("doz", [(0x7C000210, some [(21, 5, .greg), (16, 5, .greg), (11, 5, .greg)])]),
   ("doz.", [(0x7C000211, some [(21, 5, .greg), (16, 5, .greg), (11, 5, .greg)])]),
   ("dozo", [(0x7C000610, some [(21, 5, .greg), (16, 5, .greg), (11, 5, .greg)])]),
   ("dozo.", [(0x7C000611, some [(21, 5, .greg), (16, 5, .greg), (11, 5, .greg)])]),
   ("abs", [(0x7C0002D0, some [(21, 5, .greg), (16, 5, .greg)])]), ("abs.", [(0x7C0002D1, some [(21, 5, .greg), (16, 5, .greg)])]),
   ("abso", [(0x7C0006D0, some [(21, 5, .greg), (16, 5, .greg)])]), ("abso.", [(0x7C0006D1, some [(21, 5, .greg), (16, 5, .greg)])]),
   ("nabs", [(0x7C0003D0, some [(21, 5, .greg), (16, 5, .greg)])]), ("nabs.", [(0x7C0003D1, some [(21, 5, .greg), (16, 5, .greg)])]),
   ("nabso", [(0x7C0007D0, some [(21, 5, .greg), (16, 5, .greg)])]), ("nabso.", [(0x7C0007D1, some [(21, 5, .greg), (16, 5, .greg)])]),
   ("mulli", [(0x1C000000, some [(21, 5, .greg), (16, 5, .greg), (0, 16, .si)])]),
   ("mul", [(0x7C0000D6, some [(21, 5, .greg), (16, 5, .greg), (11, 5, .greg)])]),
   ("mul.", [(0x7C0000D7, some [(21, 5, .greg), (16, 5, .greg), (11, 5, .greg)])]),
   ("mulo", [(0x7C0004D6, some [(21, 5, .greg), (16, 5, .greg), (11, 5, .greg)])]),
   ("mulo.", [(0x7C0004D7, some [(21, 5, .greg), (16, 5, .greg), (11, 5, .greg)])]),
   ("div", [(0x7C000296, some [(21, 5, .greg), (16, 5, .greg), (11, 5, .greg)])])]

def ppcRows9 : List (String × List PpcRow) :=
  [("div.", [(0x7C000297, some [(21, 5, .greg), (16, 5, .greg), (11, 5, .greg)])]),
   ("divo", [(0x7C000696, some [(21, 5, .greg), (16, 5, .greg), (11, 5, .greg)])]),
   ("divo.", [(0x7C000697, some [(21, 5, .greg), (16, 5, .greg), (11, 5, .greg)])]),
   ("divs", [(0x7C0002D6, some [(21, 5, .greg), (16, 5, .greg), (11, 5, .greg)])]),
   ("divs.", [(0x7C0002D7, some [(21, 5, .greg), (16, 5, .greg), (11, 5, .greg)])]),
   ("divso", [(0x7C0006D6, some [(21, 5, .greg), (16, 5, .greg), (11, 5, .greg)])]),
   ("divso.", [(0x7C0006D7, some [(21, 5, .greg), (16, 5, .greg), (11, 5, .greg)])]),
   ("rlmi", [(0x58000000, some [(16, 5, .greg), (21, 5, .greg), (11, 5, .greg), (6, 5, .unset), (1, 5, .unset)])]),
   ("rlmi.", [(0x58000001, some [(16, 5, .greg), (21, 5, .greg), (11, 5, .greg), (6, 5, .unset), (1, 5, .unset)])]),
   ("rrib", [(0x7C000432, some [(16, 5, .greg), (21, 5, .greg), (11, 5, .greg)])]),
   ("rrib.", [(0x7C000433, some [(16, 5, .greg), (21, 5, .greg), (11, 5, .greg)])]),
   ("maskg", [(0x7C00003A, some [(16, 5, .greg), (21, 5, .greg), (11, 5, .greg)])]),
   ("maskg.", [(0x7C00003B, some [(16, 5, .greg), (21, 5, .greg), (11, 5, .greg)])]),
   ("maskir", [(0x7C00043A, some [(16, 5, .greg), (21, 5, .greg), (11, 5, .greg)])]),
   ("maskir.", [(0x7C00043B, some [(16, 5, .greg), (21, 5, .greg), (11, 5, .greg)])]),
   ("slq", [(0x7C000130, some [(16, 5, .greg), (21, 5, .greg), (11, 5, .greg)])]),
   ("slq.", [(0x7C000131, some [(16, 5, .greg), (21, 5, .greg), (11, 5, .greg)])]),
   ("srq", [(0x7C000530, some [(16, 5, .greg), (21, 5, .greg), (11, 5, .greg)])]),
   ("srq.", [(0x7C000531, some [(16, 5, .greg), (21, 5, .greg), (11, 5, .greg)])]),
   ("sliq", [(0x7C000170, some [(16, 5, .greg), (21, 5, .greg), (11, 5, .num)])]),
   ("sliq.", [(0x7C000171, some [(16, 5, .greg), (21, 5, .greg), (11, 5, .num)])]),
   ("sriq", [(0x7C000570, some [(16, 5, .greg), (21, 5, .greg), (11, 5, .num)])]),
   ("sriq.", [(0x7C000571, some [(16, 5, .greg), (21, 5, .greg), (11, 5, .num)])]),
   ("slliq", [(0x7C0001F0, some [(16, 5, .greg), (21, 5, .greg), (11, 5, .num)])]),
   ("slliq.", [(0x7C0001F1, some [(16, 5, .greg), (21, 5, .greg), (11, 5, .num)])]),
   ("srliq", [(0x7C0005F0, some [(16, 5, .greg), (21, 5, .greg), (11, 5, .num)])]),
   ("srliq.", [(0x7C0005F1, some [(16, 5, .greg), (21, 5, .greg), (11, 5, .num)])]),
   ("sllq", [(0x7C0001B0, some [(16, 5, .greg), (21, 5, .greg), (11, 5, .greg)])]),
   ("sllq.", [(0x7C0001B1, some [(16, 5, .greg), (21, 5, .greg), (11, 5, .greg)])]),
   ("srlq", [(0x7C0005B0, some [(16, 5, .greg), (21, 5, .greg), (11, 5, .greg)])]),
   ("srlq.", [(0x7C0005B1, some [(16, 5, .greg), (21, 5, .greg), (11, 5, .greg)])]),
   ("sle", [(0x7C000132, some [(16, 5, .greg), (21, 5, .greg), (11, 5, .greg)])]),
   ("sle.", [(0x7C000133, some [(16, 5, .greg), (21, 5, .greg), (11, 5, .greg)])]),
   ("sre", [(0x7C000532, some [(16, 5, .greg), (21, 5, .greg), (11, 5, .greg)])]),
   ("sre.", [(0x7C000533, some [(16, 5, .greg), (21, 5, .greg), (11, 5, .greg)])]),
   ("sleq", [(0x7C0001B2, some [(16, 5, .greg), (21, 5, .greg), (11, 5, .greg)])]),
   ("sleq.", [(0x7C0001B3, some [(16, 5, .greg), (21, 5, .greg), (11, 5, .greg)])]),
   ("sreq", [(0x7C0005B2, some [(16, 5, .greg), (21, 5, .greg), (11, 5, .greg)])]),
   ("sreq.", [(0x7C0005B3, some [(16, 5, .greg), (21, 5, .greg), (11, 5, .greg)])]),
   ("sraiq", [(0x7C000770, some [(16, 5, .greg), (21, 5, .greg), (11, 5, .num)])]),
   ("sraiq.", [(0x7C000771, some [(16, 5, .greg), (21, 5, .greg), (11, 5, .num)])]),
   ("sraq", [(0x7C000730, some [(16, 5, .greg), (21, 5, .greg), (11, 5, .greg)])]),
   ("sraq.", [(0x7C000731, some [(16, 5, .greg), (21, 5, .greg), (11, 5, .greg)])]),
   ("srea", [(0x7C000732, some [(16, 5, .greg), (21, 5, .greg), (11, 5, .greg)])]),
   ("srea.", [(0x7C000733, some [(16, 5, .greg), (21, 5, .greg), (11, 5, .greg)])]),
   ("clcs", [(0x7C000426, some [(21, 5, .greg), (16, 5, .greg)])]), ("tlbld", [(0x7C0007A4, some [(11, 5, .greg)])]),
   ("tlbli", [(0x7C0007E4, some [(11, 5, .greg)])]), ("lvebx", [(0x7C00000E, some [(21, 5, .unset), (16, 5, .g0reg), (11, 5, .greg)])]),
   ("lvehx", [(0x7C00004E, some [(21, 5, .unset), (16, 5, .g0reg), (11, 5, .greg)])]),
   ("lvewx", [(0x7C00008E, some [(21, 5, .unset), (16, 5, .g0reg), (11, 5, .greg)])]),
   ("lvx", [(0x7C0000CE, some [(21, 5, .unset), (16, 5, .g0reg), (11, 5, .greg)])]),
   ("lvxl", [(0x7C0002CE, some [(21, 5, .unset), (16, 5, .g0reg), (11, 5, .greg)])]),
   ("stvebx", [(0x7C00010E, some [(21, 5, .unset), (16, 5, .g0reg), (11, 5, .greg)])]),
   ("stvehx", [(0x7C00014E, some [(21, 5, .unset), (16, 5, .g0reg), (11, 5, .greg)])]),
   ("stvewx", [(0x7C00018E, some [(21, 5, .unset), (16, 5, .g0reg), (11, 5, .greg)])]),
   ("stvx", [(0x7C0001CE, some [(21, 5, .unset), (16, 5, .g0reg), (11, 5, .greg)])]),
   ("stvxl", [(0x7C0003CE, some [(21, 5, .unset), (16, 5, .g0reg), (11, 5, .greg)])]),
   ("lvsl", [(0x7C00000C, some [(21, 5, .unset), (16, 5, .g0reg), (11, 5, .greg)])]),
   ("lvsr", [(0x7C00004C, some [(21, 5, .unset), (16, 5, .g0reg), (11, 5, .greg)])])]

def ppcRows10 : List (String × List PpcRow) :=
  [("mtvscr", [(0x10000644, some [(11, 5, .unset)])]), ("mfvscr", [(0x10000604, some [(21, 5, .unset)])]),
   ("dst", [(0x7C0002AC, some [(16, 5, .greg), (11, 5, .greg), (21, 2, .num)])]),
   ("dstt", [(0x7E0002AC, some [(16, 5, .greg), (11, 5, .greg), (21, 2, .num)])]),
   ("dstst", [(0x7C0002EC, some [(16, 5, .greg), (11, 5, .greg), (21, 2, .num)])]),
   ("dststt", [(0x7E0002EC, some [(16, 5, .greg), (11, 5, .greg), (21, 2, .num)])]), ("dss", [(0x7C00066C, some [(21, 2, .num)])]),
   ("dssall", [(0x7E00066C, none)]), ("vaddubm", [(0x10000000, some [(21, 5, .unset), (16, 5, .unset), (11, 5, .unset)])]),
   ("vaddubs", [(0x10000200, some [(21, 5, .unset), (16, 5, .unset), (11, 5, .unset)])]),
   ("vaddsbs", [(0x10000300, some [(21, 5, .unset), (16, 5, .unset), (11, 5, .unset)])]),
   ("vadduhm", [(0x10000040, some [(21, 5, .unset), (16, 5, .unset), (11, 5, .unset)])]),
   ("vadduhs", [(0x10000240, some [(21, 5, .unset), (16, 5, .unset), (11, 5, .unset)])]),
   ("vaddshs", [(0x10000340, some [(21, 5, .unset), (16, 5, .unset), (11, 5, .unset)])]),
   ("vadduwm", [(0x10000080, some [(21, 5, .unset), (16, 5, .unset), (11, 5, .unset)])]),
   ("vadduws", [(0x10000280, some [(21, 5, .unset), (16, 5, .unset), (11, 5, .unset)])]),
   ("vaddsws", [(0x10000380, some [(21, 5, .unset), (16, 5, .unset), (11, 5, .unset)])]),
   ("vaddfp", [(0x1000000A, some [(21, 5, .unset), (16, 5, .unset), (11, 5, .unset)])]),
   ("vaddcuw", [(0x10000180, some [(21, 5, .unset), (16, 5, .unset), (11, 5, .unset)])]),
   ("vsububm", [(0x10000400, some [(21, 5, .unset), (16, 5, .unset), (11, 5, .unset)])]),
   ("vsububs", [(0x10000600, some [(21, 5, .unset), (16, 5, .unset), (11, 5, .unset)])]),
   ("vsubsbs", [(0x10000700, some [(21, 5, .unset), (16, 5, .unset), (11, 5, .unset)])]),
   ("vsubuhm", [(0x10000440, some [(21, 5, .unset), (16, 5, .unset), (11, 5, .unset)])]),
   ("vsubuhs", [(0x10000640, some [(21, 5, .unset), (16, 5, .unset), (11, 5, .unset)])]),
   ("vsubshs", [(0x10000740, some [(21, 5, .unset), (16, 5, .unset), (11, 5, .unset)])]),
   ("vsubuwm", [(0x10000480, some [(21, 5, .unset), (16, 5, .unset), (11, 5, .unset)])]),
   ("vsubuws", [(0x10000680, some [(21, 5, .unset), (16, 5, .unset), (11, 5, .unset)])]),
   ("vsubsws", [(0x10000780, some [(21, 5, .unset), (16, 5, .unset), (11, 5, .unset)])]),
   ("vsubfp", [(0x1000004A, some [(21, 5, .unset), (16, 5, .unset), (11, 5, .unset)])]),
   ("vsubcuw", [(0x10000580, some [(21, 5, .unset), (16, 5, .unset), (11, 5, .unset)])]),
   ("vmuloub", [(0x10000008, some [(21, 5, .unset), (16, 5, .unset), (11, 5, .unset)])]),
   ("vmulosb", [(0x10000108, some [(21, 5, .unset), (16, 5, .unset), (11, 5, .unset)])]),
   ("vmulouh", [(0x10000048, some [(21, 5, .unset), (16, 5, .unset), (11, 5, .unset)])]),
   ("vmulosh", [(0x10000148, some [(21, 5, .unset), (16, 5, .unset), (11, 5, .unset)])]),
   ("vmuleub", [(0x10000208, some [(21, 5, .unset), (16, 5, .unset), (11, 5, .unset)])]),
   ("vmulesb", [(0x10000308, some [(21, 5, .unset), (16, 5, .unset), (11, 5, .unset)])]),
   ("vmuleuh", [(0x10000248, some [(21, 5, .unset), (16, 5, .unset), (11, 5, .unset)])]),
   ("vmulesh", [(0x10000348, some [(21, 5, .unset), (16, 5, .unset), (11, 5, .unset)])]),
   ("vmhaddshs", [(0x10000020, some [(21, 5, .unset), (16, 5, .unset), (11, 5, .unset), (6, 5, .unset)])]),
   ("vmhraddshs", [(0x10000021, some [(21, 5, .unset), (16, 5, .unset), (11, 5, .unset), (6, 5, .unset)])]),
   ("vmladduhm", [(0x10000022, some [(21, 5, .unset), (16, 5, .unset), (11, 5, .unset), (6, 5, .unset)])]),
   ("vmaddfp", [(0x1000002E, some [(21, 5, .unset), (16, 5, .unset), (6, 5, .unset), (11, 5, .unset)])]),
   ("vmsumubm", [(0x10000024, some [(21, 5, .unset), (16, 5, .unset), (11, 5, .unset), (6, 5, .unset)])]),
   ("vmsummbm", [(0x10000025, some [(21, 5, .unset), (16, 5, .unset), (11, 5, .unset), (6, 5, .unset)])]),
   ("vmsumuhm", [(0x10000026, some [(21, 5, .unset), (16, 5, .unset), (11, 5, .unset), (6, 5, .unset)])]),
   ("vmsumuhs", [(0x10000027, some [(21, 5, .unset), (16, 5, .unset), (11, 5, .unset), (6, 5, .unset)])]),
   ("vmsumshm", [(0x10000028, some [(21, 5, .unset), (16, 5, .unset), (11, 5, .unset), (6, 5, .unset)])]),
   ("vmsumshs", [(0x10000029, some [(21, 5, .unset), (16, 5, .unset), (11, 5, .unset), (6, 5, .unset)])]),
   ("vsumsws", [(0x10000788, some [(21, 5, .unset), (16, 5, .unset), (11, 5, .unset)])]),
   ("vsum2sws", [(0x10000688, some [(21, 5, .unset), (16, 5, .unset), (11, 5, .unset)])]),
   ("vsum4ubs", [(0x10000608, some [(21, 5, .unset), (16, 5, .unset), (11, 5, .unset)])]),
   ("vsum4sbs", [(0x10000708, some [(21, 5, .unset), (16, 5, .unset), (11, 5, .unset)])]),
   ("vsum4shs", [(0x10000648, some [(21, 5, .unset), (16, 5, .unset), (11, 5, .unset)])]),
   ("vavgub", [(0x10000402, some [(21, 5, .unset), (16, 5, .unset), (11, 5, .unset)])]),
   ("vavguh", [(0x10000442, some [(21, 5, .unset), (16, 5, .unset), (11, 5, .unset)])]),
   ("vavguw", [(0x10000482, some [(21, 5, .unset), (16, 5, .unset), (11, 5, .unset)])]),
   ("vavgsb", [(0x10000502, some [(21, 5, .unset), (16, 5, .unset), (11, 5, .unset)])]),
   ("vavgsh", [(0x10000542, some [(21, 5, .unset), (16, 5, .unset), (11, 5, .unset)])]),
   ("vavgsw", [(0x10000582, some [(21, 5, .unset), (16, 5, .unset), (11, 5, .unset)])]),
   ("vand", [(0x10000404, some [(21, 5, .unset), (16, 5, .unset), (11, 5, .unset)])])]

def ppcRows11 : List (String × List PpcRow) :=
  [("vor", [(0x10000484, some [(21, 5, .unset), (16, 5, .unset), (11, 5, .unset)])]),
   ("vxor", [(0x100004C4, some [(21, 5, .unset), (16, 5, .unset), (11, 5, .unset)])]),
   ("vandc", [(0x10000444, some [(21, 5, .unset), (16, 5, .unset), (11, 5, .unset)])]),
   ("vnor", [(0x10000504, some [(21, 5, .unset), (16, 5, .unset), (11, 5, .unset)])]),
   ("vrlb", [(0x10000004, some [(21, 5, .unset), (16, 5, .unset), (11, 5, .unset)])]),
   ("vrlh", [(0x10000044, some [(21, 5, .unset), (16, 5, .unset), (11, 5, .unset)])]),
   ("vrlw", [(0x10000084, some [(21, 5, .unset), (16, 5, .unset), (11, 5, .unset)])]),
   ("vslb", [(0x10000104, some [(21, 5, .unset), (16, 5, .unset), (11, 5, .unset)])]),
   ("vslh", [(0x10000144, some [(21, 5, .unset), (16, 5, .unset), (11, 5, .unset)])]),
   ("vslw", [(0x10000184, some [(21, 5, .unset), (16, 5, .unset), (11, 5, .unset)])]),
   ("vsl", [(0x100001C4, some [(21, 5, .unset), (16, 5, .unset), (11, 5, .unset)])]),
   ("vsrb", [(0x10000204, some [(21, 5, .unset), (16, 5, .unset), (11, 5, .unset)])]),
   ("vsrab", [(0x10000304, some [(21, 5, .unset), (16, 5, .unset), (11, 5, .unset)])]),
   ("vsrh", [(0x10000244, some [(21, 5, .unset), (16, 5, .unset), (11, 5, .unset)])]),
   ("vsrah", [(0x10000344, some [(21, 5, .unset), (16, 5, .unset), (11, 5, .unset)])]),
   ("vsrw", [(0x10000284, some [(21, 5, .unset), (16, 5, .unset), (11, 5, .unset)])]),
   ("vsraw", [(0x10000384, some [(21, 5, .unset), (16, 5, .unset), (11, 5, .unset)])]),
   ("vsr", [(0x100002C4, some [(21, 5, .unset), (16, 5, .unset), (11, 5, .unset)])]),
   ("vcmpgtub", [(0x10000206, some [(21, 5, .unset), (16, 5, .unset), (11, 5, .unset)])]),
   ("vcmpgtub.", [(0x10000606, some [(21, 5, .unset), (16, 5, .unset), (11, 5, .unset)])]),
   ("vcmpgtsb", [(0x10000306, some [(21, 5, .unset), (16, 5, .unset), (11, 5, .unset)])]),
   ("vcmpgtsb.", [(0x10000706, some [(21, 5, .unset), (16, 5, .unset), (11, 5, .unset)])]),
   ("vcmpgtuh", [(0x10000246, some [(21, 5, .unset), (16, 5, .unset), (11, 5, .unset)])]),
   ("vcmpgtuh.", [(0x10000646, some [(21, 5, .unset), (16, 5, .unset), (11, 5, .unset)])]),
   ("vcmpgtsh", [(0x10000346, some [(21, 5, .unset), (16, 5, .unset), (11, 5, .unset)])]),
   ("vcmpgtsh.", [(0x10000746, some [(21, 5, .unset), (16, 5, .unset), (11, 5, .unset)])]),
   ("vcmpgtuw", [(0x10000286, some [(21, 5, .unset), (16, 5, .unset), (11, 5, .unset)])]),
   ("vcmpgtuw.", [(0x10000686, some [(21, 5, .unset), (16, 5, .unset), (11, 5, .unset)])]),
   ("vcmpgtsw", [(0x10000386, some [(21, 5, .unset), (16, 5, .unset), (11, 5, .unset)])]),
   ("vcmpgtsw.", [(0x10000786, some [(21, 5, .unset), (16, 5, .unset), (11, 5, .unset)])]),
   ("vcmpgtfp", [(0x100002C6, some [(21, 5, .unset), (16, 5, .unset), (11, 5, .unset)])]),
   ("vcmpgtfp.", [(0x100006C6, some [(21, 5, .unset), (16, 5, .unset), (11, 5, .unset)])]),
   ("vcmpequb", [(0x10000006, some [(21, 5, .unset), (16, 5, .unset), (11, 5, .unset)])]),
   ("vcmpequb.", [(0x10000406, some [(21, 5, .unset), (16, 5, .unset), (11, 5, .unset)])]),
   ("vcmpequh", [(0x10000046, some [(21, 5, .unset), (16, 5, .unset), (11, 5, .unset)])]),
   ("vcmpequh.", [(0x10000446, some [(21, 5, .unset), (16, 5, .unset), (11, 5, .unset)])]),
   ("vcmpequw", [(0x10000086, some [(21, 5, .unset), (16, 5, .unset), (11, 5, .unset)])]),
   ("vcmpequw.", [(0x10000486, some [(21, 5, .unset), (16, 5, .unset), (11, 5, .unset)])]),
   ("vcmpeqfp", [(0x100000C6, some [(21, 5, .unset), (16, 5, .unset), (11, 5, .unset)])]),
   ("vcmpeqfp.", [(0x100004C6, some [(21, 5, .unset), (16, 5, .unset), (11, 5, .unset)])]),
   ("vcmpgefp", [(0x100001C6, some [(21, 5, .unset), (16, 5, .unset), (11, 5, .unset)])]),
   ("vcmpgefp.", [(0x100005C6, some [(21, 5, .unset), (16, 5, .unset), (11, 5, .unset)])]),
   ("vcmpbfp", [(0x100003C6, some [(21, 5, .unset), (16, 5, .unset), (11, 5, .unset)])]),
   ("vcmpbfp.", [(0x100007C6, some [(21, 5, .unset), (16, 5, .unset), (11, 5, .unset)])]),
   ("vsel", [(0x1000002A, some [(21, 5, .unset), (16, 5, .unset), (11, 5, .unset), (6, 5, .unset)])]),
   ("vpkuhum", [(0x1000000E, some [(21, 5, .unset), (16, 5, .unset), (11, 5, .unset)])]),
   ("vpkuhus", [(0x1000008E, some [(21, 5, .unset), (16, 5, .unset), (11, 5, .unset)])]),
   ("vpkshus", [(0x1000010E, some [(21, 5, .unset), (16, 5, .unset), (11, 5, .unset)])]),
   ("vpkshss", [(0x1000018E, some [(21, 5, .unset), (16, 5, .unset), (11, 5, .unset)])]),
   ("vpkuwum", [(0x1000004E, some [(21, 5, .unset), (16, 5, .unset), (11, 5, .unset)])]),
   ("vpkuwus", [(0x100000CE, some [(21, 5, .unset), (16, 5, .unset), (11, 5, .unset)])]),
   ("vpkswus", [(0x1000014E, some [(21, 5, .unset), (16, 5, .unset), (11, 5, .unset)])]),
   ("vpkswss", [(0x100001CE, some [(21, 5, .unset), (16, 5, .unset), (11, 5, .unset)])]),
   ("vpkpx", [(0x1000030E, some [(21, 5, .unset), (16, 5, .unset), (11, 5, .unset)])]),
   ("vupkhsb", [(0x1000020E, some [(21, 5, .unset), (11, 5, .unset)])]), ("vupkhsh", [(0x1000024E, some [(21, 5, .unset), (11, 5, .unset)])]),
   ("vupkhpx", [(0x1000034E, some [(21, 5, .unset), (11, 5, .unset)])]), ("vupklsb", [(0x1000028E, some [(21, 5, .unset), (11, 5, .unset)])]),
   ("vupklsh", [(0x100002CE, some [(21, 5, .unset), (11, 5, .unset)])]), ("vupklpx", [(0x100003CE, some [(21, 5, .unset), (11, 5, .unset)])])]

def ppcRows12 : List (String × List PpcRow) :=
  [("vmrghb", [(0x1000000C, some [(21, 5, .unset), (16, 5, .unset), (11, 5, .unset)])]),
   ("vmrghh", [(0x1000004C, some [(21, 5, .unset), (16, 5, .unset), (11, 5, .unset)])]),
   ("vmrghw", [(0x1000008C, some [(21, 5, .unset), (16, 5, .unset), (11, 5, .unset)])]),
   ("vmrglb", [(0x1000010C, some [(21, 5, .unset), (16, 5, .unset), (11, 5, .unset)])]),
   ("vmrglh", [(0x1000014C, some [(21, 5, .unset), (16, 5, .unset), (11, 5, .unset)])]),
   ("vmrglw", [(0x1000018C, some [(21, 5, .unset), (16, 5, .unset), (11, 5, .unset)])]),
   ("vspltb", [(0x1000020C, some [(21, 5, .unset), (11, 5, .unset), (16, 5, .num)])]),
   ("vsplth", [(0x1000024C, some [(21, 5, .unset), (11, 5, .unset), (16, 5, .num)])]),
   ("vspltw", [(0x1000028C, some [(21, 5, .unset), (11, 5, .unset), (16, 5, .num)])]),
   ("vspltisb", [(0x1000030C, some [(21, 5, .unset), (16, 5, .snum)])]), ("vspltish", [(0x1000034C, some [(21, 5, .unset), (16, 5, .snum)])]),
   ("vspltisw", [(0x1000038C, some [(21, 5, .unset), (16, 5, .snum)])]),
   ("vperm", [(0x1000002B, some [(21, 5, .unset), (16, 5, .unset), (11, 5, .unset), (6, 5, .unset)])]),
   ("vsldoi", [(0x1000002C, some [(21, 5, .unset), (16, 5, .unset), (11, 5, .unset), (6, 4, .num)])]),
   ("vslo", [(0x1000040C, some [(21, 5, .unset), (16, 5, .unset), (11, 5, .unset)])]),
   ("vsro", [(0x1000044C, some [(21, 5, .unset), (16, 5, .unset), (11, 5, .unset)])]),
   ("vmaxub", [(0x10000002, some [(21, 5, .unset), (16, 5, .unset), (11, 5, .unset)])]),
   ("vmaxsb", [(0x10000102, some [(21, 5, .unset), (16, 5, .unset), (11, 5, .unset)])]),
   ("vmaxuh", [(0x10000042, some [(21, 5, .unset), (16, 5, .unset), (11, 5, .unset)])]),
   ("vmaxsh", [(0x10000142, some [(21, 5, .unset), (16, 5, .unset), (11, 5, .unset)])]),
   ("vmaxuw", [(0x10000082, some [(21, 5, .unset), (16, 5, .unset), (11, 5, .unset)])]),
   ("vmaxsw", [(0x10000182, some [(21, 5, .unset), (16, 5, .unset), (11, 5, .unset)])]),
   ("vmaxfp", [(0x1000040A, some [(21, 5, .unset), (16, 5, .unset), (11, 5, .unset)])]),
   ("vminub", [(0x10000202, some [(21, 5, .unset), (16, 5, .unset), (11, 5, .unset)])]),
   ("vminsb", [(0x10000302, some [(21, 5, .unset), (16, 5, .unset), (11, 5, .unset)])]),
   ("vminuh", [(0x10000242, some [(21, 5, .unset), (16, 5, .unset), (11, 5, .unset)])]),
   ("vminsh", [(0x10000342, some [(21, 5, .unset), (16, 5, .unset), (11, 5, .unset)])]),
   ("vminuw", [(0x10000282, some [(21, 5, .unset), (16, 5, .unset), (11, 5, .unset)])]),
   ("vminsw", [(0x10000382, some [(21, 5, .unset), (16, 5, .unset), (11, 5, .unset)])]),
   ("vminfp", [(0x1000044A, some [(21, 5, .unset), (16, 5, .unset), (11, 5, .unset)])]),
   ("vrefp", [(0x1000010A, some [(21, 5, .unset), (11, 5, .unset)])]), ("vrsqrtefp", [(0x1000014A, some [(21, 5, .unset), (11, 5, .unset)])]),
   ("vlogefp", [(0x100001CA, some [(21, 5, .unset), (11, 5, .unset)])]), ("vexptefp", [(0x1000018A, some [(21, 5, .unset), (11, 5, .unset)])]),
   ("vnmsubfp", [(0x1000002F, some [(21, 5, .unset), (16, 5, .unset), (6, 5, .unset), (11, 5, .unset)])]),
   ("vrfin", [(0x1000020A, some [(21, 5, .unset), (11, 5, .unset)])]), ("vrfiz", [(0x1000024A, some [(21, 5, .unset), (11, 5, .unset)])]),
   ("vrfip", [(0x1000028A, some [(21, 5, .unset), (11, 5, .unset)])]), ("vrfim", [(0x100002CA, some [(21, 5, .unset), (11, 5, .unset)])]),
   ("vctuxs", [(0x1000038A, some [(21, 5, .unset), (11, 5, .unset), (16, 5, .num)])]),
   ("vctsxs", [(0x100003CA, some [(21, 5, .unset), (11, 5, .unset), (16, 5, .num)])]),
   ("vcfux", [(0x1000030A, some [(21, 5, .unset), (11, 5, .unset), (16, 5, .num)])]),
   ("vcfsx", [(0x1000034A, some [(21, 5, .unset), (11, 5, .unset), (16, 5, .num)])])]

/-- powerpc.py:134-1321 `OPCODES_TABLE`, the rows of one name together in the order of the table. -/
def ppcTable : List (String × List PpcRow) :=
  ppcRows0 ++ ppcRows1 ++ ppcRows2 ++ ppcRows3 ++ ppcRows4 ++ ppcRows5 ++ ppcRows6 ++ ppcRows7 ++ ppcRows8 ++ ppcRows9 ++ ppcRows10 ++ ppcRows11 ++ ppcRows12

/-- powerpc.py:1350-1374 `AssemblerPowerPC`.  `register_instructions` makes one `PowerPCOPCode` for each name, with the
first number of the rows of that name, and gives it the operands of all of them. -/
def ppc : Dialect where
  bigEndian := true
  sy := { hexPrefixes := ["0x".toList] }
  instrs := fun key =>
    match ppcTable.find? fun g => upper g.1.toList == key with
    | some (_, (base, cond) :: rows) => some (.handler fun tokens => ppcCall base tokens (cond :: rows.map Prod.snd))
    | _ => none

end Necro
