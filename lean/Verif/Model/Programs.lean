import Verif.Model.Elf
import Verif.Model.Platform.Finish
import Verif.Model.Platform.Gameboy
import Verif.Model.Platform.Sms
import Verif.Model.Platform.Symbols
import Verif.Model.Cpu.Mips32
import Verif.Model.Cpu.Lr35902
import Verif.Model.Cpu.Thumb
import Verif.Model.Cpu.Mc68000
import Verif.Model.Cpu.Intel8086
import Verif.Model.Cpu.Z80
import Verif.Model.Cpu.PowerPC
import Verif.Model.Cpu.X86
/-!
# The command line programs

`Assembler.main` and the `main` functions of /repo/necroassembler/platforms/*.py, with the files
they read and write.
-/

namespace Necro

/-- The files, by name.  Two names of one file (links, `./a` and `a`) are not modelled. -/
abbrev Disk := Str → Option Bytes

/-- What a program runs on: how the contents of the files appear to the readers (text decoding,
csv, json, images), and which names cannot be opened for writing. -/
structure Machine where
  view : Disk → Env
  refuses : Str → Option Err := fun _ => none
  /-- Python's recursion limit -/
  depth : Nat

/-- The file `name` gets the contents `data`. -/
def Disk.set (disk : Disk) (name : Str) (data : Bytes) : Disk := fun n => if n = name then some data else disk n

/-- `with open(name, 'wb') as f: f.write(…)`: opening empties the file; if computing what is to be
written raises, it stays behind.  Simplified: nothing of it has been written by then.  Writing
itself does not fail (no full disk). -/
def Machine.write (m : Machine) (name : Str) (data : Except Err Bytes) (disk : Disk) : Except Err Unit × Disk :=
  match m.refuses name with
  | some e => (.error e, disk)
  | none =>
    match data with
    | .error e => (.error e, disk.set name [])
    | .ok bytes => (.ok (), disk.set name bytes)

/-- assembler.py:877-893 `Assembler.main`.  `make` is the part between reading the arguments and
`asm.save` (assembler.py:216-218).  `*sources, destination = sys.argv[1:]` fails only for no
arguments at all, which prints the usage. -/
def assemblerMain (make : Env → Nat → List Str → Except Err Bytes) (m : Machine) (args : List Str) (disk : Disk) :
    Except Err Unit × Disk :=
  match args.getLast? with
  | none => (.ok (), disk)
  | some destination =>
    match make (m.view disk) m.depth args.dropLast with
    | .error e => (.error e, disk)
    | .ok bytes => m.write destination (.ok bytes) disk

/-- The state after assembling `sys.argv[1]`, linking, and what a platform then does to the bytes. -/
def runFile (d : Dialect) (fix : M Unit) (m : Machine) (args : List Str) (disk : Disk) : Except Err Unit × St :=
  match args with
  | [] => (.error .indexError, d.init)
  | source :: _ => (do mainRun d (m.view disk) m.depth [source]; fix : M Unit) d.init

/-- gba.py:4-18, genesis.py:4-21, psx.py:10-32: `sys.argv[2]` is looked up after everything else.
Further arguments are ignored. -/
def fileMain (d : Dialect) (fix : M Unit) (file : Bytes → Except Err Bytes) (m : Machine) (args : List Str) (disk : Disk) :
    Except Err Unit × Disk :=
  match runFile d fix m args disk with
  | (.error e, _) => (.error e, disk)
  | (.ok (), s) =>
    match args with
    | _ :: destination :: _ => m.write destination (file s.bytes) disk
    | _ => (.error .indexError, disk)

/-- nes.py:119-140 -/
def nesFiles (m : Machine) (args : List Str) (disk : Disk) : Except Err Unit × Disk :=
  match runFile nes (pure ()) m args disk with
  | (.error e, _) => (.error e, disk)
  | (.ok (), s) =>
    match args with
    | _ :: destination :: _ =>
      match m.write destination (.ok s.bytes) disk with
      | (.error e, disk) => (.error e, disk)
      | (.ok (), disk) =>
        match m.write (destination ++ ".0.nl".toList) (nesRomSymbols s) disk with
        | (.error e, disk) => (.error e, disk)
        | (.ok (), disk) => m.write (destination ++ ".ram.nl".toList) (nesRamSymbols s) disk
    | _ => (.error .indexError, disk)

/-- The programs of the package: the modules under cpu and platforms that can be run. -/
inductive Tool where
  /-- cpu/mos6502.py:409 -/
  | mos6502
  /-- cpu/mips32.py:382 -/
  | mips32
  /-- cpu/lr35902.py:827 -/
  | lr35902
  /-- cpu/thumb.py:482 -/
  | thumb
  /-- cpu/mc68000.py:417 -/
  | mc68000
  /-- cpu/intel8086.py:623 -/
  | i8086
  /-- cpu/z80.py:1411 -/
  | z80
  /-- cpu/powerpc.py:1378 -/
  | ppc
  /-- cpu/x86.py:2010 -/
  | x86
  /-- platforms/sms.py:75 -/
  | sms
  /-- platforms/gameboy.py:175 -/
  | gameboy
  /-- platforms/i386_elf32.py:5-7 -/
  | i386Elf
  /-- platforms/ppc_elf32.py:5-7 -/
  | ppcElf
  /-- platforms/x86_64_elf64.py:5-7 -/
  | x86Elf
  /-- platforms/gba.py:4-18 -/
  | gba
  /-- platforms/genesis.py:4-21 -/
  | genesis
  /-- platforms/psx.py:10-32 -/
  | psx
  /-- platforms/nes.py:119-140 -/
  | nes
deriving DecidableEq, Repr

/-- The assembler class a program uses. -/
def Tool.dialect : Tool → Dialect
  | .mos6502 => Necro.mos6502
  | .mips32 => Necro.mips32
  | .lr35902 => Necro.lr35902
  | .thumb => Necro.thumb
  | .mc68000 => Necro.mc68000
  | .i8086 => Necro.i8086
  | .z80 => Necro.z80
  | .ppc => Necro.ppc
  | .x86 => Necro.x86
  | .sms => smsOn Necro.z80
  | .gameboy => gameboyOn Necro.lr35902
  | .i386Elf => Necro.i8086
  | .ppcElf => Necro.ppc
  | .x86Elf => Necro.x86
  | .gba => Necro.thumb
  | .genesis => Necro.mc68000
  | .psx => Necro.psx
  | .nes => Necro.nes

/-- What running a program with some arguments does. -/
def Tool.run (t : Tool) : Machine → List Str → Disk → Except Err Unit × Disk :=
  match t with
  | .i386Elf => assemblerMain (elfBuild Necro.i386Elf t.dialect)
  | .ppcElf => assemblerMain (elfBuild Necro.ppcElf t.dialect)
  | .x86Elf => assemblerMain (elfBuild x86Elf64 t.dialect)
  | .gba => fileMain t.dialect gbaFix .ok
  | .genesis => fileMain t.dialect genesisFix .ok
  | .psx => fileMain t.dialect (pure ()) psxFile
  | .nes => nesFiles
  | t => assemblerMain (build t.dialect)

end Necro
