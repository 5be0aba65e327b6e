import Verif.Lemmas.Aloof
import Verif.Lemmas.Bits
import Verif.Lemmas.Compose
import Verif.Lemmas.Console
import Verif.Lemmas.Data
import Verif.Lemmas.Deaf
import Verif.Lemmas.Dict
import Verif.Lemmas.Elf
import Verif.Lemmas.Enclosed
import Verif.Lemmas.FileView
import Verif.Lemmas.Finish
import Verif.Lemmas.Folds
import Verif.Lemmas.Frame
import Verif.Lemmas.FrameTools
import Verif.Lemmas.Fuel
import Verif.Lemmas.Handler
import Verif.Lemmas.Hushed
import Verif.Lemmas.I86Accept
import Verif.Lemmas.I86Decode
import Verif.Lemmas.I86Enc
import Verif.Lemmas.I86Line
import Verif.Lemmas.I86Link
import Verif.Lemmas.I86Row
import Verif.Lemmas.I86Run
import Verif.Lemmas.I86Took
import Verif.Lemmas.Keeps
import Verif.Lemmas.LabelCpus
import Verif.Lemmas.LabelSim
import Verif.Lemmas.LabelStable
import Verif.Lemmas.Line
import Verif.Lemmas.Link
import Verif.Lemmas.Linked
import Verif.Lemmas.Lookup
import Verif.Lemmas.Lr35902
import Verif.Lemmas.M68Accept
import Verif.Lemmas.M68Cases
import Verif.Lemmas.M68Code
import Verif.Lemmas.M68Lines
import Verif.Lemmas.M68Link
import Verif.Lemmas.M68Mode
import Verif.Lemmas.M68Proper
import Verif.Lemmas.M68Run
import Verif.Lemmas.M68Shape
import Verif.Lemmas.M68Text
import Verif.Lemmas.Macros
import Verif.Lemmas.Mips32
import Verif.Lemmas.MoreMacros
import Verif.Lemmas.Mos6502
import Verif.Lemmas.Names
import Verif.Lemmas.Numbers
import Verif.Lemmas.Operand
import Verif.Lemmas.Operands
import Verif.Lemmas.Owned
import Verif.Lemmas.Pack
import Verif.Lemmas.Platform
import Verif.Lemmas.PowerPC
import Verif.Lemmas.PpcAccept
import Verif.Lemmas.PpcLine
import Verif.Lemmas.PpcTable
import Verif.Lemmas.Replaced
import Verif.Lemmas.Report
import Verif.Lemmas.ReportMac
import Verif.Lemmas.ReportSites
import Verif.Lemmas.Thumb
import Verif.Lemmas.ThumbAll
import Verif.Lemmas.ThumbPush
import Verif.Lemmas.ThumbTable
import Verif.Lemmas.ThumbText
import Verif.Lemmas.TidyI86
import Verif.Lemmas.TidyLines
import Verif.Lemmas.TidyX86
import Verif.Lemmas.Tiles
import Verif.Lemmas.Tokenizer
import Verif.Lemmas.Utils
import Verif.Lemmas.Visits
import Verif.Lemmas.Whole
import Verif.Lemmas.Word
import Verif.Lemmas.X86Decode
import Verif.Lemmas.X86Rows
import Verif.Lemmas.X86Run
import Verif.Lemmas.X86Table
import Verif.Lemmas.Z80
import Verif.Lemmas.Z80Accept
import Verif.Lemmas.Z80Find
import Verif.Lemmas.Z80Index
import Verif.Lemmas.Z80Line
import Verif.Lemmas.Z80Table
import Verif.Model.Asm
import Verif.Model.Cpu.Intel8086
import Verif.Model.Cpu.Lr35902
import Verif.Model.Cpu.Mc68000
import Verif.Model.Cpu.Mips32
import Verif.Model.Cpu.Mos6502
import Verif.Model.Cpu.PowerPC
import Verif.Model.Cpu.Thumb
import Verif.Model.Cpu.X86
import Verif.Model.Cpu.Z80
import Verif.Model.Elf
import Verif.Model.Harness
import Verif.Model.Link
import Verif.Model.Numbers
import Verif.Model.Platform.Finish
import Verif.Model.Platform.Gameboy
import Verif.Model.Platform.Nes
import Verif.Model.Platform.Sms
import Verif.Model.Platform.Symbols
import Verif.Model.Platform.Tiles
import Verif.Model.Programs
import Verif.Model.Py
import Verif.Model.Report
import Verif.Model.State
import Verif.Model.Tokenizer
import Verif.Model.Utils
import Verif.Props.Abbreviate
import Verif.Props.Cartridge
import Verif.Props.Case
import Verif.Props.CaseProgram
import Verif.Props.Checksums
import Verif.Props.Compose
import Verif.Props.Consoles
import Verif.Props.Data
import Verif.Props.Depth
import Verif.Props.Elf
import Verif.Props.ElfLink
import Verif.Props.Enclosed
import Verif.Props.Expand
import Verif.Props.FileLine
import Verif.Props.Files
import Verif.Props.First
import Verif.Props.Forward
import Verif.Props.Hushed
import Verif.Props.Inline
import Verif.Props.Intel8086
import Verif.Props.Intel8086Link
import Verif.Props.Invariants
import Verif.Props.Library
import Verif.Props.Link
import Verif.Props.LinkHooks
import Verif.Props.Lr35902
import Verif.Props.Lr35902Link
import Verif.Props.Macros
import Verif.Props.Mc68000
import Verif.Props.Mc68000Link
import Verif.Props.Merge
import Verif.Props.Mips32
import Verif.Props.Mos6502
import Verif.Props.Numbers
import Verif.Props.ObjectLine
import Verif.Props.Operands
import Verif.Props.PowerPC
import Verif.Props.PowerPCLink
import Verif.Props.Programs
import Verif.Props.Rebuild
import Verif.Props.References
import Verif.Props.Regions
import Verif.Props.Report
import Verif.Props.Restate
import Verif.Props.Split
import Verif.Props.Swap
import Verif.Props.Symbols
import Verif.Props.Thumb
import Verif.Props.ThumbLink
import Verif.Props.Tiles
import Verif.Props.Tokenizer
import Verif.Props.Unroll
import Verif.Props.Unused
import Verif.Props.Utils
import Verif.Props.Whole
import Verif.Props.Woven
import Verif.Props.X86
import Verif.Props.X86Link
import Verif.Props.Z80
import Verif.Props.Z80Link
import Verif.Spec.Bits
import Verif.Spec.Case
import Verif.Spec.CaseProgram
import Verif.Spec.Compose
import Verif.Spec.Data
import Verif.Spec.Elf
import Verif.Spec.Expand
import Verif.Spec.Expr
import Verif.Spec.FileLine
import Verif.Spec.Files
import Verif.Spec.First
import Verif.Spec.Hushed
import Verif.Spec.Inline
import Verif.Spec.Instr
import Verif.Spec.Intel8086
import Verif.Spec.Library
import Verif.Spec.Link
import Verif.Spec.Lr35902
import Verif.Spec.Mc68000
import Verif.Spec.Merge
import Verif.Spec.Mips32
import Verif.Spec.Mos6502
import Verif.Spec.ObjectLine
import Verif.Spec.Operands
import Verif.Spec.Pack
import Verif.Spec.Platform
import Verif.Spec.PowerPC
import Verif.Spec.Processors
import Verif.Spec.Program
import Verif.Spec.Programs
import Verif.Spec.Report
import Verif.Spec.Restate
import Verif.Spec.Source
import Verif.Spec.Split
import Verif.Spec.Swap
import Verif.Spec.Symbols
import Verif.Spec.Text
import Verif.Spec.Thumb
import Verif.Spec.Unroll
import Verif.Spec.Utils
import Verif.Spec.Whole
import Verif.Spec.Words
import Verif.Spec.Woven
import Verif.Spec.X86
import Verif.Spec.Z80
import Verif.Tests.Assembler
import Verif.Tests.Intel8086
import Verif.Tests.Lr35902
import Verif.Tests.Mc68000
import Verif.Tests.Mips32
import Verif.Tests.Mos6502
import Verif.Tests.Thumb
