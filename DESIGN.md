# Formal model of necroassembler in Lean 4

## What is modelled

The model mirrors the Python sources function by function, with exceptions as
values.  Every definition cites the file and lines it models.

| Python | Lean | how |
|---|---|---|
| Python `int()`, `str.upper`, `str.isdigit`, `struct.pack` | `Model/Py.lean` | written from the language reference, ASCII only |
| `utils.py`, `Instruction.match` | `Model/Utils.lean` | total functions on `Int`, `List`; bytes are `BitVec 8` |
| `tokenizer.py` | `Model/Tokenizer.lean` | the state machine, one `step` per character |
| `assembler.py` number parsing and formulas | `Model/Numbers.lean` | mutual recursion cut by a depth counter, shown never to run out |
| assembler state, `Assembler` subclasses as data | `Model/State.lean` | `St` (the attributes), `Dialect` (what a subclass overrides), `M` (a state monad that keeps the state on error), `H` (what an instruction handler can do) |
| `assembler.py`, `statements.py`, `macros.py` | `Model/Asm.lean` | one definition per directive and statement class |
| `assembler.py` linking, `linker.py` Dummy | `Model/Link.lean` | fold over the relocation table |
| `linker.py` ELF | `Model/Elf.lean` | byte builder |
| `platforms/gameboy.py`, `nes.py`, `sms.py` | `Model/Platform/{Tiles,Gameboy,Nes,Sms}.lean` | directives and tile converters; the cpu is a parameter of the Game Boy and SMS dialects |
| `main()` of `nes.py` | `Model/Platform/Symbols.lean` | the contents of the three files as a function of the source |
| `main()` of `gba.py`, `genesis.py`, `psx.py`, `gameboy.py` | `Model/Platform/Finish.lean` | functions on the finished image |
| `Assembler.main`, `save`, the `main` of every platform | `Model/Programs.lean` | arguments and a file system (names to contents) to an outcome and a file system |
| `cpu/*.py` (see below) | `Model/Cpu/*.lean` | instruction handlers as functions of pc, labels and tokens; the opcode tables are data |
| tests of the repository | `Tests/*.lean` | replayed with `decide +kernel` as a check of the model against the expected bytes in the tests |

Property statements are in `Verif/Props/*.lean`, the independent specifications
they use in `Verif/Spec/*.lean`, helper lemmas in `Verif/Lemmas/*.lean`.

## Simplifications

* Strings are lists of Unicode scalar values.  `upper()`, `isdigit()`, `int()`
  and whitespace stripping follow Python on ASCII text only; non-ASCII digits,
  spaces and case mappings are treated as ordinary characters.
* `int()` has no digit-count limit (Python 3.11+ limits decimal strings to 4300
  digits).
* Python's recursion limit is a parameter (`depth`) of the macro/include
  evaluator: running out is `RecursionError`.  Theorems hold for every depth.
* Files are a parameter (`files : name → contents or absent`).
* `print` (log mode) has no observable effect in the model; the `log` flag is kept.
* Exceptions carry the class (and label where the class carries one), not the
  formatted message.
* Memory is unbounded (`.fill` of 2^60 bytes succeeds).
* csv and json readers are parameters giving the parsed cells; an image opened
  with PIL is a parameter giving its mode, palette and pixels.
* The linking theorems are about dialects whose `post_link` does nothing (`postLink
  = pure ()`); the platform checksums are separate theorems about the finished bytes.

## Trusted base

Lean 4.33.0's kernel; the axioms `propext`, `Classical.choice`, `Quot.sound`; and
the reading of the Python source into the model.  No axioms are added; there is
no `sorry`, `native_decide` or `bv_decide`.

Every theorem's axioms can be listed with `#print axioms`; none depends on anything
but the three above.  Parts of the code that are not modelled:
log printing, the usage message, the formatted text of exceptions except the place in it (C93), failures while writing (a full disk), two names of
one file, and `platforms/mz.py` (it replaces a function of the 8086 module after the instruction
table was built from the original, so assembling is not affected by it).

| processor | model | properties |
|---|---|---|
| MOS 6502 | `Model/Cpu/Mos6502.lean` | C49–C51 |
| MIPS32 (big endian) and PSX (little endian) | `Model/Cpu/Mips32.lean` | C55–C57 |
| LR35902 (Game Boy) | `Model/Cpu/Lr35902.lean` | C58–C60 |
| Thumb (GBA) | `Model/Cpu/Thumb.lean` | C61–C64 |
| Motorola 68000 | `Model/Cpu/Mc68000.lean` | C65–C67 |
| Intel 8086 | `Model/Cpu/Intel8086.lean` | C68–C69 |
| Zilog Z80 | `Model/Cpu/Z80.lean` | C70–C72 |
| PowerPC | `Model/Cpu/PowerPC.lean` | C73–C75 |
| x86 | `Model/Cpu/X86.lean` | C78–C81 |

## Plan per property

Arithmetic (C01–C04): closed forms over `Int` with `omega` and bit lemmas
(`testBit`), lists by induction.  C01 against an independent little/big-endian
reader; C04 against `testBit`.

Substitution and matching (C05, C06): against a spec that splits a token into
maximal runs; by induction on the token.

Tokenizer (C07–C12): invariants of the step function by induction on the text;
compositionality because `parse` is a fold; round trip by computing the fold
over rendered text.

Numbers (C13–C18): case analysis of `parse_integer`; literal round trips by
induction on digit lists against the standard digit expansion; formulas by a
fold over an operator list that the scanner is shown to recover.

Assembler (C19–C35): every primitive state update respects a preorder on states
(`bytes` prefix, labels extension, ...); a generic lemma lifts it to all
statements, macros, includes and sources.  Directive semantics (C22–C25, C27–C30)
by evaluating one statement.  C26, C34, C35 by fold composition.  C31, C32 by
induction on the body.

Linking (C36–C42): the fold of OR-writes over relocation windows; bitwise spec.

ELF (C43): an independent reader defined on bytes, shown to recover the tables.
Object files (C82): the two linkers are compared reference by reference; a reference to an undefined name
contributes 0, so the linked bytes are those of the program without it.  The hypothesis `Blank` (the
field accepts 0 and its filter maps 0 to 0) holds for every reference the processors record (`C83_object`).

References inside their line (C83): a relation between the states before and after successful assembling is shown
to hold through every directive and macro once it holds for a line (`Lemmas/Enclosed`); for each processor every
operand function is shown to record references within the bytes it returns (`Lemmas/TidyLines`, `TidyI86`, `TidyX86`).
For the 8086 this covers references left behind by table rows that refused the line. `.dbtoascii`/`.dwtoascii`
references are covered by the statement about positions; the statements that mention the linker's value exclude them.

Whole programs (C85): C83 discharges the hypotheses the per-line theorems make about other references, and the
tokenizer and `assemble` supply the run from an empty state, so the hypotheses left are about the source and the line:
the program assembles and links; the line is no macro call and not inside a macro definition; no label is written as
ascii text; labels are names, not formulas; the line is none of the odd lines listed for its processor. On PowerPC a
line with two labels keeps only the second one, so C85_ppc asks for at most one.

Platforms (C44–C48): sums modulo 2^k; tile decoding by bit lemmas.

Symbol files (C84): a reader for name lists is written from their format; reading undoes writing for every label
table an assembly can end with, because label names have no other characters than letters, digits, `_` and `.` (C21).

Programs (C86): a file system is a function from names to contents; opening for writing may be refused by the machine.
All reading, assembling, linking and fixing of checksums comes before the first write, and the two computations that come
after opening (the PlayStation header, the name lists) are shown not to fail.  C87: a relation between two computations
(`Le`: where the first succeeds, the second does the same) is carried through all directives for two sets of files, one
contained in the other.

Lines anywhere in a program (C85, C88): `Spec/Whole.lean` describes how a run comes to a line: through the sources, the
statements of a source, an include, the use of a macro.  `Visits.run` shows that such a path is part of the real run and
`Visits.keeps` that a relation kept by every step holds before and behind the line, so C85 covers included files and macro
bodies.  C88 joins it with the programs of C86.

Lines in object files (C89): `Spec/ObjectLine.lean` says what it is for an object file to hold bytes in a section, with the
reader of `Spec/Elf.lean`.  That the section which is open at a line still starts where it did when the program ends, and is not
closed before the line, is an invariant of the state that every step keeps (`InSec`, `rel_inSec`).  The references to names
defined elsewhere are taken out with C82_elsewhere; a line all of whose names are defined is then linked as in C85, in a program
without these references.  Sections named with a NUL character are excluded, since names in object files end there; lines before the first
`.section` are in no section and do not get into the file.

Operands (C90): `Spec/Operands.lean` says which text is `Unbroken`. `Lemmas/Operands.lean` carries any predicate on tokens that holds of what the
tokenizer gives and survives substitution through all statements, as an invariant of the definitions and macro bodies; `Props/Operands.lean` instantiates it for
every program of the package and shows which rows of the Z80 table no line can select.

The recursion limit (C91): `Extends m m'` says that `m'` does what `m` does unless `m` hits the limit; it is kept by sequencing, so every level of macros and
includes extends the one below. The limit of the model counts nested macros and includes, not Python's stack frames; C91 is what makes that difference harmless.

Letter case (C92): every handler is shown to depend only on the upper case of the first token (`FirstFolds`), every directive method not at all; then induction
over the statements. For whole programs (`C92_program`, `C92_run`, `C92_file_run`) the specification `RecasedLines` follows from the text alone whether a macro is being recorded and which
definitions are in effect; what is known is lost at an `.include`, after which only names of directives may be recased. Recasing the lines of a macro changes the recorded words, which are part of
the state, so it is covered for the built bytes only, through C99 (`C92_macros`).

Error places (C93): `Model/Report.lean` is the assembler of `Model/Asm.lean` with the place of every exception and the file of every statement in the body of a macro
carried along; `C93_same` shows that it does the same otherwise.  An invariant says that every statement in the body of a macro stands, up to replaced
names, at its line of its file (`SitesOk`); a step on the body of a macro keeps lines and files (`Quiet`).  The words of a message other than the place are
not modelled.  Which errors of a directive carry a place is part of the model (`directivePlace`), read off the `raise` statements.

Macros that are not called (C94): a simulation between runs whose states differ in the table of macros, where the second table has the macros of the
first and others with names that are no instructions (`More`).  Everything but the lookup of a called macro commutes with changing the table (`Frame`, shown
for all directives of all classes in `Lemmas/FrameTools.lean`).  With the same lemmas C34 and C35 are shown for the classes with directives of their own
(`C34_tool`, `C35_tool`).

Labels nothing refers to (C95): a label table with one more name is followed through the run. For every processor but the 6502 the
operands accepted without the label give the same with it (`HStable`), because a label changes an operand only where the lookup failed
or left a reference. The 6502 looks a label up to choose between the short and the long form, so there the argument is that an operand
that would find the new name has left a reference to it in the plain run (`HNames`), the references stay to the end (`Stays`), and a
program that links has no reference to an undefined name (`link_names`). The same lemmas give C41 for instructions (`C41_instruction`).
Lemmas/LabelStable, Lemmas/LabelCpus and Lemmas/LabelSim are the simulation, Props/Unused the statements.

Logging, exports and definitions that are not used (C96, C97): the log switch, the exports, the definitions and the macros are put
aside (`aside`), and every other directive, instruction and link step is shown not to look at them (`Aloof`, Lemmas/Aloof). A simulation
(Lemmas/Hushed) then follows two runs that differ in them, through macro calls, repeated blocks and included files. It is stated for
any relation between the two tables of definitions under which the tokens that occur are replaced alike (`Defs`). C96 uses equality;
C97 uses tables that differ in one name, with the invariant that the name is not a word of any value or macro body (`Calm`). A word is
a longest run of name characters (Spec/Words). C97 needs the name to be absent also from the definitions the tool starts with.

Definitions as abbreviations (C98): Spec/Expand writes out what a program with definitions stands for, with its own replacement of
words and its own table. The table of the run is shown to agree with it (`Tracks`), and every step of the run to give the same with
the definitions put aside (`Apart`, from the lemmas of C96). The result is an equality of the two builds, also of their errors.

Macros as abbreviations (C99): Spec/Inline writes out what a program with definitions and macros stands for. A line of a macro is
changed in place while it runs and restored afterwards, so the table of macros agrees with the specification only for the macros that
are not running; `does_writeOut` carries that through nested calls, for every depth. `level_stmts` then follows the two runs line by
line, with the macro being recorded on top of the table. The second run keeps no macros and no definitions at all (`lay`). Labels
inside macros are errors. Spec/Woven and Props/Woven add included files, as a relation with one rule for an included file: the table
left by the file is the table for the lines after it. A directive inside a macro is not part of it: it takes effect where
it is written, which needs that no directive depends on whether a macro is being recorded (Lemmas/Deaf). Props/Abbreviate carries C98 and C99 to runs of
all the programs (`Tool.run`), as equalities of the outcome and the disk.

Repeat blocks as abbreviations (C100): Spec/Unroll says what a line that gives the same bytes wherever it stands is (`Steady`) and when one source is another with a
repeat block written out (`Unrolled`). `block_copies` (Props/Unroll) shows that the block and the copies lead to the very same state; what follows differs only in line numbers,
which C34's relation of states that behave alike covers. `C100_data` and `C100_instruction` give the lines that are steady. `C100_labels` is the program for which the
statement fails, because a label in the block is put in only once.

Lines of data in other ways (C101): Spec/Split says when a program is another with some lines of data split or their directives renamed (`Respelled`). `data_lines` (Props/Split) shows
that a line of data and its pieces are the same function of the state, whatever the items are; the rest is as for C100, with all sources changed at once.

One file for several (C102): Spec/Merge gives the lines of a program with all its files put in place (`MergedLines`, `MergedFiles`), following the definitions, which make up names of files, and
whether a region with an end is open. `merged_lines` (Props/Merge) shows by induction that the two programs run in states that behave alike, at depths that may differ, since a line of an included
file is run deeper than the same line in the one file; C91's lemmas say that more depth changes nothing but a failure for lack of it. The end of a file fills nothing when no region is open
(`org_closes`), and closes a section, which C34's relation covers. `regionFiles` is a program for which the statement fails without the condition on regions.

Data as bytes (C103): Spec/Restate says which bytes lines of numbers and texts stand for (`ItemsFor`, `LinesFor`), by C22's meaning of an item, and when a program is another with such lines replaced
(`RestatedLines`). `lines_exact` (Props/Restate) shows that the lines add exactly these bytes and do nothing else; for this the encodings of texts are shown to be unique. What is
between the lines is run as for C92, which also follows the definitions.

Instructions as bytes (C104): Spec/Swap extends C103's lines to instructions, with the meaning `Emits` that the theorems about the processors use (C49 to C81), required at every address and for every
table of labels. `gives_exact` (Props/Swap) shows that the lines add their bytes and do nothing else, in a program without macros; `C104_macros` brings in macros by C99. The example shows how
the theorems about a processor (C50) give the hypothesis for an instruction with a number.

The first error (C105): `Spec/First.lean` says what it is for a program to be rejected, with the assembler of C93 that carries the places along, and for a file to be another one with lines added.
Tokenizing is line-compositional (C08), so the statements of the longer file begin with those of the shorter one; the loop over them stops at the first exception, and the work at the end of a source (filling a
region, closing a section) can only raise a `KeyError`, which the theorems leave out.  `C105_colons` states the exception: the tokenizer runs over the whole file first.

Cartridges (C52, C53): the effect of each header directive on the output bytes.

References (C54): the relocation table as a history invariant.

Processors (C49–C51, C55–): an independent decoder is written from the manual of
the processor.  The table of the assembler is a finite list, checked row by row
with `decide +kernel` against the decoder; a theorem lifts this to all operand
texts, labels, states and (where the table is used in both) byte orders.  Where a
label is used, the statement is about the linked output: the instruction found
there decodes to one that reaches the label.

Consoles (C76): a console's assembler has the instruction table, numbers and byte
order of its processor's, so emission and reference filling transfer (`SameCpu`);
the header directives write below 0x14B (Game Boy) and below 7 (NES) only, shown as an
invariant of everything assembled after an instruction (`Kept`); the checksum bytes are
excluded by position.

Included files (C77): the file system is a function from names to contents (`Env`); the
reading of cells and items is an induction over the list, every outcome is classified, and
the accepted ones are compared with the little-endian value of each cell.

x86 (C78, C79): the table is indexed by numbers that stand for the names, so that the kernel can look
rows up quickly; which row the operands of a line select is computed from what kind of token each
is (`x86Pick`), for every opcode of the specification, and a theorem says that the argument
functions agree with this.  The specification covers 16- and 32-bit operands; addresses in 32- and 64-bit
mode are decoded by it, but the assembler does not produce them (`C78_odd_modes`).

Labels in x86 (C80, C81): the reference a line leaves is computed for every such row, and the general
theorems about linking give the bytes of the linked line, which the processor's decoder then reads.

## Testing the theorems

Theorems are tested against wrong programs: a copy of the project outside
`/verif` gets one edit in `Model/`, everything is rebuilt, each declaration that no
longer compiles is replaced by `sorry`, and the property theorems that then depend
on `sorry` are listed.  A proof that breaks does not by itself show
that the statement has become false, since a proof may break over a detail.  For the statements about pairs of programs (C92, C94 to C105) the edited model is
run on concrete pairs that meet the hypotheses instead, and the log says which pair refutes the statement; the proofs are not
rebuilt for these.

`seeded/LOG.jsonl` has one line per edit that was tried, with `not_broken` and a note where an edit broke no theorem of the claim it was aimed
at: the edit did not compile, changes nothing a program can reach, or does not make the claim false.

Not every theorem has been tested in this way.  Of the 510 theorems in `MANIFEST.json`, 354 failed under some edit in the log.  No edit has made a
theorem fail of C80, C89, C90 and C91; some edits of the processor models were prepared but not run.

## Known disagreements between the code and what one would expect

Each is a theorem about the model.

* C12 `C12_silent_loss`: an unterminated quote silently drops the rest of the text.
* C14 `C14_zero_suffix_fails`: `0h`, `0b` and the like raise `ValueError`;
  `C14_hex_suffix_letters`: `ffh` is not a number.
* C26 `C26_final_fill`: the fill at the end of assembling does nothing when exactly one
  byte is missing.
* C29 `C29_label`, `C29_no_redefinition`: labels and the names of directives are not substituted, and defining a name twice
  defines the value of the first definition instead.
* C30: directives in a macro body run when the macro is defined.
* C32 `C32_failure`: when a use of a macro fails its body keeps the substituted arguments.
* C34, C35: hold for sources that end outside quotes and that do not define the names
  used by the other part.
* C39 `C39_overlapping_ascii`: references that share bytes are ORed together or overwrite each other.
* C41 `C41_number_first`: a formula that begins with a number is evaluated at once, so in
  `1+label` the label has to be defined before.
* C42 `C42_clobbers`: an address with more digits than were reserved overwrites the next byte.
* C43 `C43_value_from_origin` (symbol values count from the origin and not from the section),
  `C43_no_null_symbol` (the symbol table has no null entry), `C43_single_use` (an ELF linker object
  cannot link twice); the symbol table's `sh_info` is 0.
* C45 `C45_exact`, `C45_relink`: the Game Boy global checksum includes the old checksum bytes, so it is right
  for a file whose checksum bytes were zero and wrong when linked again.
* C47 `C47_genesis_succeeds`: the Genesis checksum raises `IndexError` on images of odd length.
* C48: the PSX stack pointer is written where the format has another field.
* C49 `C49_extra_tokens`: tokens after the target of a 6502 branch are ignored.
* C51 `C51_hex_displacement`: `BNE $FE` is rejected while `BNE -2` is accepted.
* C52 `C52_misplaced`: inside a bounded region the Game Boy header can be put at the wrong place.
* C53 `C53_prg_is_chr`: `.cartridge_prg_roms` sets the byte that holds the number of CHR banks.
* C55 `C55_unusable`, `C55_sltiu`, `C55_sltu`, `C55_jalr`, `C55_lui`: nine mnemonics never assemble, `sltiu`
  assembles to `addiu`, `sltu` to a reserved word, `jalr` discards the return address,
  `lui $1, 0x1234` loads 0.
* C56 `C56_unaligned`, C57 `C57_other_region`: branches to unaligned labels and jumps to another 256 MiB
  region are accepted and go elsewhere.
* C58 `C58_bra`, `C58_half`, `C58_store`, `C58_sp` (`GbOdd`): `BRA` assembles to `RRA`, `RLC (H)` to `RLC (HL)`,
  `LD (0),A` to `LD ($FF00+C),A`, and `LD` with `SP+n` as second operand to `LD HL,SP+n` whatever
  the first one is.
* C59: a label in `LD HL,SP+label` or `ADD SP,label` is taken relative to the program counter.
* C61 (`ThOdd`, `thMissing`): `C61_str` (`STR` with an immediate offset is a load), `C61_ldrh`, `C61_ldrh_imm`,
  `C61_ldrb_imm`, `C61_add_pc`, `C61_add_sp` (wrong code or scaling), `C61_push_lr` (a push that becomes a pop), `C61_shift`,
  `C61_offset`, `C61_unaligned`, `C61_odd_branch` (operands that do not fit are changed), `C61_add_sp_never`,
  `C61_strb_never`, `C61_push_upper`, `C61_decimal_offset` (lines that never assemble).
* C63 `C63_zero`: `BL 0` is a call of a label named `0`.
* C64 `C64_behind`: a load from a label behind it goes 1024 bytes too far.
* C65 (`M68Odd`, `C65_odd`, `C65_refused`): the texts `PC`, `.W`, `.L`, `CCR` and `SR` are also matched by each of their single
  letters; the size suffix of `ori/andi/eori` to `ccr` and `sr` is ignored; `move.b a0,…` is accepted though the processor has no
  such instruction; a short absolute address from `$8000` is sign-extended by the processor; `bcc.b` to the next
  instruction is read by the processor as a word branch; `DBT.W` and `DBF.W` always fail; an index register in capitals without a
  size is refused; operands after a complete `move`, immediate instruction or jump are ignored (`jmp (a0)+` is
  `jmp (a0)`); there is no `BRA` or `BSR`.
* C66: a label as a displacement (`(label,a0)`) is taken as an unsigned 16-bit number, which the processor reads modulo 2^16;
  `d0.w` outside an index is taken as a short address of a label `d0`; `subi #1,ccr` has a label `ccr` as its destination.
* C68 (`I86Odd`, `C68_odd`, `C68_refused`): `[bp]` without a displacement is encoded as a direct address whose bytes are missing;
  `pop [bx]` emits only its opcode; `mov [bx], 5` emits opcode and number without the ModR/M byte and `mov [bx], 0x1234` is
  refused; `aam` and `aad`, with or without 10, emit one byte instead of two; the count of `shl` and `shr` is ignored and
  shifts of memory are always byte shifts; `mov al, [x]` takes 8-bit addresses only and changes negative ones; `mov [0x1234], ax`
  is refused because the row for `al` raises first; operands after a complete instruction are ignored; a direct address is
  possible only with `al`, `ax`, `les` and `lds`; byte `mul`, `div`, immediate arithmetic other than with the accumulator, and `test`
  and `xchg` with memory first do not exist; a far pointer `1:2` cannot be written because the tokenizer refuses the colon; `[bx+si]`
  must be written with spaces.
* C69 (`I86Inner`, `C69_displacement`, `C69_pointer`): the reference of a label used as a displacement (`[bx + label]`) or as the pointer of
  `LES` and `LDS` lies over the ModR/M byte, so linking damages that byte; `add cx, [bx + label]` can become `add bx, di`. `JMP label` is
  always the near jump. `JMP [BX]` is taken as a jump to a label called `[`. `MOV AL,[label]` is only linked for labels below 256.
* C70 (`Z80Odd`, `C70_store`): `LD (IX+5),$12` assembles to `DD 36 12`, three bytes that lack the displacement.
* C71 (`Z80Lost`, `C71_lost`): `LD A,(IX+5)` and `LD (IX+5),A` are taken as accesses to a label `IX` plus 5 (`C72_index`). `IN F,(C)` is only known
  in a form with the token `* / IN `. The statement is about lines as lists of tokens: `EX AF,AF'` and the undocumented `LD B,RLC (IX+d)`
  are in the table, but a source line cannot contain the tokens `AF'` and `RLC ` (C90).
* C72: a number after `JR` or `DJNZ` is a distance, a label an address; a label as a displacement (`(IX+label)`) must be below 256 and the processor reads
  it modulo 256 as a signed number; `IX-label` refers to a label called `-label`.
* C73 (`PpcOdd`, `C73_bctr`, `C73_mftb`): the number of a name's first row is used for all its rows, so `bctr` and `bctrl` with no or one operand
  are assembled as `bcctr 0,0`, a conditional branch, and `mftb r3` reads register 0 instead of 268.
* C74 (`C74_r0`, `C74_never`, `ppcNever`): `r0` is refused as a general register (`mflr r0`), except where 0 stands for no register. Rows with an
  operand of no kind match everything and then fail, so 434 pairs of name and operand count are never assembled, among them `lwz`, `stw`, `rlwinm`,
  `mfspr` and the three-operand `cmpwi`.
* C75 (`C75_short`, `C75_several`): the distance of a branch is checked in bytes against the width of a field that holds words, so a branch reaches a
  quarter of what the instruction can do. A label that is not a whole number of words away is rounded down without a word. At address 0 a branch holds the
  address of the label instead of the distance. Of several labels in one line only the last is filled in; the others become 0. A number after a branch is
  a count of words. A label in a signed field is taken up to twice the largest positive number. `R5` where a number is wanted is taken as a label.
* C78 (`C78_odd_rows`, `C78_odd_modes`): `cmp`, `test`, `xchg`, `bt`, `xadd`, `not`, `neg`, `inc` and `dec` emit only their opcode, without ModR/M byte;
  `imul` takes the row of another form; `mul`, `div` and `idiv` with an operand are refused; an immediate for another register than the accumulator
  (`add ebx, 5`) lacks its ModR/M byte; of two-byte opcodes without operands (`syscall`, `cpuid`) only the second byte is emitted; `retn` is the opcode of the
  form with a number, without the number. In 32- and 64-bit mode addresses have the 16-bit codes, so `[ebx]` is assembled as `[edi]`; in 16-bit mode a displacement beside a
  32-bit register has four bytes. 64-bit registers are assembled as the 32-bit ones, without a REX prefix. `push` and `pop` refuse 32-bit registers. String
  instructions of the other operand size have no prefix, except `stosd` and `lodsd` in 16-bit mode. Registers of different sizes are not
  rejected, operands after a complete instruction are ignored.
* C80 (`C80_backward`, `C80_elsewhere`): in 32- and 64-bit mode the distance of a jump has four bytes, of which linking fills two; a jump back leads 65536
  bytes beyond its label, and no jump reaches further than 32 K. After `rep` the reference is one byte early and destroys the opcode; a label in an address with
  registers is merged into the ModR/M byte.
* C86 `C86_forgotten`: with one argument the programs based on `Assembler.main` (except the Game Boy's, which fails) overwrite that file
  with the output of an empty program; `C86_nes_late`: an unwritable name list is noticed after the ROM was replaced. Not about the model: `setup.py`
  looks for the MIPS assembler in the Thumb module, so `necro_mips32` cannot start.
* C87 `C87_own_output`: a program that includes its own output changes with every run.
* C90 (`C90_unwritable`): `EX AF,AF'` cannot be written; the quote begins a literal, and if that is not ended the line and everything after it are dropped
  without an error. The undocumented `LD B,RLC (IX+d)` and its relatives, and `IN F,(C)`, are in the table with words that no operand equals.
* C92 (`Props/Case.lean`): in a register list of Thumb, `push {R0}` is refused although `push {r0}` and `push {R0-R3}` are accepted.
* C93 (`Props/Report.lean`): a number out of range in a directive or as the name of a label, an overlapping `.org`, an unknown value of `.bits` and a string in a
  `.db` that cannot be encoded name no line; an argument missing in a call of a macro is a bare `IndexError`; an error in a macro names the line of
  its body and not the call.
* C100 (`C100_labels`): a label named in a repeat block is put in only the first time; the copies keep the zeros that stand in for it, so a block with a jump or
  a `.dw label` is not what it looks like. An instruction whose bytes depend on its address is copied as it was encoded the first time.
