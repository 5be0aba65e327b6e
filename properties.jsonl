{"id": "C01", "title": "Fixed-width packing is total and lossless modulo the width", "statement": "Every pack_* helper (8, 16, 32, 64 bit, little or big endian, signed or unsigned) returns, for any list of integers or None, exactly width*count bytes; decoding each field in the same endianness and signedness gives the argument reduced modulo 2^width (two's complement representative for the signed forms, 0 for None). It never raises.", "quantifier": "all integers (unbounded, negative included), all list lengths, all widths/endianness/signedness combinations offered", "why_tests_cant": "the integer domain is infinite and the interesting values sit at the wrap-around points of each of 11 helpers", "anchors": ["necroassembler/utils.py: pack_byte, pack_8s, pack_le16u, pack_le16s, pack_be16u, pack_be16s, pack_le32u, pack_le32s, pack_be32u, pack_be32s, pack_le64u, pack_le64s"]}
{"id": "C02", "title": "neg_fix is two's complement sign extension", "statement": "For bits >= 1 and 0 <= value < 2^bits, neg_fix(value, bits) is the unique integer in [-2^(bits-1), 2^(bits-1)) congruent to value modulo 2^bits.", "quantifier": "all widths and all values in range", "why_tests_cant": "unbounded widths", "anchors": ["necroassembler/utils.py: neg_fix"]}
{"id": "C03", "title": "Bit range checks accept exactly the representable integers", "statement": "in_bit_range(v, n) holds iff 0 <= v < 2^n. in_bit_range_decimal(v, n, signed) holds iff -2^(n-1) <= v < 2^(n-1) when signed and iff -2^(n-1) <= v < 2^n when unsigned.", "quantifier": "all integers v, all widths n >= 1", "why_tests_cant": "boundaries at every width; unbounded integers", "anchors": ["necroassembler/utils.py: in_bit_range, in_bit_range_decimal"]}
{"id": "C04", "title": "Bit-field packing stores each field and nothing else", "statement": "pack_bits(base, ((end,start),v), ...) succeeds iff every field has end >= start and -2^(w-1) <= v < 2^w with w = end-start+1, and raises InvalidBitRange otherwise. On success a field whose bits were clear and which no later field overlaps reads back as v modulo 2^w, bits outside all fields equal those of base, and the result does not depend on the order of the fields.", "quantifier": "all bases, all field lists, all values", "why_tests_cant": "field layouts and values are unbounded; order independence ranges over permutations", "anchors": ["necroassembler/utils.py: pack_bits, pack_bit"]}
{"id": "C05", "title": "Token substitution is a single-pass replacement of whole identifier runs", "statement": "substitute_with_dict(tokens, d, start) keeps the number of tokens and every token before start; a later token equal to a key becomes its value; any other token is split into maximal runs of name characters, each run equal to a key is replaced by its value and everything else is copied. With an empty dictionary it is the identity, and a token whose runs contain no key is unchanged.", "quantifier": "all token lists, all dictionaries, all start offsets", "why_tests_cant": "arbitrary strings and dictionaries", "anchors": ["necroassembler/utils.py: substitute_with_dict, is_valid_name"]}
{"id": "C06", "title": "Operand matching is exact positional, case-insensitive matching", "statement": "Instruction.match(p1..pk) is true iff the statement has exactly k operands and the i-th operand satisfies pattern i: None matches anything, a callable matches when it returns true, a string matches operands equal to it ignoring case (or single-character operands equal to one of its characters, as coded), a collection matches operands equal to one of its members ignoring case.", "quantifier": "all operand lists and all pattern lists", "why_tests_cant": "unbounded strings and pattern shapes", "anchors": ["necroassembler/statements.py: Instruction.match, Instruction.unbound_match", "necroassembler/utils.py: match"]}
{"id": "C07", "title": "Shape of tokenizer output", "statement": "Every statement produced from any source text has no empty token; an Instruction or Directive has at least one token; it is a Directive iff its first token starts with a dot; a Label has at most one token; every token is a quoted string/char, a single bracket, or a run of characters that contains no separator, bracket, quote, colon or comment character.", "quantifier": "all source texts", "why_tests_cant": "all strings over the whole alphabet", "anchors": ["necroassembler/tokenizer.py: Tokenizer.parse, _state_token, _token_spaces, _token_colon"]}
{"id": "C08", "title": "Tokenizing is line-compositional", "statement": "If tokenizing text a succeeds and leaves no string or character literal open, tokenizing a + newline + b yields the statements of a followed by the statements of b with line numbers shifted by the number of lines of a.", "quantifier": "all pairs of texts", "why_tests_cant": "pairs of arbitrary texts", "anchors": ["necroassembler/tokenizer.py: Tokenizer.parse"]}
{"id": "C09", "title": "Comments, blank lines and choice of separators never change the program", "statement": "Adding a comment (semicolon to end of line) or blanks at the end of a line, adding blank or comment-only lines, or replacing one separator (space, tab, comma) by any non-empty run of them, leaves the token lists of all statements unchanged.", "quantifier": "all source texts and all comment texts", "why_tests_cant": "arbitrary comment contents and positions", "anchors": ["necroassembler/tokenizer.py: _state_comment, _token_spaces"]}
{"id": "C10", "title": "Tokenizer round trip", "statement": "Rendering any list of well-formed statements (labels as name plus colon, tokens separated by spaces, strings quoted with quotes and backslashes escaped) and tokenizing the text gives back exactly those statements in order, one per line, with matching line numbers.", "quantifier": "all statement lists", "why_tests_cant": "all token contents, including escapes, at any length", "anchors": ["necroassembler/tokenizer.py: Tokenizer"]}
{"id": "C11", "title": "Statement line numbers are right", "statement": "The line recorded in a statement is one plus the number of newline characters that precede the character which terminated the statement.", "quantifier": "all source texts", "why_tests_cant": "all texts; error messages rely on it", "anchors": ["necroassembler/tokenizer.py: Tokenizer.parse"]}
{"id": "C12", "title": "An unterminated quote silently drops the rest of the file", "statement": "If a string or character literal is opened and never closed, the statement containing it and everything after it produce no statements and no error (so \"every non-comment line is either assembled or reported\" is false).", "quantifier": "all source texts ending inside a literal", "why_tests_cant": "arbitrary following text", "anchors": ["necroassembler/tokenizer.py: _state_string, _state_char, parse"]}
{"id": "C13", "title": "Parsed integers always fit the requested width", "statement": "Whenever parse_integer(token, n, signed) returns a number v: if signed is false 0 <= v < 2^n; if signed is true -2^(n-1) <= v < 2^n, and for decimal literals moreover v < 2^(n-1). Hence no operand is silently truncated.", "quantifier": "all tokens, widths, label tables, number dialects", "why_tests_cant": "arbitrary expressions mixing bases, labels and operators", "anchors": ["necroassembler/assembler.py: parse_integer, _internal_parse_integer, apply_math_formula"]}
{"id": "C14", "title": "Literal round trip in every base", "statement": "For every natural number v < 2^n and each hexadecimal, binary, octal and decimal prefix of the assembler, parse_integer of the prefix followed by the digits of v in that base returns v, as does the plain decimal numeral; suffix forms return v when the digits are all decimal digits.", "quantifier": "all naturals below 2^n, all widths, all prefixes of a dialect", "why_tests_cant": "unbounded naturals; four bases; prefix precedence", "anchors": ["necroassembler/assembler.py: _internal_parse_integer, parse_integer"]}
{"id": "C15", "title": "Negative decimals become two's complement or are rejected", "statement": "For k >= 1, parse_integer of \"-k\" with width n unsigned returns 2^n - k when k <= 2^(n-1) and raises NotInBitRange otherwise; signed returns -k when k <= 2^(n-1) and raises NotInBitRange otherwise; a non-decimal literal whose formula gives a negative value raises NegativeSignNotAllowed.", "quantifier": "all k, all widths", "why_tests_cant": "unbounded k; the boundary differs per width", "anchors": ["necroassembler/assembler.py: parse_integer", "necroassembler/utils.py: in_bit_range_decimal"]}
{"id": "C16", "title": "Formulas evaluate strictly left to right", "statement": "The value of base op1 a1 op2 a2 ... is obtained by applying the operators from left to right with no precedence; an operator with no operand uses 1; \"/\" is floor division and a zero divisor is an error; \"&\" and \"|\" are bitwise on two's complement; an operand that is neither number nor defined label raises UnknownLabel naming it.", "quantifier": "all operator/operand lists and values", "why_tests_cant": "unbounded expressions", "anchors": ["necroassembler/assembler.py: apply_math_formula, _get_math_formula"]}
{"id": "C17", "title": "High and low byte prefixes", "statement": "k \">\" prefixes give floor(v / 256^k); k \"<\" prefixes give v mod 256^k.", "quantifier": "all integers v (negative included), all k", "why_tests_cant": "unbounded k and v", "anchors": ["necroassembler/assembler.py: apply_math_formula"]}
{"id": "C18", "title": "Expression evaluation always terminates at depth two", "statement": "Evaluating any token needs at most one level of nested operand evaluation, so it never recurses without bound.", "quantifier": "all tokens and label tables", "why_tests_cant": "termination is a property of all inputs", "anchors": ["necroassembler/assembler.py: parse_integer, apply_math_formula, get_label_absolute_address_by_name"]}
{"id": "C19", "title": "Assembled output is append-only", "statement": "Assembling any statement or any source, successful or failing, never alters or removes bytes emitted earlier: the old output is a prefix of the new one (base assembler, no platform header directives).", "quantifier": "all programs, all starting states, success and failure", "why_tests_cant": "all histories of statements", "anchors": ["necroassembler/assembler.py: assemble, append_assembled_bytes, change_org", "necroassembler/statements.py: assemble"]}
{"id": "C20", "title": "Program counter advances by the bytes emitted", "statement": "An instruction or data directive that appends k bytes advances pc by exactly k and leaves the current origin alone; pc is never negative.", "quantifier": "all statements other than org/section/ram and all states", "why_tests_cant": "all histories", "anchors": ["necroassembler/assembler.py: append_assembled_bytes, pc"]}
{"id": "C21", "title": "Labels are write-once, well-formed and equal to the pc at definition", "statement": "Executing a label statement outside a macro either binds the name to the current pc (and current section) leaving all other state unchanged, or raises and changes nothing. Once defined, a label is never changed or removed by any later statement. Every defined label is made of name characters and does not parse as a number, and no label is defined twice.", "quantifier": "all programs and histories", "why_tests_cant": "all histories", "anchors": ["necroassembler/statements.py: Label.assemble"]}
{"id": "C22", "title": "Data directives emit exactly the declared data", "statement": "db/dw/dd with arguments a1..ak emit, in order, 1/2/4 bytes per numeric argument holding the value in the assembler's endianness, the characters for string arguments (ASCII, UTF-16 with BOM, UTF-32 with BOM), and a zero placeholder of the same size with a relocation at that exact offset for a label.", "quantifier": "all argument lists and values", "why_tests_cant": "all argument lists", "anchors": ["necroassembler/assembler.py: directive_db, directive_dw, directive_dd"]}
{"id": "C23", "title": "Padding directives", "statement": ".fill n v emits n copies of v; .align n makes pc a multiple of n using fewer than n fill bytes; .ram n advances pc by n emitting nothing; .goto/.upto accept exactly when the target is not below the output size, and reach the target pc / region offset when the pc is not beyond it.", "quantifier": "all sizes and states", "why_tests_cant": "all states and sizes", "anchors": ["necroassembler/assembler.py: directive_fill, directive_align, directive_ram, directive_goto, directive_upto"]}
{"id": "C24", "title": "Repeat blocks", "statement": "A repeat block of count n whose body emitted bytes B outputs B exactly n times in a row; nested repeats are rejected; label references inside the block are relocated only in the first copy.", "quantifier": "all bodies and counts", "why_tests_cant": "all bodies and counts", "anchors": ["necroassembler/assembler.py: directive_repeat, directive_end_repeat"]}
{"id": "C25", "title": "Origin changes: acceptance, fill and overlap detection", "statement": "change_org(start,end) raises AddressOverlap iff end is positive and below start, or the previous region is bounded and start is below the previous pc or does not lie above the previous region start; otherwise the output grows by exactly the bytes needed to reach min(start, previous end + 1) (none if already reached) and pc becomes start.", "quantifier": "all states and targets", "why_tests_cant": "all combinations of previous and new regions", "anchors": ["necroassembler/assembler.py: change_org, directive_org"]}
{"id": "C26", "title": "Bounded regions occupy exactly their size in the file", "statement": "If a program is a sequence of contiguous bounded regions, the file offset of each region start plus (address - region start) is the file offset of that address; at the end of assembly a bounded region is filled to its inclusive end (except when exactly one byte is missing, where the code leaves it unfilled).", "quantifier": "all region sequences and contents", "why_tests_cant": "all region contents", "anchors": ["necroassembler/assembler.py: assemble, change_org"]}
{"id": "C27", "title": "Sections partition the output", "statement": "Section names are unique; sections appear in order; each section's offset is the output size at its start, and after assembling successfully each closed section ends where the next starts and the last ends at the end of the output.", "quantifier": "all programs", "why_tests_cant": "all histories of section/org/data statements", "anchors": ["necroassembler/assembler.py: directive_section, assemble"]}
{"id": "C28", "title": "Exports are unique and ordered", "statement": "The export list never contains duplicates, only grows at the end, and a repeated export is rejected without change.", "quantifier": "all programs", "why_tests_cant": "all histories", "anchors": ["necroassembler/assembler.py: directive_export"]}
{"id": "C29", "title": "Defines are substituted before use and cannot be redefined by name", "statement": "After \".define N V\" every later instruction statement, and the arguments of every later directive, have each identifier run N replaced by V before execution (label statements are not substituted); a second \".define N W\" binds V to W instead of redefining N.", "quantifier": "all names, values and later statements", "why_tests_cant": "all tokens and histories", "anchors": ["necroassembler/assembler.py: directive_define", "necroassembler/statements.py: Instruction.assemble, Directive.assemble"]}
{"id": "C30", "title": "Recording a macro emits nothing and assembles nothing", "statement": "Between .macro and .endmacro instruction statements only extend the macro body: output, pc, labels and relocations are untouched; labels are rejected; nested .macro is rejected.", "quantifier": "all bodies and states", "why_tests_cant": "all bodies", "anchors": ["necroassembler/statements.py: Instruction.assemble, Label.assemble", "necroassembler/assembler.py: macro_start, macro_end"]}
{"id": "C31", "title": "Macro invocation equals inlining", "statement": "Invoking a macro whose body does not re-enter it has the same effect as assembling its recorded body statements one by one with each parameter replaced by the corresponding argument; missing arguments are an error and extra ones are ignored.", "quantifier": "all macro bodies, parameters, arguments and states", "why_tests_cant": "all bodies and argument lists", "anchors": ["necroassembler/macros.py: Macro.assemble", "necroassembler/statements.py: Instruction.assemble"]}
{"id": "C32", "title": "Macro definitions survive use", "statement": "After a successful invocation the macro table is exactly what it was before, so the same macro can be invoked again with other arguments; after a failed one only the failing body statement may have been changed.", "quantifier": "all macro tables and invocations", "why_tests_cant": "all histories", "anchors": ["necroassembler/macros.py: Macro.assemble"]}
{"id": "C33", "title": "A failing instruction emits no bytes and surfaces as an assembler error", "statement": "If a CPU instruction handler fails in any way (no match, bad operand, range error, internal error), the output, pc, labels and sections are unchanged and the error raised is an assembler exception, never a raw Python error.", "quantifier": "all instructions, operands, states, handlers", "why_tests_cant": "all operand combinations", "anchors": ["necroassembler/statements.py: Instruction.assemble"]}
{"id": "C34", "title": "Assembling sources one after another equals assembling their concatenation", "statement": "When the first source closes its quotes and leaves no bounded region open, assembling a then b gives the same output, labels, relocations, pc as assembling a + newline + b.", "quantifier": "all pairs of sources", "why_tests_cant": "all pairs of programs", "anchors": ["necroassembler/assembler.py: assemble, assemble_file, main"]}
{"id": "C35", "title": "Include equals inlining", "statement": "A successful \".include f\" outside a bounded region and with no open section has the effect of the statements of f executed in place.", "quantifier": "all files and states", "why_tests_cant": "all file contents", "anchors": ["necroassembler/assembler.py: directive_include, assemble"]}
{"id": "C36", "title": "Linking touches only the relocation windows", "statement": "Linking never changes the length of the output and only changes bytes inside the windows [address, address+size) of recorded label references (base assembler, default linker, no ascii hooks).", "quantifier": "all outputs and relocation tables", "why_tests_cant": "all relocation tables", "anchors": ["necroassembler/assembler.py: _resolve_labels, link", "necroassembler/linker.py: Dummy"]}
{"id": "C37", "title": "Linked fields contain the label value", "statement": "After a successful link every label reference whose window was zero and is disjoint from the others holds the label's value (absolute, or relative to the recorded start) in the assembler's endianness; references recorded over opcode bits leave those bits intact.", "quantifier": "all relocation tables and label tables", "why_tests_cant": "all layouts", "anchors": ["necroassembler/assembler.py: _resolve_labels"]}
{"id": "C38", "title": "Link errors are exact", "statement": "Linking fails with UnknownLabel iff some reference names an undefined label, with AlignmentError iff a target is misaligned, with NotInBitRange iff a value does not fit its declared width; if none of these hold and the windows lie inside the output linking succeeds.", "quantifier": "all relocation and label tables", "why_tests_cant": "all tables", "anchors": ["necroassembler/assembler.py: _resolve_labels", "necroassembler/linker.py: Dummy.resolve_unknown_symbol"]}
{"id": "C39", "title": "Linking is order independent and idempotent", "statement": "The linked bytes do not depend on the order in which label references were recorded, and linking the result again with the default linker changes nothing.", "quantifier": "all permutations of the relocation table", "why_tests_cant": "permutations", "anchors": ["necroassembler/assembler.py: _resolve_labels"]}
{"id": "C40", "title": "Relative references reach their target", "statement": "For a resolved pc-relative reference, recorded start + stored signed displacement = target address, and the displacement fits the signed width.", "quantifier": "all starts, targets and widths", "why_tests_cant": "boundary at both ends of every width", "anchors": ["necroassembler/assembler.py: _resolve_labels, get_label_relative_address_by_name"]}
{"id": "C41", "title": "Forward and backward references give the same bytes", "statement": "A data reference to a label yields the same linked bytes whether the label is defined before or after the reference, given the same final address. The same holds for an accepted instruction or macro call on every processor but the 6502, which takes the short form for a label on the zero page only if the label is already defined.", "quantifier": "all programs", "why_tests_cant": "label position ranges over all histories", "anchors": ["necroassembler/assembler.py: parse_integer_or_label, _resolve_labels"]}
{"id": "C42", "title": "ASCII number relocations write the decimal digits", "statement": "db_to_ascii/dw_to_ascii of a label whose address has at most 3/5 digits leaves the zero-padded decimal numeral of the address in its window and changes nothing else.", "quantifier": "all addresses", "why_tests_cant": "all addresses", "anchors": ["necroassembler/assembler.py: directive_db_to_ascii, directive_dw_to_ascii"]}
{"id": "C43", "title": "ELF output parses back", "statement": "Reading the produced file with an independent ELF reader (32/64 bit, both endiannesses) finds the magic and class, the section header table at header_size with sections+4 entries, every section header pointing at exactly that section's bytes, names and symbol names resolving through the string tables, and one symbol per exported defined label with its value and section index.", "quantifier": "all section, label and export tables and all code", "why_tests_cant": "all tables and sizes; offsets must add up for every combination", "anchors": ["necroassembler/linker.py: ELF.__init__, ELF._build_section, ELF.link"]}
{"id": "C44", "title": "Game Boy header checksum validates", "statement": "After linking, the boot ROM check holds: the fold x = x - byte - 1 over 0x134..0x14C equals the byte at 0x14D; the only bytes changed by the fix are 0x14D..0x14F.", "quantifier": "all ROM images of at least 0x150 bytes", "why_tests_cant": "all images", "anchors": ["necroassembler/platforms/gameboy.py: AssemblerGameboy._fix"]}
{"id": "C45", "title": "Game Boy global checksum", "statement": "If bytes 0x14E and 0x14F were zero, after linking the big-endian word there equals the sum of all other bytes modulo 2^16; if they were non-zero it need not.", "quantifier": "all ROM images", "why_tests_cant": "all images", "anchors": ["necroassembler/platforms/gameboy.py: AssemblerGameboy._fix"]}
{"id": "C46", "title": "Tile conversion is lossless", "statement": "For every 8x8 cell with palette indices in range, decoding the produced planes gives back the pixels (Game Boy 2bpp interleaved, NES 2bpp planar, Master System 4bpp); an out of range index is rejected.", "quantifier": "all images", "why_tests_cant": "4^64 tiles", "anchors": ["necroassembler/platforms/gameboy.py: _build_tiles", "necroassembler/platforms/nes.py: _build_chr_pattern_table", "necroassembler/platforms/sms.py: _build_tiles"]}
{"id": "C47", "title": "GBA and Genesis checksums", "statement": "The GBA complement byte makes the sum of bytes 0xA0..0xBD plus 0x19 zero modulo 256; the Genesis checksum word equals the sum of the big-endian words from 0x200 modulo 2^16 and fixing it is idempotent.", "quantifier": "all ROM images long enough", "why_tests_cant": "all images", "anchors": ["necroassembler/platforms/gba.py: main", "necroassembler/platforms/genesis.py: main"]}
{"id": "C48", "title": "PSX executable layout", "statement": "The output file is 2048 bytes of header followed by the code padded with zeros to a multiple of 2048; the size field equals the padded size.", "quantifier": "all code sizes", "why_tests_cant": "all sizes", "anchors": ["necroassembler/platforms/psx.py: main"]}
{"id": "C49", "title": "6502 encodings decode uniquely", "statement": "Every mnemonic and addressing mode accepted by the 6502 assembler emits an opcode that determines that mnemonic and mode: no two (mnemonic, mode) pairs share an opcode, and the encoding length equals one plus the operand size of the mode.", "quantifier": "the whole instruction table and all operand values", "why_tests_cant": "operand values are unbounded; the table is large", "anchors": ["necroassembler/cpu/mos6502.py: AssemblerMOS6502"]}
{"id": "C50", "title": "6502 zero page selection", "statement": "For a numeric operand below 0x100 the zero-page form is chosen iff the instruction has one, otherwise the absolute form; operand bytes hold the operand; an operand above 0xFFFF is rejected.", "quantifier": "all operands and all instructions", "why_tests_cant": "all operands", "anchors": ["necroassembler/cpu/mos6502.py: _manage_address"]}
{"id": "C51", "title": "6502 branches reach the label or are rejected", "statement": "A branch to a label at distance d from the following instruction links to displacement byte d for -128 <= d <= 127 and is rejected otherwise.", "quantifier": "all programs with a branch, all distances", "why_tests_cant": "all layouts", "anchors": ["necroassembler/cpu/mos6502.py: _manage_branching", "necroassembler/assembler.py: _resolve_labels"]}
{"id": "C52", "title": "Game Boy cartridge header", "statement": "Outside bounded regions .cartridge succeeds exactly when 256 bytes have been output and puts the entry jump and the logo at 0x100; every .cartridge_* field statement needs that header, changes only the bytes of its own field (text in ascii and numbers 0..255, never more than the field holds) and keeps the header and checksum bytes.", "quantifier": "all programs, arguments and previous outputs", "why_tests_cant": "arguments and previous output are unbounded", "anchors": ["necroassembler/platforms/gameboy.py: _generate_cartridge_header, _cartridge_fill", "necroassembler/assembler.py: parse_bytes_or_ascii"]}
{"id": "C53", "title": "NES cartridge header", "statement": "The NES .cartridge statement is accepted exactly at the start of the output and writes an iNES header for two program banks; .cartridge_prg_roms and .cartridge_chr_roms change only the bytes at offsets 5 and 6, so that for an iNES reader the program bank count never changes and .cartridge_prg_roms sets the character bank count.", "quantifier": "all programs and arguments", "why_tests_cant": "arguments and previous output are unbounded", "anchors": ["necroassembler/platforms/nes.py: _generate_cartridge_header, _cartridge_fill"]}
{"id": "C54", "title": "Recorded references are kept", "statement": "Once an instruction or data item has emitted bytes with a reference to a label, nothing assembled later, successfully or not, changes, removes or replaces that reference before linking; at most one reference exists per output position.", "quantifier": "all states, all later sources and statements", "why_tests_cant": "histories are unbounded", "anchors": ["necroassembler/assembler.py: add_label_translation", "necroassembler/assembler.py: assemble"]}
{"id": "C55", "title": "MIPS encodings decode back", "statement": "Every accepted MIPS line (other than sltu, sltiu, jalr and the non-MIPS mnemonics lhi, llo, trap, whose encodings are wrong) assembles to a 4-byte word which the MIPS manual decodes to the mnemonic, registers and operand values written, in either byte order; conversely every word that decodes to a supported instruction is the encoding of some line. div, divu, mult, multu, nor, or, sub, subu and xor never assemble.", "quantifier": "all lines, all 2^32 words, both byte orders", "why_tests_cant": "2^32 words and unbounded operand texts", "anchors": ["necroassembler/cpu/mips32.py: AssemblerMIPS32"]}
{"id": "C56", "title": "MIPS branches reach the label or are rejected", "statement": "In a linked program a branch to a label decodes to that branch with an offset field such that the address of the delay slot plus four times the signed offset is the address of the label rounded down to a whole number of instructions from the branch; a label outside the 18-bit range is rejected and one inside it is accepted.", "quantifier": "all programs with a branch, all layouts, both byte orders", "why_tests_cant": "all layouts", "anchors": ["necroassembler/cpu/mips32.py: _rel_label", "necroassembler/assembler.py: _resolve_labels"]}
{"id": "C57", "title": "MIPS jumps and immediates hold the label address", "statement": "In a linked program j and jal hold bits 27..2 of the address of the label, so they reach a word-aligned label in the 256 MiB region of the delay slot; lui holds the high half of the address; a 16-bit immediate that is a label holds the whole address, and linking fails when it does not fit.", "quantifier": "all programs, all addresses, both byte orders", "why_tests_cant": "all addresses", "anchors": ["necroassembler/cpu/mips32.py: _abs_label, _immediate32, _immediate_signed", "necroassembler/assembler.py: _resolve_labels"]}
{"id": "C58", "title": "Game Boy encodings decode back", "statement": "Every accepted Game Boy line, apart from four listed families of oddly parsed lines, assembles to bytes which the opcode map decodes to the mnemonic, operands and operand value written; conversely every byte sequence that is an instruction of the processor, with every operand value, is the encoding of some accepted line.", "quantifier": "all lines, all instructions and operand values", "why_tests_cant": "unbounded operand texts; the whole opcode map", "anchors": ["necroassembler/cpu/lr35902.py: AssemblerLR35902"]}
{"id": "C59", "title": "Game Boy references hold the label", "statement": "In a linked program an instruction with a label as operand decodes to the instruction written, and its operand is the address of the label, or the distance of the label from the next instruction where the operand is signed.", "quantifier": "all programs with such an instruction, all layouts", "why_tests_cant": "all layouts", "anchors": ["necroassembler/cpu/lr35902.py: _data8, _rel8, _data16", "necroassembler/assembler.py: _resolve_labels"]}
{"id": "C60", "title": "Game Boy references out of range are rejected", "statement": "An instruction whose operand field cannot hold the address or distance of its label makes linking fail; if it can, and nothing is wrong with the other references, linking succeeds.", "quantifier": "all programs with such an instruction, all layouts", "why_tests_cant": "all layouts", "anchors": ["necroassembler/cpu/lr35902.py: _data8, _rel8, _data16", "necroassembler/assembler.py: _resolve_labels"]}
{"id": "C61", "title": "Thumb encodings decode back", "statement": "Every accepted Thumb line other than BL, apart from the listed families of lines whose code is wrong, assembles to two bytes which the ARM7TDMI data sheet decodes to the mnemonic, registers and operand values written; conversely every halfword that decodes to an instruction, other than the listed ones that cannot be written, is the encoding of each plain text of that instruction, in any case.", "quantifier": "all lines, all 2^16 halfwords, all texts of each instruction", "why_tests_cant": "unbounded operand texts; the whole instruction set", "anchors": ["necroassembler/cpu/thumb.py: AssemblerThumb"]}
{"id": "C62", "title": "Thumb branches reach the label or are rejected", "statement": "In a linked program B and the fourteen conditional branches to a label decode to that branch with a distance such that the address of the branch plus 4 plus the distance is the address of the label (one less when the branch is at an odd address); a label outside the range of the branch is rejected, and one inside it, at an even address, is accepted.", "quantifier": "all programs with a branch, all layouts", "why_tests_cant": "all layouts", "anchors": ["necroassembler/cpu/thumb.py: _offset, _b, _conditional_branch", "necroassembler/assembler.py: _resolve_labels"]}
{"id": "C63", "title": "Thumb calls", "statement": "BL with a distance other than 0 assembles to two halfwords which decode to a call of that distance, and every such call can be written; in a linked program BL of a label decodes to a call whose address plus 4 plus the distance is the address of the label; labels out of range are rejected and those in range, at even addresses, accepted.", "quantifier": "all distances, all programs with a call, all layouts", "why_tests_cant": "the distance is split over two references; all layouts", "anchors": ["necroassembler/cpu/thumb.py: _bl", "necroassembler/assembler.py: _resolve_labels"]}
{"id": "C64", "title": "Thumb loads from labels", "statement": "In a linked program LDR rd,[pc,#label] with a label that is not behind the program counter decodes to a load of that register with an offset such that the program counter (address plus 4, rounded down to a multiple of 4) plus the offset is the address of the label. A label behind is accepted too and the load then goes 1024 bytes too far.", "quantifier": "all programs with such a load, all layouts", "why_tests_cant": "all layouts", "anchors": ["necroassembler/cpu/thumb.py: _word8, _ldr", "necroassembler/assembler.py: _resolve_labels"]}
{"id": "C65", "title": "68000 encodings decode back", "statement": "Every accepted 68000 line without labels, apart from the listed families of oddly parsed lines, assembles to bytes which the 68000 reference manual decodes to the mnemonic, operation size, addressing modes, registers and operand values written; conversely every byte sequence that decodes to a supported instruction is the encoding of each plain text of that instruction, apart from the same families and from DBT and DBF, which are refused; BRA and BSR do not exist.", "quantifier": "all lines, all byte sequences, all texts of each instruction", "why_tests_cant": "unbounded operand texts; twelve addressing modes in two operands", "anchors": ["necroassembler/cpu/mc68000.py: AssemblerMC68000"]}
{"id": "C66", "title": "68000 labels in operands", "statement": "In a linked program the bytes of a 68000 line decode to the instruction written, every label in its operands (up to two of them) standing for its address, or for its distance from the address of the instruction plus 2 where it is relative to the program counter; addresses fit their fields as unsigned numbers and distances as signed ones.", "quantifier": "all lines with any operands, all programs and layouts", "why_tests_cant": "two references per instruction, all layouts", "anchors": ["necroassembler/cpu/mc68000.py: AssemblerMC68000", "necroassembler/assembler.py: _resolve_labels"]}
{"id": "C67", "title": "68000 branches reach the label or are rejected", "statement": "In a linked program the conditional branches (with 8 and 16 bit distances) and decrement-and-branch instructions to a label decode to that branch with a distance such that the address of the branch plus 2 plus the distance is the address of the label (except a short branch to the next instruction); a label out of range or at an odd address is rejected; one in range at an even address is accepted.", "quantifier": "all programs with a branch, all layouts", "why_tests_cant": "all layouts", "anchors": ["necroassembler/cpu/mc68000.py: _bcc, _dbcc", "necroassembler/assembler.py: _resolve_labels"]}
{"id": "C68", "title": "8086 encodings decode back", "statement": "Every accepted 8086 line without labels, apart from the listed families of lines whose code is wrong, assembles to bytes which the 8086 opcode map decodes to the mnemonic, registers, memory operands and numbers written; conversely every form of the opcode map the assembler knows accepts all operands of that form, in any case, apart from two forms of MOV.", "quantifier": "all lines, all opcodes, all texts of the operands", "why_tests_cant": "unbounded operand texts; 256 opcodes with ModR/M bytes", "anchors": ["necroassembler/cpu/intel8086.py: AssemblerIntel8086"]}
{"id": "C69", "title": "8086 labels in operands", "statement": "In a linked program the bytes of an 8086 line with a label decode to the instruction written, the label standing for its address or, in jumps, loops and calls, for its distance from the next instruction, apart from labels used as displacements or as the pointer of LES and LDS, where linking damages the byte that names the registers; a jump to a label out of range is rejected, and one in range is accepted if nothing is wrong with the other references.", "quantifier": "all lines with a label, all programs and layouts", "why_tests_cant": "all layouts; a refused form of the line may leave its own reference behind", "anchors": ["necroassembler/cpu/intel8086.py: AssemblerIntel8086", "necroassembler/assembler.py: _resolve_labels"]}
{"id": "C70", "title": "Z80 encodings decode back", "statement": "Every accepted Z80 line without labels, apart from LD (IX+d),n and LD (IY+d),n (which lose their displacement) and a form of IN no source line can contain, assembles to bytes which the Z80 opcode map, with all its prefixes, decodes to the mnemonic, registers, conditions, displacement and number written.", "quantifier": "all lines", "why_tests_cant": "unbounded operand texts; 1268 rows with five kinds of prefixes", "anchors": ["necroassembler/cpu/z80.py: Z80OpCode, AssemblerZ80"]}
{"id": "C71", "title": "Z80 instruction set is complete", "statement": "For every instruction of the Z80 opcode map, undocumented ones included, every line of tokens that writes it with numbers, in any case and with any numeral, assembles to bytes that decode to exactly that instruction; the exceptions are LD (IX+d),n, LD (IX+d),A, LD A,(IX+d), the same with IY, and IN F,(C), and these are never assembled.", "quantifier": "all instructions, all ways to write them", "why_tests_cant": "the first matching row of an ordered table decides, for every text of the operands", "anchors": ["necroassembler/cpu/z80.py: Z80OpCode.__call__, OPCODES_TABLE"]}
{"id": "C72", "title": "Z80 labels in operands", "statement": "In a linked program the bytes of a Z80 line with a label decode to the instruction written, the label standing for its address or, in JR and DJNZ, for its distance from the next instruction; a line whose operand cannot hold that value is rejected, and one whose operand can is accepted if nothing is wrong with the other references.", "quantifier": "all lines with a label, all programs and layouts", "why_tests_cant": "all layouts and positions of the label", "anchors": ["necroassembler/cpu/z80.py: Z80OpCode", "necroassembler/assembler.py: _resolve_labels"]}
{"id": "C73", "title": "PowerPC encodings decode back", "statement": "Every accepted PowerPC line without labels, apart from bctr and bctrl with at most one operand and mftb with one, assembles to one word which the PowerPC instruction set decodes to the instruction the line writes, simplified mnemonics included, and a line writes at most one instruction.", "quantifier": "all lines", "why_tests_cant": "unbounded operand texts; over a thousand mnemonics in one table", "anchors": ["necroassembler/cpu/powerpc.py: Opcode, AssemblerPowerPC"]}
{"id": "C74", "title": "PowerPC instructions are accepted", "statement": "For every instruction and simplified mnemonic of the specification, other than the listed ones, every line that writes it with numbers and with general registers other than r0, in any case and with any numeral, assembles to a word that decodes to exactly that instruction; r0 is always refused as a general register, and the listed mnemonics, though in the table, are never assembled.", "quantifier": "all instructions, all ways to write them", "why_tests_cant": "the first matching row of an ordered table decides, for every text of the operands", "anchors": ["necroassembler/cpu/powerpc.py: Opcode.__call__, OPCODES"]}
{"id": "C75", "title": "PowerPC labels in operands", "statement": "In a linked program the word of a PowerPC line with one label decodes to the instruction written, the label standing for its address or, in branches, for the number of words to it, so that a branch other than at address 0 leads to the label when that is a whole number of words away; a line whose operand cannot hold the value is rejected, and one whose operand can is accepted if nothing is wrong with the other references.", "quantifier": "all lines with a label, all programs and layouts", "why_tests_cant": "all layouts and positions of the label", "anchors": ["necroassembler/cpu/powerpc.py: _pcrel, _baddr, _si, _hi, _ui, _num", "necroassembler/assembler.py: _resolve_labels"]}
{"id": "C76", "title": "Console images contain the code of the processor", "statement": "In the image written for the Game Boy, NES, Master System, Game Boy Advance, Genesis and PlayStation, an instruction assembled behind the header is still the instruction written, with the addresses of its labels, whatever is assembled after it (header directives included) and although the checksum is filled in afterwards; the image passes the check of the console; a program with a reference that does not fit gives no image.", "quantifier": "all programs, all positions outside the checksum bytes, all layouts", "why_tests_cant": "header directives write into bytes already assembled, in any order with the code; checksums are patched after linking", "anchors": ["necroassembler/platforms/gameboy.py: AssemblerGameboy", "necroassembler/platforms/nes.py: AssemblerNES", "necroassembler/platforms/sms.py: AssemblerSMS", "necroassembler/platforms/gba.py: main", "necroassembler/platforms/genesis.py: main", "necroassembler/platforms/psx.py: main"]}
{"id": "C77", "title": "Included files become data, byte for byte", "statement": "Including a binary file adds exactly its bytes to the output; including a csv file adds its cells row by row, each as one byte (or two bytes, least significant first, on every processor) holding its value; including a json list adds one byte per item. The inclusion succeeds exactly when the file (and list) exists and every item is a number that fits; otherwise nothing at all is added. Nothing else changes but the location counter.", "quantifier": "all files, all processors, all states", "why_tests_cant": "files of any length and content; the failing item may come after any number of good ones", "anchors": ["necroassembler/assembler.py: directive_incbin", "necroassembler/assembler.py: directive_inccsv", "necroassembler/assembler.py: directive_inccsv_le16", "necroassembler/assembler.py: directive_incjson"]}
{"id": "C78", "title": "x86 encodings decode back", "statement": "In 16-, 32- and 64-bit mode and for 16- and 32-bit operands, every line that writes an instruction of the specified opcode map (arithmetic, moves, conditional moves, bit scans, LEA, stack, jumps, calls, control registers and BSWAP, other than CMP, TEST, XCHG, BT, XADD and IMUL), in any case and with any numeral, is accepted and its bytes are exactly that instruction with those operands in that mode, operand-size prefix included; every one-byte instruction without operands but RETN is that byte in the modes where it has that name; a repeat prefix adds its byte before the code of the instruction that follows. Memory operands are covered in 16-bit mode.", "quantifier": "all lines, all modes, all operand texts", "why_tests_cant": "over a thousand rows in an ordered table; the first row whose argument functions accept the operands decides, and three modes share it", "anchors": ["necroassembler/cpu/x86.py: X86OpCode, AssemblerX86, OPCODES_TABLE"]}
{"id": "C79", "title": "The mode of the x86 assembler", "statement": "The bits directive accepts exactly 16, 32 and 64, changes only the mode, and leaves everything unchanged when it fails; a new assembler is in 64-bit mode; whatever has been assembled, successfully or not, the mode is one of the three.", "quantifier": "all sources, all states", "why_tests_cant": "holds after any sequence of sources, including failed ones", "anchors": ["necroassembler/cpu/x86.py: AssemblerX86.directive_bits"]}
{"id": "C80", "title": "Jumps to labels in linked x86 programs", "statement": "A jump or call to a label is assembled in every mode. After linking it is, for the processor, a jump to the address of the label: always in 16-bit mode, and in 32- and 64-bit mode if the label is not before the next instruction. It is linked exactly if the label is less than 32 K away. (In 32- and 64-bit mode jumps back lead 65536 bytes too far: every one of them.)", "quantifier": "all jumps and calls of the opcode map, all their mnemonics, all modes, programs and positions of labels", "why_tests_cant": "where a jump leads depends on the distance, the mode and what else is linked; the backward jumps in the tests are never decoded", "anchors": ["necroassembler/cpu/x86.py: _Jvds", "necroassembler/assembler.py: Assembler.link"]}
{"id": "C81", "title": "Labels as data of x86 instructions", "statement": "An instruction with a register and data of 16 or 32 bits, with a label as the data, is assembled in every mode; after linking it is, for the processor, that instruction with the address of the label as its data. It is linked exactly if the address fits the data.", "quantifier": "all such instructions (but CMP and TEST, which C78 excludes), registers, sizes, modes, programs and addresses", "why_tests_cant": "the position of the data depends on the prefix, which depends on the mode and the size", "anchors": ["necroassembler/cpu/x86.py: _Ivds", "necroassembler/cpu/x86.py: _Ivqp", "necroassembler/assembler.py: Assembler.link"]}
{"id": "C82", "title": "Object files and names defined elsewhere", "statement": "With the ELF linker a program that links by itself gives the same bytes, each at the same distance from the start of its section in the object file. A name the program does not define is not an error: the field of such a reference keeps its assembled zeros, and every other byte is what linking the program without these references gives; linking fails exactly when something other than an undefined name is wrong.", "quantifier": "all programs, processors, references", "why_tests_cant": "which references are undefined, and what the others need, depends on the whole program", "anchors": ["necroassembler/linker.py: ELF.resolve_unknown_symbol", "necroassembler/assembler.py: Assembler.link", "necroassembler/assembler.py: Assembler._resolve_labels"]}
{"id": "C83", "title": "References stay inside their own line", "statement": "In every program that assembles, for every processor, each reference left to the linker lies inside the bytes of the line that recorded it. So linking never changes bytes of another line, never fails because a reference points past the end of the output, and the bytes of a line depend, besides what was assembled, on the references of that line only.", "quantifier": "all processors, sources, lines, operands, including lines for which several rows of an instruction table are tried", "why_tests_cant": "a reference that sticks out shows only where the next line or the end of the program happens to be", "anchors": ["necroassembler/assembler.py: Assembler.add_relocation", "necroassembler/assembler.py: Assembler.parse_integer_or_label", "necroassembler/assembler.py: Assembler._resolve_labels", "necroassembler/cpu"]}
{"id": "C84", "title": "NES symbol files list the labels", "statement": "When the NES program succeeds in building a ROM it writes two name lists next to it. Reading the first back gives exactly the labels of the program with addresses from $8000 to $FFFF, reading the second exactly those from $0000 to $07FF, each label once, in the order of definition, with its address. The lists never make a build fail that would otherwise succeed.", "quantifier": "every source text, every set of included files and every set of labels", "why_tests_cant": "A test compares one symbol file; that no label name or address can spoil the format, drop a line or raise needs all label tables an assembly can end with.", "anchors": ["necroassembler/platforms/nes.py:main", "necroassembler/assembler.py:Assembler.get_label_absolute_address_by_name"]}
{"id": "C85", "title": "Every line of a program that builds is in the output as written", "statement": "If the sources of a program assemble, one after the other, and link, then for each instruction line they come to, in a source, an included file or the body of a macro, the bytes at the position where the line was assembled decode, by the manual of the processor, to the instruction the line writes, with each label standing for the address it has at the end of the program; branches reach their label. This needs nothing about the rest of the program except that it builds and writes no label as ascii text. For NES, Master System and Game Boy it holds of the lines behind the header.", "quantifier": "all source texts, included files, lines, labels before and after the line, processors and consoles", "why_tests_cant": "whether the rest of a program disturbs a line depends on everything assembled after it and on every other reference; a test has one program", "anchors": ["necroassembler/assembler.py: Assembler.assemble", "necroassembler/assembler.py: Assembler.link", "necroassembler/assembler.py: Assembler._resolve_labels", "necroassembler/cpu", "necroassembler/platforms"]}
{"id": "C86", "title": "The programs write their outputs and nothing else", "statement": "Running one of the command line programs changes no file except the outputs its arguments name. If it fails, for whatever reason in the source, the old outputs are still there. If it succeeds, the output is the linked program (with the checksum, header or object file format of the platform). Except: called with a source and no destination, the programs that take any number of sources overwrite the source with the output of an empty program; and the NES program replaces the ROM before it finds that a name list cannot be opened.", "quantifier": "all programs of the package, argument lists, file systems, sources", "why_tests_cant": "a test looks at the file it expects; that no other file changes and that no error comes after opening the output needs every path through the program", "anchors": ["necroassembler/assembler.py: Assembler.main", "necroassembler/assembler.py: Assembler.save", "necroassembler/platforms/gba.py: main", "necroassembler/platforms/genesis.py: main", "necroassembler/platforms/psx.py: main", "necroassembler/platforms/nes.py: main", "necroassembler/platforms/i386_elf32.py: main"]}
{"id": "C87", "title": "A build depends only on the files it reads", "statement": "If a build succeeds, adding files to the file system does not change its result. So what the outputs held before a run does not matter, and running a program again writes the same contents, unless the program reads its own output.", "quantifier": "all programs of the package, file systems, sources with include, incbin, inccsv, incjson and tile directives", "why_tests_cant": "that nothing else is consulted is a statement about all file systems", "anchors": ["necroassembler/assembler.py: Assembler.directive_include", "necroassembler/assembler.py: Assembler.directive_incbin", "necroassembler/assembler.py: Assembler.main", "necroassembler/platforms"]}
{"id": "C88", "title": "From the sources on disk to the output on disk", "statement": "When one of the command line programs that write code succeeds, every instruction line it came to, in any of the source files, in the files they include and in macros, is in the output file at the position where it was assembled (behind the header of a PlayStation executable), as the instruction the line writes. Only the checksum bytes of GBA, Genesis and Game Boy are changed afterwards.", "quantifier": "all programs that write code, argument lists, file systems, sources, lines", "why_tests_cant": "the statement spans reading the arguments and files, assembling, linking, the fix-ups of the console and writing the file; tests of the parts do not give it for the whole", "anchors": ["necroassembler/assembler.py: Assembler.main", "necroassembler/assembler.py: Assembler.assemble", "necroassembler/assembler.py: Assembler.directive_include", "necroassembler/macros.py: Macro.assemble", "necroassembler/platforms/genesis.py: main", "necroassembler/platforms/gba.py: main", "necroassembler/platforms/psx.py: main", "necroassembler/platforms/gameboy.py: GameboyAssembler"]}
{"id": "C89", "title": "From the sources on disk to the sections of the object file", "statement": "When one of the programs that write object files succeeds, every instruction line it came to in a section is in the object file: a reader of the file finds, in the section with that name, at the distance from its start at which the line was assembled, the bytes of the line. If all labels of the line are defined in the program, these decode to the instruction the line writes (with the limits of C75, C80, C81); bytes that belong to a name defined elsewhere, or to no name, are those of the assembled line.", "quantifier": "all object file programs, argument lists, file systems, sources, sections, lines, labels defined or not", "why_tests_cant": "the statement spans reading the files, assembling, sections being opened and closed, linking with undefined names, the layout of the object file and its header tables", "anchors": ["necroassembler/linker.py: ELF", "necroassembler/assembler.py: Assembler.directive_section", "necroassembler/assembler.py: Assembler.link", "necroassembler/platforms/i386_elf32.py: main", "necroassembler/platforms/ppc_elf32.py: main", "necroassembler/platforms/x86_64_elf64.py: main"]}
{"id": "C90", "title": "What an operand can contain, and Z80 instructions no program can contain", "statement": "Whatever sources, included files, definitions and macros a program consists of, a token of an instruction line it comes to contains a blank, a line end, a comma, a semicolon, a colon or a quote only if it contains two quotes. So no Z80 program contains EX AF,AF', an instruction that copies its result to a register (LD B,RLC (IX+d)) or IN F,(C), although all of these are in the table of the assembler, and the only lines that assemble to something else than they say are stores to an index register with a displacement.", "quantifier": "all programs of the package, all sources, included files, definitions, macros and lines", "why_tests_cant": "the tokens of a line come about through the tokenizer and any number of substitutions of definitions and macro parameters; that none of them ever gives a certain text cannot be tested", "anchors": ["necroassembler/tokenizer.py: Tokenizer", "necroassembler/utils.py: substitute_with_dict", "necroassembler/macros.py: Macro", "necroassembler/cpu/z80.py: AssemblerZ80"]}
{"id": "C91", "title": "The recursion limit decides whether a program is assembled, not to what", "statement": "A source, or a whole run of one of the programs of the package, that ends without hitting the recursion limit gives the same output, files and error under every higher limit, so two machines with different limits never give different outputs. Files that include each other and macros that call themselves are refused under every limit, with nothing assembled by the includes.", "quantifier": "all programs of the package, sources, files, states and recursion limits", "why_tests_cant": "a test runs with one recursion limit; that nesting depth never leaks into the output is about all limits and all nestings", "anchors": ["necroassembler/assembler.py: Assembler.assemble", "necroassembler/assembler.py: Assembler.directive_include", "necroassembler/macros.py: Macro.assemble", "necroassembler/statements.py: Instruction.assemble"]}
{"id": "C92", "title": "Upper and lower case in mnemonics and directives make no difference", "statement": "For all the programs of the package: a source in which mnemonics, names of called macros and names of directives are written in another mixture of upper and lower case is assembled to the same bytes, labels, sections, references and errors. Where the sources differ in an instruction, it must not be in the body of a macro being recorded (which keeps the words as written) and its first word must not be touched by a .define, whose names are case sensitive. Whole programs of several sources, with .define lines, macros and .include lines, are built to the same bytes, files and errors; the lines of macros may differ in case too if the programs with macros and definitions written out (C99) differ only in case.", "quantifier": "all programs of the package, sources, included files, states, statements and mixtures of case", "why_tests_cant": "a handler may look at the text of the mnemonic (the 68000 takes size and condition from it, x86 the operand size), so each of hundreds of mnemonics times all mixtures of case would have to be tried with all operands", "anchors": ["necroassembler/statements.py: Instruction.assemble", "necroassembler/statements.py: Directive.assemble", "necroassembler/assembler.py: Assembler.register_instruction", "necroassembler/assembler.py: Assembler.register_directive", "necroassembler/cpu", "necroassembler/platforms"]}
{"id": "C93", "title": "An error message names the right line of the right file", "statement": "For all the programs of the package: when the message of an error that stops the assembler names a place (\"at line N of F: words\"), F is a source or an included file, and the text of F has at line N a statement with these words, up to replacing defined names and parameters of macros; this also holds for macros defined in one file and called in another, and for macros in macros. An instruction that cannot be assembled is always named, with its own line and its words as they are after replacing the defined names; a directive or label is named for the errors that carry a place. Recording the places changes neither bytes nor errors.", "quantifier": "all programs of the package, sources, included files, macros, call sites and depths of nesting", "why_tests_cant": "statements of macros are rewritten in place for every call and put back, and are read in another file than the one being assembled, so the place depends on the whole history of definitions, calls and includes", "anchors": ["necroassembler/exceptions.py: AssemblerException", "necroassembler/statements.py: Statement.__str__", "necroassembler/statements.py: Instruction.assemble", "necroassembler/statements.py: Label.assemble", "necroassembler/statements.py: Directive.assemble", "necroassembler/macros.py: Macro.assemble", "necroassembler/assembler.py: Assembler.assemble"]}
{"id": "C94", "title": "Macros that are not called do not change a program", "statement": "For all the programs of the package: putting the definition of a macro anywhere into a source that assembles gives the same bytes, labels, sections, references, definitions and exports, if the name of the macro is not that of an instruction and no macro of that name has been defined before that point. A file that only defines such macros, named on the command line in front of the sources or included at the start of a source, leaves every file the program writes the same. (A macro with the name of an instruction takes its place.) The source may define macros of the same name itself afterwards.", "quantifier": "all programs of the package, sources, included files, macros, places in the source and libraries", "why_tests_cant": "that no directive, operand, reference or link step looks at the table of macros must hold for all sources, and a call that failed for want of a macro must not come to succeed unnoticed in a program that builds", "anchors": ["necroassembler/macros.py: Macro", "necroassembler/assembler.py: Assembler.directive_macro", "necroassembler/assembler.py: Assembler.directive_endmacro", "necroassembler/statements.py: Instruction.assemble", "necroassembler/assembler.py: Assembler.main"]}
{"id": "C95", "title": "A label nothing refers to does not change the output", "statement": "Putting a label anywhere where a label can be defined, into any source of a program that builds, leaves the bytes the same, if the program does not define a label of that name itself. Names of labels never change the meaning of operands that do not mention them, on any of the processors. For the programs that write these bytes to a file, a run writes the same file. (The NES program also lists its labels in symbol files, and object files may leave names to another linker, so there the statement is only about the bytes of the program.)", "quantifier": "all programs of the package, sources, places in the source, and names", "why_tests_cant": "a name could be taken for a register, a number or part of a formula by some operand of some processor, and the table of labels is read by every operand and by the linker", "anchors": ["necroassembler/assembler.py: Assembler.parse_integer_or_label", "necroassembler/assembler.py: Assembler.get_label_absolute_address_by_name", "necroassembler/assembler.py: Assembler._resolve_labels", "necroassembler/statements.py: Label.assemble"]}
{"id": "C96", "title": "`.log` and `.export` lines do not change the bytes", "statement": "Take a program that builds with one of the command-line tools, and change its sources and included files by leaving out `.export` lines and by adding or leaving out `.log` lines. The program still builds, with the same bytes, the same labels and the same sections. (`.export` lines cannot be added freely: a name that is exported twice is an error.)", "quantifier": "every tool, set of files, choice of lines to leave out or add, list of sources and depth of inclusion", "why_tests_cant": "The lines can stand anywhere, also in repeated blocks, in macros and in included files, and each of them could touch the state the other statements work on.", "anchors": ["necroassembler/assembler.py: directive_log, directive_export, assemble", "necroassembler/linker.py: Dummy.link"]}
{"id": "C97", "title": "Definitions that are not used do not change a program", "statement": "Take a program that builds with one of the command-line tools, and a name that does not occur as a whole word in any token of its files. A `.define` of that name, with any value, can be put in between any two statements of a source: the program still builds, with the same bytes. Names that only begin or end with the defined name are not affected.", "quantifier": "every tool, set of files, source, place in the source, name and value", "why_tests_cant": "Definitions are replaced inside of tokens, in every later statement of every later file, so whether a definition takes part in a program depends on all of its text.", "anchors": ["necroassembler/assembler.py: directive_define", "necroassembler/utils.py: substitute_with_dict", "necroassembler/statements.py: Instruction.assemble, Directive.assemble"]}
{"id": "C98", "title": "Definitions are abbreviations", "statement": "Take the sources of a program without macros and included files. Leave out the `.define` lines, and put each definition into the lines that follow it, in the same source and in the later ones, wherever its name stands as a whole word; the definitions of the tool are put in everywhere. The sources that come out give the same as the program: the same bytes or the same error, for every command-line tool. Running the tool on either leaves the same files on disk, object files and symbol files included. The sources that come out must not contain a name the tool defines, and every `.define` has a name and a value.", "quantifier": "every tool, list of sources, table of definitions built up by them and depth", "why_tests_cant": "Definitions reach from one source into the next, are replaced in the names and values of later definitions, in mnemonics and in operands of every directive, and are put in only once.", "anchors": ["necroassembler/assembler.py: directive_define, assemble", "necroassembler/utils.py: substitute_with_dict", "necroassembler/statements.py: Instruction.assemble, Directive.assemble"]}
{"id": "C99", "title": "Macros are abbreviations", "statement": "Take the sources of a program with definitions and macros, and the files they include. Leave out the `.define` lines and the macros, put each definition into the lines that follow it, and replace each line that calls a macro by the lines of the macro, with the arguments in place of the parameters; lines of a macro that call other macros are replaced in turn. Only instructions belong to a macro: a directive written inside one takes effect once, where it is written. Definitions and macros of an included file are used from there on; a file included in two places may have to be written out in two ways. The sources that come out give the same as the program: the same bytes or the same error, for every command-line tool. Running the tool on either leaves the same files on disk, object files and symbol files included. No macro calls itself, directly or through others, each call has at least as many arguments as the macro has parameters, and the sources that come out must not contain a name the tool defines.", "quantifier": "every tool, list of sources, table of definitions and of macros built up by them, and depth of nested calls", "why_tests_cant": "A macro is recorded once and run many times on stored lines that each run changes in place; calls nest, arguments are passed on from one macro to another, and macros and definitions reach from one source into the next.", "anchors": ["necroassembler/assembler.py: directive_macro, directive_endmacro, assemble", "necroassembler/utils.py: substitute_with_dict", "necroassembler/statements.py: Instruction.assemble"]}
{"id": "C100", "title": "Repeat blocks are abbreviations", "statement": "A program with a repeat block, and the program with the lines of the block written as many times as its count says, give the same: the same bytes or the same error, for every command-line tool, and running the tool on either leaves the same files on disk, object files included. The block may be anywhere in any source, after other sources, labels, sections and definitions, and the count may be a definition. Each line of the block gives the same bytes wherever it stands: it is a data directive with numbers and texts, or an instruction that is encoded without reference to a label and to the same bytes at every address. For lines that name a label the statement is false: the label is put in only the first time, and zeros are left in the copies.", "quantifier": "every tool, list of sources, position of the block, count, and lines of the block of the kind described", "why_tests_cant": "The block is assembled once and its output is copied, while the written-out lines are assembled again each time; what follows must find the same state in both programs.", "anchors": ["necroassembler/assembler.py: directive_repeat, directive_end_repeat, append_assembled_bytes, assemble"]}
{"id": "C101", "title": "Lines of data may be split", "statement": "Write the items of a line of data on several lines, in the same order, and use any of the directives for items of that size (`.db` or `.byte`, `.dw` or `.word`, `.dd`, `.dl` or `.dword`). This may be done with any lines of any sources of a program at once. The program gives the same as before: the same bytes or the same error, for every command-line tool, and running the tool on either leaves the same files on disk, object files and symbol files included.", "quantifier": "every tool, list of sources, choice of lines, ways to split them and names of the directives", "why_tests_cant": "The items may be numbers, texts, formulas, definitions and labels defined anywhere; splitting changes the line numbers of all that follows and the places where references are recorded must not move.", "anchors": ["necroassembler/assembler.py: directive_db, directive_dw, directive_dd, register_directives"]}
{"id": "C102", "title": "A program in several files is the program in one", "statement": "Put the sources of a program one after another into one file, and in place of each `.include` line the lines of the file it names, those of the files that one includes with them, and so on. The one file gives the same as the several: the same bytes or the same error, for every command-line tool, and running the tool on either leaves the same files on disk, object files and symbol files included. The name in an `.include` line may contain definitions made before it, in any of the files. Two things are asked of the program: no file but the last source ends in a region given an end by `.org`, since such a region is filled up where a file ends, and the files are not nested so deeply that the tool gives up. Without the first the statement is false.", "quantifier": "every tool, list of sources, tree of included files, definitions and macros, and depth of nesting the tool allows", "why_tests_cant": "Labels, sections, macros, definitions and unresolved references carry over from one file to the next, while the end of each file fills regions and closes the section; an included file is run by the assembler from inside the line that includes it.", "anchors": ["necroassembler/assembler.py: directive_include, assemble, assemble_file, main, directive_org"]}
{"id": "C103", "title": "Data is its bytes", "statement": "Replace lines of data that contain numbers and texts by other lines of data that stand for the same bytes: numbers in another base, numbers for the letters of a text, bytes for words, definitions or the numbers they stand for, on as many lines as one likes. This may be done at any number of places in any sources of a program at once, and the letter case of other lines may be changed with it. The program gives the same as before: the same bytes or the same error, for every command-line tool, and running the tool on either leaves the same files on disk, object files and symbol files included.", "quantifier": "every tool, list of sources, choice of lines, and lines of numbers and texts that stand for the same bytes", "why_tests_cant": "The lines may stand anywhere, after any definitions, sections, labels and references, and what follows must find the same state: the same position, the same references still to be put in, the same tables.", "anchors": ["necroassembler/assembler.py: directive_db, directive_dw, directive_dd, append_assembled_bytes, parse_integer_or_label", "necroassembler/utils.py: pack_byte, pack_le16u, pack_le32u, pack_be16u, pack_be32u"]}
{"id": "C104", "title": "Instructions are their bytes", "statement": "Replace instructions by lines of data with the bytes they are encoded to, or such data by instructions, or instructions by others with the same bytes. The instructions are ones that are encoded to the same bytes at every address and whatever labels the program has, and leave no reference. This may be done at any number of places in any sources of a program at once. The program gives the same as before: the same bytes or the same error, for every command-line tool, and running the tool on either leaves the same files on disk, object files and symbol files included. Programs with macros are covered by comparing them with their macros written out.", "quantifier": "every tool, list of sources without `.include`, choice of lines, instructions of every processor that are encoded to the same bytes everywhere, and data that stands for these", "why_tests_cant": "The instruction and the data take different paths through the assembler, one through the table of instructions and the operand parser of the processor, the other through the directives; what follows must find the same state.", "anchors": ["necroassembler/assembler.py: assemble, append_assembled_bytes, directive_db", "necroassembler/statements.py: Instruction.assemble"]}
{"id": "C105", "title": "What follows an error does not change the error", "statement": "If a program is rejected while it is assembled, then it is rejected with the same error when lines are added at the end of its last source or further sources are given behind it; the message names the same place in a text with lines added behind it, and no tool writes anything different to the disk. The added lines may contain anything, with one exception: a file is split into statements before its first line is assembled, so a label of several words in an added line is reported instead.", "quantifier": "every tool, list of sources, file, text added at its end, further sources, nesting limit, and error other than a KeyError", "why_tests_cant": "What follows can be anything, and the tokenizer does see it before the error is found; a test can only try a few texts behind a few errors.", "anchors": ["necroassembler/tokenizer.py: tokenize", "necroassembler/assembler.py: assemble, assemble_file, main", "necroassembler/statements.py: Instruction.assemble, Label.assemble, Directive.assemble"]}
