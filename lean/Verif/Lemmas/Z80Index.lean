import Verif.Model.Cpu.Z80
import Verif.Spec.Z80
/-!
# The table of the Z80 and the instructions, with numbers for the words

The words of the table are replaced by their places in a list, which makes the search for the first variant that
matches an instruction cheap enough to run it for every opcode in the kernel.
-/

namespace Necro
open Spec

/-- The arguments that occur in the table. -/
def z80Words : List String :=
  ["BC", "nn", "(", ")", "A", "B", "n", "AF", "AF'", "HL", "C", "e", "DE", "D", "E", "NZ", "H", "Z", "L", "NC", "SP", "0H",
   "0", "1", "2", "3", "4", "5", "6", "7", "8H", "10H", "IX", "IXH", "IXL", "IX+d", "RLC ", "RRC ", "RL ", "RR ", "SLA ",
   "SRA ", "SLL ", "SRL ", "RES 0", "RES 1", "RES 2", "RES 3", "RES 4", "RES 5", "RES 6", "RES 7", "SET 0", "SET 1", "SET 2",
   "SET 3", "SET 4", "SET 5", "SET 6", "SET 7", "18H", "PO", "20H", "PE", "I", "0/1", "R", "F", "* / IN ", "28H", "P", "30H",
   "M", "IY", "IYH", "IYL", "IY+d", "38H"]

/-- The names that occur in the table. -/
def z80Names : List String :=
  ["NOP", "LD", "INC", "DEC", "RLCA", "EX", "ADD", "RRCA", "DJNZ", "RLA", "JR", "RRA", "DAA", "CPL", "SCF", "CCF", "HALT",
   "ADC", "SUB", "SBC", "AND", "XOR", "OR", "CP", "RET", "POP", "JP", "CALL", "PUSH", "RST", "RLC", "RRC", "RL", "RR", "SLA",
   "SRA", "SLL", "SRL", "BIT", "RES", "SET", "OUT", "EXX", "IN", "NEG", "RETN", "IM", "RETI", "RRD", "RLD", "LDI", "CPI",
   "INI", "OUTI", "LDD", "CPD", "IND", "OUTD", "LDIR", "CPIR", "INIR", "OTIR", "LDDR", "CPDR", "INDR", "OTDR", "DI", "EI"]

/-- The codes and the words of the variants of each name. -/
def z80EncNOP : List (List Nat × List Nat) :=
  [([0], [])]

def z80EncLD : List (List Nat × List Nat) :=
  [([1], [0, 1]), ([2], [2, 0, 3, 4]), ([6], [5, 6]), ([10], [4, 2, 0, 3]), ([14], [10, 6]), ([17], [12, 1]),
   ([18], [2, 12, 3, 4]), ([22], [13, 6]), ([26], [4, 2, 12, 3]), ([30], [14, 6]), ([33], [9, 1]), ([34], [2, 1, 3, 9]),
   ([38], [16, 6]), ([42], [9, 2, 1, 3]), ([46], [18, 6]), ([49], [20, 1]), ([50], [2, 1, 3, 4]), ([54], [2, 9, 3, 6]),
   ([58], [4, 2, 1, 3]), ([62], [4, 6]), ([64], [5, 5]), ([65], [5, 10]), ([66], [5, 13]), ([67], [5, 14]), ([68], [5, 16]),
   ([69], [5, 18]), ([70], [5, 2, 9, 3]), ([71], [5, 4]), ([72], [10, 5]), ([73], [10, 10]), ([74], [10, 13]),
   ([75], [10, 14]), ([76], [10, 16]), ([77], [10, 18]), ([78], [10, 2, 9, 3]), ([79], [10, 4]), ([80], [13, 5]),
   ([81], [13, 10]), ([82], [13, 13]), ([83], [13, 14]), ([84], [13, 16]), ([85], [13, 18]), ([86], [13, 2, 9, 3]),
   ([87], [13, 4]), ([88], [14, 5]), ([89], [14, 10]), ([90], [14, 13]), ([91], [14, 14]), ([92], [14, 16]), ([93], [14, 18]),
   ([94], [14, 2, 9, 3]), ([95], [14, 4]), ([96], [16, 5]), ([97], [16, 10]), ([98], [16, 13]), ([99], [16, 14]),
   ([100], [16, 16]), ([101], [16, 18]), ([102], [16, 2, 9, 3]), ([103], [16, 4]), ([104], [18, 5]), ([105], [18, 10]),
   ([106], [18, 13]), ([107], [18, 14]), ([108], [18, 16]), ([109], [18, 18]), ([110], [18, 2, 9, 3]), ([111], [18, 4]),
   ([112], [2, 9, 3, 5]), ([113], [2, 9, 3, 10]), ([114], [2, 9, 3, 13]), ([115], [2, 9, 3, 14]), ([116], [2, 9, 3, 16]),
   ([117], [2, 9, 3, 18]), ([119], [2, 9, 3, 4]), ([120], [4, 5]), ([121], [4, 10]), ([122], [4, 13]), ([123], [4, 14]),
   ([124], [4, 16]), ([125], [4, 18]), ([126], [4, 2, 9, 3]), ([127], [4, 4]), ([56609], [32, 1]), ([56610], [2, 1, 3, 32]),
   ([56614], [33, 6]), ([56618], [32, 2, 1, 3]), ([56622], [34, 6]), ([56630], [2, 35, 3, 6]), ([56644], [5, 33]),
   ([56645], [5, 34]), ([56646], [5, 2, 35, 3]), ([56652], [10, 33]), ([56653], [10, 34]), ([56654], [10, 2, 35, 3]),
   ([56660], [13, 33]), ([56661], [13, 34]), ([56662], [13, 2, 35, 3]), ([56668], [14, 33]), ([56669], [14, 34]),
   ([56670], [14, 2, 35, 3]), ([56672], [33, 5]), ([56673], [33, 10]), ([56674], [33, 13]), ([56675], [33, 14]),
   ([56676], [33, 33]), ([56677], [33, 34]), ([56678], [16, 2, 35, 3]), ([56679], [33, 4]), ([56680], [34, 5]),
   ([56681], [34, 10]), ([56682], [34, 13]), ([56683], [34, 14]), ([56684], [34, 33]), ([56685], [34, 34]),
   ([56686], [18, 2, 35, 3]), ([56687], [34, 4]), ([56688], [2, 35, 3, 5]), ([56689], [2, 35, 3, 10]),
   ([56690], [2, 35, 3, 13]), ([56691], [2, 35, 3, 14]), ([56692], [2, 35, 3, 16]), ([56693], [2, 35, 3, 18]),
   ([56695], [2, 35, 3, 4]), ([56700], [4, 33]), ([56701], [4, 34]), ([56702], [4, 2, 35, 3]), ([56779, 0], [5, 36, 2, 35, 3]),
   ([56779, 1], [10, 36, 2, 35, 3]), ([56779, 2], [13, 36, 2, 35, 3]), ([56779, 3], [14, 36, 2, 35, 3]),
   ([56779, 4], [16, 36, 2, 35, 3]), ([56779, 5], [18, 36, 2, 35, 3]), ([56779, 7], [4, 36, 2, 35, 3]),
   ([56779, 8], [5, 37, 2, 35, 3]), ([56779, 9], [10, 37, 2, 35, 3]), ([56779, 10], [13, 37, 2, 35, 3]),
   ([56779, 11], [14, 37, 2, 35, 3]), ([56779, 12], [16, 37, 2, 35, 3]), ([56779, 13], [18, 37, 2, 35, 3]),
   ([56779, 15], [4, 37, 2, 35, 3]), ([56779, 16], [5, 38, 2, 35, 3]), ([56779, 17], [10, 38, 2, 35, 3]),
   ([56779, 18], [13, 38, 2, 35, 3]), ([56779, 19], [14, 38, 2, 35, 3]), ([56779, 20], [16, 38, 2, 35, 3]),
   ([56779, 21], [18, 38, 2, 35, 3]), ([56779, 23], [4, 38, 2, 35, 3]), ([56779, 24], [5, 39, 2, 35, 3]),
   ([56779, 25], [10, 39, 2, 35, 3]), ([56779, 26], [13, 39, 2, 35, 3]), ([56779, 27], [14, 39, 2, 35, 3]),
   ([56779, 28], [16, 39, 2, 35, 3]), ([56779, 29], [18, 39, 2, 35, 3]), ([56779, 31], [4, 39, 2, 35, 3]),
   ([56779, 32], [5, 40, 2, 35, 3]), ([56779, 33], [10, 40, 2, 35, 3]), ([56779, 34], [13, 40, 2, 35, 3]),
   ([56779, 35], [14, 40, 2, 35, 3]), ([56779, 36], [16, 40, 2, 35, 3]), ([56779, 37], [18, 40, 2, 35, 3]),
   ([56779, 39], [4, 40, 2, 35, 3]), ([56779, 40], [5, 41, 2, 35, 3]), ([56779, 41], [10, 41, 2, 35, 3]),
   ([56779, 42], [13, 41, 2, 35, 3]), ([56779, 43], [14, 41, 2, 35, 3]), ([56779, 44], [16, 41, 2, 35, 3]),
   ([56779, 45], [18, 41, 2, 35, 3]), ([56779, 47], [4, 41, 2, 35, 3]), ([56779, 48], [5, 42, 2, 35, 3]),
   ([56779, 49], [10, 42, 2, 35, 3]), ([56779, 50], [13, 42, 2, 35, 3]), ([56779, 51], [14, 42, 2, 35, 3]),
   ([56779, 52], [16, 42, 2, 35, 3]), ([56779, 53], [18, 42, 2, 35, 3]), ([56779, 55], [4, 42, 2, 35, 3]),
   ([56779, 56], [5, 43, 2, 35, 3]), ([56779, 57], [10, 43, 2, 35, 3]), ([56779, 58], [13, 43, 2, 35, 3]),
   ([56779, 59], [14, 43, 2, 35, 3]), ([56779, 60], [16, 43, 2, 35, 3]), ([56779, 61], [18, 43, 2, 35, 3]),
   ([56779, 63], [4, 43, 2, 35, 3]), ([56779, 128], [5, 44, 2, 35, 3]), ([56779, 129], [10, 44, 2, 35, 3]),
   ([56779, 130], [13, 44, 2, 35, 3]), ([56779, 131], [14, 44, 2, 35, 3]), ([56779, 132], [16, 44, 2, 35, 3]),
   ([56779, 133], [18, 44, 2, 35, 3]), ([56779, 135], [4, 44, 2, 35, 3]), ([56779, 136], [5, 45, 2, 35, 3]),
   ([56779, 137], [10, 45, 2, 35, 3]), ([56779, 138], [13, 45, 2, 35, 3]), ([56779, 139], [14, 45, 2, 35, 3]),
   ([56779, 140], [16, 45, 2, 35, 3]), ([56779, 141], [18, 45, 2, 35, 3]), ([56779, 143], [4, 45, 2, 35, 3]),
   ([56779, 144], [5, 46, 2, 35, 3]), ([56779, 145], [10, 46, 2, 35, 3]), ([56779, 146], [13, 46, 2, 35, 3]),
   ([56779, 147], [14, 46, 2, 35, 3]), ([56779, 148], [16, 46, 2, 35, 3]), ([56779, 149], [18, 46, 2, 35, 3]),
   ([56779, 151], [4, 46, 2, 35, 3]), ([56779, 152], [5, 47, 2, 35, 3]), ([56779, 153], [10, 47, 2, 35, 3]),
   ([56779, 154], [13, 47, 2, 35, 3]), ([56779, 155], [14, 47, 2, 35, 3]), ([56779, 156], [16, 47, 2, 35, 3]),
   ([56779, 157], [18, 47, 2, 35, 3]), ([56779, 159], [4, 47, 2, 35, 3]), ([56779, 160], [5, 48, 2, 35, 3]),
   ([56779, 161], [10, 48, 2, 35, 3]), ([56779, 162], [13, 48, 2, 35, 3]), ([56779, 163], [14, 48, 2, 35, 3]),
   ([56779, 164], [16, 48, 2, 35, 3]), ([56779, 165], [18, 48, 2, 35, 3]), ([56779, 167], [4, 48, 2, 35, 3]),
   ([56779, 168], [5, 49, 2, 35, 3]), ([56779, 169], [10, 49, 2, 35, 3]), ([56779, 170], [13, 49, 2, 35, 3]),
   ([56779, 171], [14, 49, 2, 35, 3]), ([56779, 172], [16, 49, 2, 35, 3]), ([56779, 173], [18, 49, 2, 35, 3]),
   ([56779, 175], [4, 49, 2, 35, 3]), ([56779, 176], [5, 50, 2, 35, 3]), ([56779, 177], [10, 50, 2, 35, 3]),
   ([56779, 178], [13, 50, 2, 35, 3]), ([56779, 179], [14, 50, 2, 35, 3]), ([56779, 180], [16, 50, 2, 35, 3]),
   ([56779, 181], [18, 50, 2, 35, 3]), ([56779, 183], [4, 50, 2, 35, 3]), ([56779, 184], [5, 51, 2, 35, 3]),
   ([56779, 185], [10, 51, 2, 35, 3]), ([56779, 186], [13, 51, 2, 35, 3]), ([56779, 187], [14, 51, 2, 35, 3]),
   ([56779, 188], [16, 51, 2, 35, 3]), ([56779, 189], [18, 51, 2, 35, 3]), ([56779, 191], [4, 51, 2, 35, 3]),
   ([56779, 192], [5, 52, 2, 35, 3]), ([56779, 193], [10, 52, 2, 35, 3]), ([56779, 194], [13, 52, 2, 35, 3]),
   ([56779, 195], [14, 52, 2, 35, 3]), ([56779, 196], [16, 52, 2, 35, 3]), ([56779, 197], [18, 52, 2, 35, 3]),
   ([56779, 199], [4, 52, 2, 35, 3]), ([56779, 200], [5, 53, 2, 35, 3]), ([56779, 201], [10, 53, 2, 35, 3]),
   ([56779, 202], [13, 53, 2, 35, 3]), ([56779, 203], [14, 53, 2, 35, 3]), ([56779, 204], [16, 53, 2, 35, 3]),
   ([56779, 205], [18, 53, 2, 35, 3]), ([56779, 207], [4, 53, 2, 35, 3]), ([56779, 208], [5, 54, 2, 35, 3]),
   ([56779, 209], [10, 54, 2, 35, 3]), ([56779, 210], [13, 54, 2, 35, 3]), ([56779, 211], [14, 54, 2, 35, 3]),
   ([56779, 212], [16, 54, 2, 35, 3]), ([56779, 213], [18, 54, 2, 35, 3]), ([56779, 215], [4, 54, 2, 35, 3]),
   ([56779, 216], [5, 55, 2, 35, 3]), ([56779, 217], [10, 55, 2, 35, 3]), ([56779, 218], [13, 55, 2, 35, 3]),
   ([56779, 219], [14, 55, 2, 35, 3]), ([56779, 220], [16, 55, 2, 35, 3]), ([56779, 221], [18, 55, 2, 35, 3]),
   ([56779, 223], [4, 55, 2, 35, 3]), ([56779, 224], [5, 56, 2, 35, 3]), ([56779, 225], [10, 56, 2, 35, 3]),
   ([56779, 226], [13, 56, 2, 35, 3]), ([56779, 227], [14, 56, 2, 35, 3]), ([56779, 228], [16, 56, 2, 35, 3]),
   ([56779, 229], [18, 56, 2, 35, 3]), ([56779, 231], [4, 56, 2, 35, 3]), ([56779, 232], [5, 57, 2, 35, 3]),
   ([56779, 233], [10, 57, 2, 35, 3]), ([56779, 234], [13, 57, 2, 35, 3]), ([56779, 235], [14, 57, 2, 35, 3]),
   ([56779, 236], [16, 57, 2, 35, 3]), ([56779, 237], [18, 57, 2, 35, 3]), ([56779, 239], [4, 57, 2, 35, 3]),
   ([56779, 240], [5, 58, 2, 35, 3]), ([56779, 241], [10, 58, 2, 35, 3]), ([56779, 242], [13, 58, 2, 35, 3]),
   ([56779, 243], [14, 58, 2, 35, 3]), ([56779, 244], [16, 58, 2, 35, 3]), ([56779, 245], [18, 58, 2, 35, 3]),
   ([56779, 247], [4, 58, 2, 35, 3]), ([56779, 248], [5, 59, 2, 35, 3]), ([56779, 249], [10, 59, 2, 35, 3]),
   ([56779, 250], [13, 59, 2, 35, 3]), ([56779, 251], [14, 59, 2, 35, 3]), ([56779, 252], [16, 59, 2, 35, 3]),
   ([56779, 253], [18, 59, 2, 35, 3]), ([56779, 255], [4, 59, 2, 35, 3]), ([56825], [20, 32]), ([60739], [2, 1, 3, 0]),
   ([60743], [64, 4]), ([60747], [0, 2, 1, 3]), ([60751], [66, 4]), ([60755], [2, 1, 3, 12]), ([60759], [4, 64]),
   ([60763], [12, 2, 1, 3]), ([60767], [4, 66]), ([60771], [2, 1, 3, 9]), ([60779], [9, 2, 1, 3]), ([60787], [2, 1, 3, 20]),
   ([60795], [20, 2, 1, 3]), ([249], [20, 9]), ([64801], [73, 1]), ([64802], [2, 1, 3, 73]), ([64806], [74, 6]),
   ([64810], [73, 2, 1, 3]), ([64814], [75, 6]), ([64822], [2, 76, 3, 6]), ([64836], [5, 74]), ([64837], [5, 75]),
   ([64838], [5, 2, 76, 3]), ([64844], [10, 74]), ([64845], [10, 75]), ([64846], [10, 2, 76, 3]), ([64852], [13, 74]),
   ([64853], [13, 75]), ([64854], [13, 2, 76, 3]), ([64860], [14, 74]), ([64861], [14, 75]), ([64862], [14, 2, 76, 3]),
   ([64864], [74, 5]), ([64865], [74, 10]), ([64866], [74, 13]), ([64867], [74, 14]), ([64868], [74, 74]), ([64869], [74, 75]),
   ([64870], [16, 2, 76, 3]), ([64871], [74, 4]), ([64872], [75, 5]), ([64873], [75, 10]), ([64874], [75, 13]),
   ([64875], [75, 14]), ([64876], [75, 74]), ([64877], [75, 75]), ([64878], [18, 2, 76, 3]), ([64879], [75, 4]),
   ([64880], [2, 76, 3, 5]), ([64881], [2, 76, 3, 10]), ([64882], [2, 76, 3, 13]), ([64883], [2, 76, 3, 14]),
   ([64884], [2, 76, 3, 16]), ([64885], [2, 76, 3, 18]), ([64887], [2, 76, 3, 4]), ([64892], [4, 74]), ([64893], [4, 75]),
   ([64894], [4, 2, 76, 3]), ([64971, 0], [5, 36, 2, 76, 3]), ([64971, 1], [10, 36, 2, 76, 3]),
   ([64971, 2], [13, 36, 2, 76, 3]), ([64971, 3], [14, 36, 2, 76, 3]), ([64971, 4], [16, 36, 2, 76, 3]),
   ([64971, 5], [18, 36, 2, 76, 3]), ([64971, 7], [4, 36, 2, 76, 3]), ([64971, 8], [5, 37, 2, 76, 3]),
   ([64971, 9], [10, 37, 2, 76, 3]), ([64971, 10], [13, 37, 2, 76, 3]), ([64971, 11], [14, 37, 2, 76, 3]),
   ([64971, 12], [16, 37, 2, 76, 3]), ([64971, 13], [18, 37, 2, 76, 3]), ([64971, 15], [4, 37, 2, 76, 3]),
   ([64971, 16], [5, 38, 2, 76, 3]), ([64971, 17], [10, 38, 2, 76, 3]), ([64971, 18], [13, 38, 2, 76, 3]),
   ([64971, 19], [14, 38, 2, 76, 3]), ([64971, 20], [16, 38, 2, 76, 3]), ([64971, 21], [18, 38, 2, 76, 3]),
   ([64971, 23], [4, 38, 2, 76, 3]), ([64971, 24], [5, 39, 2, 76, 3]), ([64971, 25], [10, 39, 2, 76, 3]),
   ([64971, 26], [13, 39, 2, 76, 3]), ([64971, 27], [14, 39, 2, 76, 3]), ([64971, 28], [16, 39, 2, 76, 3]),
   ([64971, 29], [18, 39, 2, 76, 3]), ([64971, 31], [4, 39, 2, 76, 3]), ([64971, 32], [5, 40, 2, 76, 3]),
   ([64971, 33], [10, 40, 2, 76, 3]), ([64971, 34], [13, 40, 2, 76, 3]), ([64971, 35], [14, 40, 2, 76, 3]),
   ([64971, 36], [16, 40, 2, 76, 3]), ([64971, 37], [18, 40, 2, 76, 3]), ([64971, 39], [4, 40, 2, 76, 3]),
   ([64971, 40], [5, 41, 2, 76, 3]), ([64971, 41], [10, 41, 2, 76, 3]), ([64971, 42], [13, 41, 2, 76, 3]),
   ([64971, 43], [14, 41, 2, 76, 3]), ([64971, 44], [16, 41, 2, 76, 3]), ([64971, 45], [18, 41, 2, 76, 3]),
   ([64971, 47], [4, 41, 2, 76, 3]), ([64971, 48], [5, 42, 2, 76, 3]), ([64971, 49], [10, 42, 2, 76, 3]),
   ([64971, 50], [13, 42, 2, 76, 3]), ([64971, 51], [14, 42, 2, 76, 3]), ([64971, 52], [16, 42, 2, 76, 3]),
   ([64971, 53], [18, 42, 2, 76, 3]), ([64971, 55], [4, 42, 2, 76, 3]), ([64971, 56], [5, 43, 2, 76, 3]),
   ([64971, 57], [10, 43, 2, 76, 3]), ([64971, 58], [13, 43, 2, 76, 3]), ([64971, 59], [14, 43, 2, 76, 3]),
   ([64971, 60], [16, 43, 2, 76, 3]), ([64971, 61], [18, 43, 2, 76, 3]), ([64971, 63], [4, 43, 2, 76, 3]),
   ([64971, 128], [5, 44, 2, 76, 3]), ([64971, 129], [10, 44, 2, 76, 3]), ([64971, 130], [13, 44, 2, 76, 3]),
   ([64971, 131], [14, 44, 2, 76, 3]), ([64971, 132], [16, 44, 2, 76, 3]), ([64971, 133], [18, 44, 2, 76, 3]),
   ([64971, 135], [4, 44, 2, 76, 3]), ([64971, 136], [5, 45, 2, 76, 3]), ([64971, 137], [10, 45, 2, 76, 3]),
   ([64971, 138], [13, 45, 2, 76, 3]), ([64971, 139], [14, 45, 2, 76, 3]), ([64971, 140], [16, 45, 2, 76, 3]),
   ([64971, 141], [18, 45, 2, 76, 3]), ([64971, 143], [4, 45, 2, 76, 3]), ([64971, 144], [5, 46, 2, 76, 3]),
   ([64971, 145], [10, 46, 2, 76, 3]), ([64971, 146], [13, 46, 2, 76, 3]), ([64971, 147], [14, 46, 2, 76, 3]),
   ([64971, 148], [16, 46, 2, 76, 3]), ([64971, 149], [18, 46, 2, 76, 3]), ([64971, 151], [4, 46, 2, 76, 3]),
   ([64971, 152], [5, 47, 2, 76, 3]), ([64971, 153], [10, 47, 2, 76, 3]), ([64971, 154], [13, 47, 2, 76, 3]),
   ([64971, 155], [14, 47, 2, 76, 3]), ([64971, 156], [16, 47, 2, 76, 3]), ([64971, 157], [18, 47, 2, 76, 3]),
   ([64971, 159], [4, 47, 2, 76, 3]), ([64971, 160], [5, 48, 2, 76, 3]), ([64971, 161], [10, 48, 2, 76, 3]),
   ([64971, 162], [13, 48, 2, 76, 3]), ([64971, 163], [14, 48, 2, 76, 3]), ([64971, 164], [16, 48, 2, 76, 3]),
   ([64971, 165], [18, 48, 2, 76, 3]), ([64971, 167], [4, 48, 2, 76, 3]), ([64971, 168], [5, 49, 2, 76, 3]),
   ([64971, 169], [10, 49, 2, 76, 3]), ([64971, 170], [13, 49, 2, 76, 3]), ([64971, 171], [14, 49, 2, 76, 3]),
   ([64971, 172], [16, 49, 2, 76, 3]), ([64971, 173], [18, 49, 2, 76, 3]), ([64971, 175], [4, 49, 2, 76, 3]),
   ([64971, 176], [5, 50, 2, 76, 3]), ([64971, 177], [10, 50, 2, 76, 3]), ([64971, 178], [13, 50, 2, 76, 3]),
   ([64971, 179], [14, 50, 2, 76, 3]), ([64971, 180], [16, 50, 2, 76, 3]), ([64971, 181], [18, 50, 2, 76, 3]),
   ([64971, 183], [4, 50, 2, 76, 3]), ([64971, 184], [5, 51, 2, 76, 3]), ([64971, 185], [10, 51, 2, 76, 3]),
   ([64971, 186], [13, 51, 2, 76, 3]), ([64971, 187], [14, 51, 2, 76, 3]), ([64971, 188], [16, 51, 2, 76, 3]),
   ([64971, 189], [18, 51, 2, 76, 3]), ([64971, 191], [4, 51, 2, 76, 3]), ([64971, 192], [5, 52, 2, 76, 3]),
   ([64971, 193], [10, 52, 2, 76, 3]), ([64971, 194], [13, 52, 2, 76, 3]), ([64971, 195], [14, 52, 2, 76, 3]),
   ([64971, 196], [16, 52, 2, 76, 3]), ([64971, 197], [18, 52, 2, 76, 3]), ([64971, 199], [4, 52, 2, 76, 3]),
   ([64971, 200], [5, 53, 2, 76, 3]), ([64971, 201], [10, 53, 2, 76, 3]), ([64971, 202], [13, 53, 2, 76, 3]),
   ([64971, 203], [14, 53, 2, 76, 3]), ([64971, 204], [16, 53, 2, 76, 3]), ([64971, 205], [18, 53, 2, 76, 3]),
   ([64971, 207], [4, 53, 2, 76, 3]), ([64971, 208], [5, 54, 2, 76, 3]), ([64971, 209], [10, 54, 2, 76, 3]),
   ([64971, 210], [13, 54, 2, 76, 3]), ([64971, 211], [14, 54, 2, 76, 3]), ([64971, 212], [16, 54, 2, 76, 3]),
   ([64971, 213], [18, 54, 2, 76, 3]), ([64971, 215], [4, 54, 2, 76, 3]), ([64971, 216], [5, 55, 2, 76, 3]),
   ([64971, 217], [10, 55, 2, 76, 3]), ([64971, 218], [13, 55, 2, 76, 3]), ([64971, 219], [14, 55, 2, 76, 3]),
   ([64971, 220], [16, 55, 2, 76, 3]), ([64971, 221], [18, 55, 2, 76, 3]), ([64971, 223], [4, 55, 2, 76, 3]),
   ([64971, 224], [5, 56, 2, 76, 3]), ([64971, 225], [10, 56, 2, 76, 3]), ([64971, 226], [13, 56, 2, 76, 3]),
   ([64971, 227], [14, 56, 2, 76, 3]), ([64971, 228], [16, 56, 2, 76, 3]), ([64971, 229], [18, 56, 2, 76, 3]),
   ([64971, 231], [4, 56, 2, 76, 3]), ([64971, 232], [5, 57, 2, 76, 3]), ([64971, 233], [10, 57, 2, 76, 3]),
   ([64971, 234], [13, 57, 2, 76, 3]), ([64971, 235], [14, 57, 2, 76, 3]), ([64971, 236], [16, 57, 2, 76, 3]),
   ([64971, 237], [18, 57, 2, 76, 3]), ([64971, 239], [4, 57, 2, 76, 3]), ([64971, 240], [5, 58, 2, 76, 3]),
   ([64971, 241], [10, 58, 2, 76, 3]), ([64971, 242], [13, 58, 2, 76, 3]), ([64971, 243], [14, 58, 2, 76, 3]),
   ([64971, 244], [16, 58, 2, 76, 3]), ([64971, 245], [18, 58, 2, 76, 3]), ([64971, 247], [4, 58, 2, 76, 3]),
   ([64971, 248], [5, 59, 2, 76, 3]), ([64971, 249], [10, 59, 2, 76, 3]), ([64971, 250], [13, 59, 2, 76, 3]),
   ([64971, 251], [14, 59, 2, 76, 3]), ([64971, 252], [16, 59, 2, 76, 3]), ([64971, 253], [18, 59, 2, 76, 3]),
   ([64971, 255], [4, 59, 2, 76, 3]), ([65017], [20, 73])]

def z80EncINC : List (List Nat × List Nat) :=
  [([3], [0]), ([4], [5]), ([12], [10]), ([19], [12]), ([20], [13]), ([28], [14]), ([35], [9]), ([36], [16]), ([44], [18]),
   ([51], [20]), ([52], [2, 9, 3]), ([60], [4]), ([56611], [32]), ([56612], [33]), ([56620], [34]), ([56628], [2, 35, 3]),
   ([64803], [73]), ([64804], [74]), ([64812], [75]), ([64820], [2, 76, 3])]

def z80EncDEC : List (List Nat × List Nat) :=
  [([5], [5]), ([11], [0]), ([13], [10]), ([21], [13]), ([27], [12]), ([29], [14]), ([37], [16]), ([43], [9]), ([45], [18]),
   ([53], [2, 9, 3]), ([59], [20]), ([61], [4]), ([56613], [33]), ([56619], [32]), ([56621], [34]), ([56629], [2, 35, 3]),
   ([64805], [74]), ([64811], [73]), ([64813], [75]), ([64821], [2, 76, 3])]

def z80EncRLCA : List (List Nat × List Nat) :=
  [([7], [])]

def z80EncEX : List (List Nat × List Nat) :=
  [([8], [7, 8]), ([56803], [2, 20, 3, 32]), ([227], [2, 20, 3, 9]), ([235], [12, 9]), ([64995], [2, 20, 3, 73])]

def z80EncADD : List (List Nat × List Nat) :=
  [([9], [9, 0]), ([25], [9, 12]), ([41], [9, 9]), ([57], [9, 20]), ([128], [4, 5]), ([129], [4, 10]), ([130], [4, 13]),
   ([131], [4, 14]), ([132], [4, 16]), ([133], [4, 18]), ([134], [4, 2, 9, 3]), ([135], [4, 4]), ([198], [4, 6]),
   ([56585], [32, 0]), ([56601], [32, 12]), ([56617], [32, 32]), ([56633], [32, 20]), ([56708], [4, 33]), ([56709], [4, 34]),
   ([56710], [4, 2, 35, 3]), ([64777], [73, 0]), ([64793], [73, 12]), ([64809], [73, 73]), ([64825], [73, 20]),
   ([64900], [4, 74]), ([64901], [4, 75]), ([64902], [4, 2, 76, 3])]

def z80EncRRCA : List (List Nat × List Nat) :=
  [([15], [])]

def z80EncDJNZ : List (List Nat × List Nat) :=
  [([16], [11])]

def z80EncRLA : List (List Nat × List Nat) :=
  [([23], [])]

def z80EncJR : List (List Nat × List Nat) :=
  [([24], [11]), ([32], [15, 11]), ([40], [17, 11]), ([48], [19, 11]), ([56], [10, 11])]

def z80EncRRA : List (List Nat × List Nat) :=
  [([31], [])]

def z80EncDAA : List (List Nat × List Nat) :=
  [([39], [])]

def z80EncCPL : List (List Nat × List Nat) :=
  [([47], [])]

def z80EncSCF : List (List Nat × List Nat) :=
  [([55], [])]

def z80EncCCF : List (List Nat × List Nat) :=
  [([63], [])]

def z80EncHALT : List (List Nat × List Nat) :=
  [([118], [])]

def z80EncADC : List (List Nat × List Nat) :=
  [([136], [4, 5]), ([137], [4, 10]), ([138], [4, 13]), ([139], [4, 14]), ([140], [4, 16]), ([141], [4, 18]),
   ([142], [4, 2, 9, 3]), ([143], [4, 4]), ([206], [4, 6]), ([56716], [4, 33]), ([56717], [4, 34]), ([56718], [4, 2, 35, 3]),
   ([60746], [9, 0]), ([60762], [9, 12]), ([60778], [9, 9]), ([60794], [9, 20]), ([64908], [4, 74]), ([64909], [4, 75]),
   ([64910], [4, 2, 76, 3])]

def z80EncSUB : List (List Nat × List Nat) :=
  [([144], [5]), ([145], [10]), ([146], [13]), ([147], [14]), ([148], [16]), ([149], [18]), ([150], [2, 9, 3]), ([151], [4]),
   ([214], [6]), ([56724], [33]), ([56725], [34]), ([56726], [2, 35, 3]), ([64916], [74]), ([64917], [75]),
   ([64918], [2, 76, 3])]

def z80EncSBC : List (List Nat × List Nat) :=
  [([152], [4, 5]), ([153], [4, 10]), ([154], [4, 13]), ([155], [4, 14]), ([156], [4, 16]), ([157], [4, 18]),
   ([158], [4, 2, 9, 3]), ([159], [4, 4]), ([56732], [4, 33]), ([56733], [4, 34]), ([56734], [4, 2, 35, 3]), ([222], [4, 6]),
   ([60738], [9, 0]), ([60754], [9, 12]), ([60770], [9, 9]), ([60786], [9, 20]), ([64924], [4, 74]), ([64925], [4, 75]),
   ([64926], [4, 2, 76, 3])]

def z80EncAND : List (List Nat × List Nat) :=
  [([160], [5]), ([161], [10]), ([162], [13]), ([163], [14]), ([164], [16]), ([165], [18]), ([166], [2, 9, 3]), ([167], [4]),
   ([56740], [33]), ([56741], [34]), ([56742], [2, 35, 3]), ([230], [6]), ([64932], [74]), ([64933], [75]),
   ([64934], [2, 76, 3])]

def z80EncXOR : List (List Nat × List Nat) :=
  [([168], [5]), ([169], [10]), ([170], [13]), ([171], [14]), ([172], [16]), ([173], [18]), ([174], [2, 9, 3]), ([175], [4]),
   ([56748], [33]), ([56749], [34]), ([56750], [2, 35, 3]), ([238], [6]), ([64940], [74]), ([64941], [75]),
   ([64942], [2, 76, 3])]

def z80EncOR : List (List Nat × List Nat) :=
  [([176], [5]), ([177], [10]), ([178], [13]), ([179], [14]), ([180], [16]), ([181], [18]), ([182], [2, 9, 3]), ([183], [4]),
   ([56756], [33]), ([56757], [34]), ([56758], [2, 35, 3]), ([246], [6]), ([64948], [74]), ([64949], [75]),
   ([64950], [2, 76, 3])]

def z80EncCP : List (List Nat × List Nat) :=
  [([184], [5]), ([185], [10]), ([186], [13]), ([187], [14]), ([188], [16]), ([189], [18]), ([190], [2, 9, 3]), ([191], [4]),
   ([56764], [33]), ([56765], [34]), ([56766], [2, 35, 3]), ([64956], [74]), ([64957], [75]), ([64958], [2, 76, 3]),
   ([254], [6])]

def z80EncRET : List (List Nat × List Nat) :=
  [([192], [15]), ([200], [17]), ([201], []), ([208], [19]), ([216], [10]), ([224], [61]), ([232], [63]), ([240], [70]),
   ([248], [72])]

def z80EncPOP : List (List Nat × List Nat) :=
  [([193], [0]), ([209], [12]), ([56801], [32]), ([225], [9]), ([241], [7]), ([64993], [73])]

def z80EncJP : List (List Nat × List Nat) :=
  [([194], [15, 1]), ([195], [1]), ([202], [17, 1]), ([210], [19, 1]), ([218], [10, 1]), ([56809], [2, 32, 3]),
   ([226], [61, 1]), ([233], [2, 9, 3]), ([234], [63, 1]), ([242], [70, 1]), ([250], [72, 1]), ([65001], [2, 73, 3])]

def z80EncCALL : List (List Nat × List Nat) :=
  [([196], [15, 1]), ([204], [17, 1]), ([205], [1]), ([212], [19, 1]), ([220], [10, 1]), ([228], [61, 1]), ([236], [63, 1]),
   ([244], [70, 1]), ([252], [72, 1])]

def z80EncPUSH : List (List Nat × List Nat) :=
  [([197], [0]), ([213], [12]), ([56805], [32]), ([229], [9]), ([245], [7]), ([64997], [73])]

def z80EncRST : List (List Nat × List Nat) :=
  [([199], [21]), ([207], [30]), ([215], [31]), ([223], [60]), ([231], [62]), ([239], [69]), ([247], [71]), ([255], [77])]

def z80EncRLC : List (List Nat × List Nat) :=
  [([51968], [5]), ([51969], [10]), ([51970], [13]), ([51971], [14]), ([51972], [16]), ([51973], [18]), ([51974], [2, 9, 3]),
   ([51975], [4]), ([56779, 6], [2, 35, 3]), ([64971, 6], [2, 76, 3])]

def z80EncRRC : List (List Nat × List Nat) :=
  [([51976], [5]), ([51977], [10]), ([51978], [13]), ([51979], [14]), ([51980], [16]), ([51981], [18]), ([51982], [2, 9, 3]),
   ([51983], [4]), ([56779, 14], [2, 35, 3]), ([64971, 14], [2, 76, 3])]

def z80EncRL : List (List Nat × List Nat) :=
  [([51984], [5]), ([51985], [10]), ([51986], [13]), ([51987], [14]), ([51988], [16]), ([51989], [18]), ([51990], [2, 9, 3]),
   ([51991], [4]), ([56779, 22], [2, 35, 3]), ([64971, 22], [2, 76, 3])]

def z80EncRR : List (List Nat × List Nat) :=
  [([51992], [5]), ([51993], [10]), ([51994], [13]), ([51995], [14]), ([51996], [16]), ([51997], [18]), ([51998], [2, 9, 3]),
   ([51999], [4]), ([56779, 30], [2, 35, 3]), ([64971, 30], [2, 76, 3])]

def z80EncSLA : List (List Nat × List Nat) :=
  [([52000], [5]), ([52001], [10]), ([52002], [13]), ([52003], [14]), ([52004], [16]), ([52005], [18]), ([52006], [2, 9, 3]),
   ([52007], [4]), ([56779, 38], [2, 35, 3]), ([64971, 38], [2, 76, 3])]

def z80EncSRA : List (List Nat × List Nat) :=
  [([52008], [5]), ([52009], [10]), ([52010], [13]), ([52011], [14]), ([52012], [16]), ([52013], [18]), ([52014], [2, 9, 3]),
   ([52015], [4]), ([56779, 46], [2, 35, 3]), ([64971, 46], [2, 76, 3])]

def z80EncSLL : List (List Nat × List Nat) :=
  [([52016], [5]), ([52017], [10]), ([52018], [13]), ([52019], [14]), ([52020], [16]), ([52021], [18]), ([52022], [2, 9, 3]),
   ([52023], [4]), ([56779, 54], [2, 35, 3]), ([64971, 54], [2, 76, 3])]

def z80EncSRL : List (List Nat × List Nat) :=
  [([52024], [5]), ([52025], [10]), ([52026], [13]), ([52027], [14]), ([52028], [16]), ([52029], [18]), ([52030], [2, 9, 3]),
   ([52031], [4]), ([56779, 62], [2, 35, 3]), ([64971, 62], [2, 76, 3])]

def z80EncBIT : List (List Nat × List Nat) :=
  [([52032], [22, 5]), ([52033], [22, 10]), ([52034], [22, 13]), ([52035], [22, 14]), ([52036], [22, 16]), ([52037], [22, 18]),
   ([52038], [22, 2, 9, 3]), ([52039], [22, 4]), ([52040], [23, 5]), ([52041], [23, 10]), ([52042], [23, 13]),
   ([52043], [23, 14]), ([52044], [23, 16]), ([52045], [23, 18]), ([52046], [23, 2, 9, 3]), ([52047], [23, 4]),
   ([52048], [24, 5]), ([52049], [24, 10]), ([52050], [24, 13]), ([52051], [24, 14]), ([52052], [24, 16]), ([52053], [24, 18]),
   ([52054], [24, 2, 9, 3]), ([52055], [24, 4]), ([52056], [25, 5]), ([52057], [25, 10]), ([52058], [25, 13]),
   ([52059], [25, 14]), ([52060], [25, 16]), ([52061], [25, 18]), ([52062], [25, 2, 9, 3]), ([52063], [25, 4]),
   ([52064], [26, 5]), ([52065], [26, 10]), ([52066], [26, 13]), ([52067], [26, 14]), ([52068], [26, 16]), ([52069], [26, 18]),
   ([52070], [26, 2, 9, 3]), ([52071], [26, 4]), ([52072], [27, 5]), ([52073], [27, 10]), ([52074], [27, 13]),
   ([52075], [27, 14]), ([52076], [27, 16]), ([52077], [27, 18]), ([52078], [27, 2, 9, 3]), ([52079], [27, 4]),
   ([52080], [28, 5]), ([52081], [28, 10]), ([52082], [28, 13]), ([52083], [28, 14]), ([52084], [28, 16]), ([52085], [28, 18]),
   ([52086], [28, 2, 9, 3]), ([52087], [28, 4]), ([52088], [29, 5]), ([52089], [29, 10]), ([52090], [29, 13]),
   ([52091], [29, 14]), ([52092], [29, 16]), ([52093], [29, 18]), ([52094], [29, 2, 9, 3]), ([52095], [29, 4]),
   ([56779, 64], [22, 2, 35, 3]), ([56779, 65], [22, 2, 35, 3]), ([56779, 66], [22, 2, 35, 3]), ([56779, 67], [22, 2, 35, 3]),
   ([56779, 68], [22, 2, 35, 3]), ([56779, 69], [22, 2, 35, 3]), ([56779, 70], [22, 2, 35, 3]), ([56779, 71], [22, 2, 35, 3]),
   ([56779, 72], [23, 2, 35, 3]), ([56779, 73], [23, 2, 35, 3]), ([56779, 74], [23, 2, 35, 3]), ([56779, 75], [23, 2, 35, 3]),
   ([56779, 76], [23, 2, 35, 3]), ([56779, 77], [23, 2, 35, 3]), ([56779, 78], [23, 2, 35, 3]), ([56779, 79], [23, 2, 35, 3]),
   ([56779, 80], [24, 2, 35, 3]), ([56779, 81], [24, 2, 35, 3]), ([56779, 82], [24, 2, 35, 3]), ([56779, 83], [24, 2, 35, 3]),
   ([56779, 84], [24, 2, 35, 3]), ([56779, 85], [24, 2, 35, 3]), ([56779, 86], [24, 2, 35, 3]), ([56779, 87], [24, 2, 35, 3]),
   ([56779, 88], [25, 2, 35, 3]), ([56779, 89], [25, 2, 35, 3]), ([56779, 90], [25, 2, 35, 3]), ([56779, 91], [25, 2, 35, 3]),
   ([56779, 92], [25, 2, 35, 3]), ([56779, 93], [25, 2, 35, 3]), ([56779, 94], [25, 2, 35, 3]), ([56779, 95], [25, 2, 35, 3]),
   ([56779, 96], [26, 2, 35, 3]), ([56779, 97], [26, 2, 35, 3]), ([56779, 98], [26, 2, 35, 3]), ([56779, 99], [26, 2, 35, 3]),
   ([56779, 100], [26, 2, 35, 3]), ([56779, 101], [26, 2, 35, 3]), ([56779, 102], [26, 2, 35, 3]),
   ([56779, 103], [26, 2, 35, 3]), ([56779, 104], [27, 2, 35, 3]), ([56779, 105], [27, 2, 35, 3]),
   ([56779, 106], [27, 2, 35, 3]), ([56779, 107], [27, 2, 35, 3]), ([56779, 108], [27, 2, 35, 3]),
   ([56779, 109], [27, 2, 35, 3]), ([56779, 110], [27, 2, 35, 3]), ([56779, 111], [27, 2, 35, 3]),
   ([56779, 112], [28, 2, 35, 3]), ([56779, 113], [28, 2, 35, 3]), ([56779, 114], [28, 2, 35, 3]),
   ([56779, 115], [28, 2, 35, 3]), ([56779, 116], [28, 2, 35, 3]), ([56779, 117], [28, 2, 35, 3]),
   ([56779, 118], [28, 2, 35, 3]), ([56779, 119], [28, 2, 35, 3]), ([56779, 120], [29, 2, 35, 3]),
   ([56779, 121], [29, 2, 35, 3]), ([56779, 122], [29, 2, 35, 3]), ([56779, 123], [29, 2, 35, 3]),
   ([56779, 124], [29, 2, 35, 3]), ([56779, 125], [29, 2, 35, 3]), ([56779, 126], [29, 2, 35, 3]),
   ([56779, 127], [29, 2, 35, 3]), ([64971, 64], [22, 2, 76, 3]), ([64971, 65], [22, 2, 76, 3]), ([64971, 66], [22, 2, 76, 3]),
   ([64971, 67], [22, 2, 76, 3]), ([64971, 68], [22, 2, 76, 3]), ([64971, 69], [22, 2, 76, 3]), ([64971, 70], [22, 2, 76, 3]),
   ([64971, 71], [22, 2, 76, 3]), ([64971, 72], [23, 2, 76, 3]), ([64971, 73], [23, 2, 76, 3]), ([64971, 74], [23, 2, 76, 3]),
   ([64971, 75], [23, 2, 76, 3]), ([64971, 76], [23, 2, 76, 3]), ([64971, 77], [23, 2, 76, 3]), ([64971, 78], [23, 2, 76, 3]),
   ([64971, 79], [23, 2, 76, 3]), ([64971, 80], [24, 2, 76, 3]), ([64971, 81], [24, 2, 76, 3]), ([64971, 82], [24, 2, 76, 3]),
   ([64971, 83], [24, 2, 76, 3]), ([64971, 84], [24, 2, 76, 3]), ([64971, 85], [24, 2, 76, 3]), ([64971, 86], [24, 2, 76, 3]),
   ([64971, 87], [24, 2, 76, 3]), ([64971, 88], [25, 2, 76, 3]), ([64971, 89], [25, 2, 76, 3]), ([64971, 90], [25, 2, 76, 3]),
   ([64971, 91], [25, 2, 76, 3]), ([64971, 92], [25, 2, 76, 3]), ([64971, 93], [25, 2, 76, 3]), ([64971, 94], [25, 2, 76, 3]),
   ([64971, 95], [25, 2, 76, 3]), ([64971, 96], [26, 2, 76, 3]), ([64971, 97], [26, 2, 76, 3]), ([64971, 98], [26, 2, 76, 3]),
   ([64971, 99], [26, 2, 76, 3]), ([64971, 100], [26, 2, 76, 3]), ([64971, 101], [26, 2, 76, 3]),
   ([64971, 102], [26, 2, 76, 3]), ([64971, 103], [26, 2, 76, 3]), ([64971, 104], [27, 2, 76, 3]),
   ([64971, 105], [27, 2, 76, 3]), ([64971, 106], [27, 2, 76, 3]), ([64971, 107], [27, 2, 76, 3]),
   ([64971, 108], [27, 2, 76, 3]), ([64971, 109], [27, 2, 76, 3]), ([64971, 110], [27, 2, 76, 3]),
   ([64971, 111], [27, 2, 76, 3]), ([64971, 112], [28, 2, 76, 3]), ([64971, 113], [28, 2, 76, 3]),
   ([64971, 114], [28, 2, 76, 3]), ([64971, 115], [28, 2, 76, 3]), ([64971, 116], [28, 2, 76, 3]),
   ([64971, 117], [28, 2, 76, 3]), ([64971, 118], [28, 2, 76, 3]), ([64971, 119], [28, 2, 76, 3]),
   ([64971, 120], [29, 2, 76, 3]), ([64971, 121], [29, 2, 76, 3]), ([64971, 122], [29, 2, 76, 3]),
   ([64971, 123], [29, 2, 76, 3]), ([64971, 124], [29, 2, 76, 3]), ([64971, 125], [29, 2, 76, 3]),
   ([64971, 126], [29, 2, 76, 3]), ([64971, 127], [29, 2, 76, 3])]

def z80EncRES : List (List Nat × List Nat) :=
  [([52096], [22, 5]), ([52097], [22, 10]), ([52098], [22, 13]), ([52099], [22, 14]), ([52100], [22, 16]), ([52101], [22, 18]),
   ([52102], [22, 2, 9, 3]), ([52103], [22, 4]), ([52104], [23, 5]), ([52105], [23, 10]), ([52106], [23, 13]),
   ([52107], [23, 14]), ([52108], [23, 16]), ([52109], [23, 18]), ([52110], [23, 2, 9, 3]), ([52111], [23, 4]),
   ([52112], [24, 5]), ([52113], [24, 10]), ([52114], [24, 13]), ([52115], [24, 14]), ([52116], [24, 16]), ([52117], [24, 18]),
   ([52118], [24, 2, 9, 3]), ([52119], [24, 4]), ([52120], [25, 5]), ([52121], [25, 10]), ([52122], [25, 13]),
   ([52123], [25, 14]), ([52124], [25, 16]), ([52125], [25, 18]), ([52126], [25, 2, 9, 3]), ([52127], [25, 4]),
   ([52128], [26, 5]), ([52129], [26, 10]), ([52130], [26, 13]), ([52131], [26, 14]), ([52132], [26, 16]), ([52133], [26, 18]),
   ([52134], [26, 2, 9, 3]), ([52135], [26, 4]), ([52136], [27, 5]), ([52137], [27, 10]), ([52138], [27, 13]),
   ([52139], [27, 14]), ([52140], [27, 16]), ([52141], [27, 18]), ([52142], [27, 2, 9, 3]), ([52143], [27, 4]),
   ([52144], [28, 5]), ([52145], [28, 10]), ([52146], [28, 13]), ([52147], [28, 14]), ([52148], [28, 16]), ([52149], [28, 18]),
   ([52150], [28, 2, 9, 3]), ([52151], [28, 4]), ([52152], [29, 5]), ([52153], [29, 10]), ([52154], [29, 13]),
   ([52155], [29, 14]), ([52156], [29, 16]), ([52157], [29, 18]), ([52158], [29, 2, 9, 3]), ([52159], [29, 4]),
   ([56779, 134], [22, 2, 35, 3]), ([56779, 142], [23, 2, 35, 3]), ([56779, 150], [24, 2, 35, 3]),
   ([56779, 158], [25, 2, 35, 3]), ([56779, 166], [26, 2, 35, 3]), ([56779, 174], [27, 2, 35, 3]),
   ([56779, 182], [28, 2, 35, 3]), ([56779, 190], [29, 2, 35, 3]), ([64971, 134], [22, 2, 76, 3]),
   ([64971, 142], [23, 2, 76, 3]), ([64971, 150], [24, 2, 76, 3]), ([64971, 158], [25, 2, 76, 3]),
   ([64971, 166], [26, 2, 76, 3]), ([64971, 174], [27, 2, 76, 3]), ([64971, 182], [28, 2, 76, 3]),
   ([64971, 190], [29, 2, 76, 3])]

def z80EncSET : List (List Nat × List Nat) :=
  [([52160], [22, 5]), ([52161], [22, 10]), ([52162], [22, 13]), ([52163], [22, 14]), ([52164], [22, 16]), ([52165], [22, 18]),
   ([52166], [22, 2, 9, 3]), ([52167], [22, 4]), ([52168], [23, 5]), ([52169], [23, 10]), ([52170], [23, 13]),
   ([52171], [23, 14]), ([52172], [23, 16]), ([52173], [23, 18]), ([52174], [23, 2, 9, 3]), ([52175], [23, 4]),
   ([52176], [24, 5]), ([52177], [24, 10]), ([52178], [24, 13]), ([52179], [24, 14]), ([52180], [24, 16]), ([52181], [24, 18]),
   ([52182], [24, 2, 9, 3]), ([52183], [24, 4]), ([52184], [25, 5]), ([52185], [25, 10]), ([52186], [25, 13]),
   ([52187], [25, 14]), ([52188], [25, 16]), ([52189], [25, 18]), ([52190], [25, 2, 9, 3]), ([52191], [25, 4]),
   ([52192], [26, 5]), ([52193], [26, 10]), ([52194], [26, 13]), ([52195], [26, 14]), ([52196], [26, 16]), ([52197], [26, 18]),
   ([52198], [26, 2, 9, 3]), ([52199], [26, 4]), ([52200], [27, 5]), ([52201], [27, 10]), ([52202], [27, 13]),
   ([52203], [27, 14]), ([52204], [27, 16]), ([52205], [27, 18]), ([52206], [27, 2, 9, 3]), ([52207], [27, 4]),
   ([52208], [28, 5]), ([52209], [28, 10]), ([52210], [28, 13]), ([52211], [28, 14]), ([52212], [28, 16]), ([52213], [28, 18]),
   ([52214], [28, 2, 9, 3]), ([52215], [28, 4]), ([52216], [29, 5]), ([52217], [29, 10]), ([52218], [29, 13]),
   ([52219], [29, 14]), ([52220], [29, 16]), ([52221], [29, 18]), ([52222], [29, 2, 9, 3]), ([52223], [29, 4]),
   ([56779, 198], [22, 2, 35, 3]), ([56779, 206], [23, 2, 35, 3]), ([56779, 214], [24, 2, 35, 3]),
   ([56779, 222], [25, 2, 35, 3]), ([56779, 230], [26, 2, 35, 3]), ([56779, 238], [27, 2, 35, 3]),
   ([56779, 246], [28, 2, 35, 3]), ([56779, 254], [29, 2, 35, 3]), ([64971, 198], [22, 2, 76, 3]),
   ([64971, 206], [23, 2, 76, 3]), ([64971, 214], [24, 2, 76, 3]), ([64971, 222], [25, 2, 76, 3]),
   ([64971, 230], [26, 2, 76, 3]), ([64971, 238], [27, 2, 76, 3]), ([64971, 246], [28, 2, 76, 3]),
   ([64971, 254], [29, 2, 76, 3])]

def z80EncOUT : List (List Nat × List Nat) :=
  [([211], [2, 6, 3, 4]), ([60737], [2, 10, 3, 5]), ([60745], [2, 10, 3, 10]), ([60753], [2, 10, 3, 13]),
   ([60761], [2, 10, 3, 14]), ([60769], [2, 10, 3, 16]), ([60777], [2, 10, 3, 18]), ([60785], [2, 10, 3, 22]),
   ([60793], [2, 10, 3, 4])]

def z80EncEXX : List (List Nat × List Nat) :=
  [([217], [])]

def z80EncIN : List (List Nat × List Nat) :=
  [([219], [4, 2, 6, 3]), ([60736], [5, 2, 10, 3]), ([60744], [10, 2, 10, 3]), ([60752], [13, 2, 10, 3]),
   ([60760], [14, 2, 10, 3]), ([60768], [16, 2, 10, 3]), ([60776], [18, 2, 10, 3]), ([60784], [67, 2, 10, 3, 68, 2, 10, 3]),
   ([60792], [4, 2, 10, 3])]

def z80EncNEG : List (List Nat × List Nat) :=
  [([60740], []), ([60748], []), ([60756], []), ([60764], []), ([60772], []), ([60780], []), ([60788], []), ([60796], [])]

def z80EncRETN : List (List Nat × List Nat) :=
  [([60741], []), ([60757], []), ([60765], []), ([60773], []), ([60781], []), ([60789], []), ([60797], [])]

def z80EncIM : List (List Nat × List Nat) :=
  [([60742], [22]), ([60750], [65]), ([60758], [23]), ([60766], [24]), ([60774], [22]), ([60782], [65]), ([60790], [23]),
   ([60798], [24])]

def z80EncRETI : List (List Nat × List Nat) :=
  [([60749], [])]

def z80EncRRD : List (List Nat × List Nat) :=
  [([60775], [])]

def z80EncRLD : List (List Nat × List Nat) :=
  [([60783], [])]

def z80EncLDI : List (List Nat × List Nat) :=
  [([60832], [])]

def z80EncCPI : List (List Nat × List Nat) :=
  [([60833], [])]

def z80EncINI : List (List Nat × List Nat) :=
  [([60834], [])]

def z80EncOUTI : List (List Nat × List Nat) :=
  [([60835], [])]

def z80EncLDD : List (List Nat × List Nat) :=
  [([60840], [])]

def z80EncCPD : List (List Nat × List Nat) :=
  [([60841], [])]

def z80EncIND : List (List Nat × List Nat) :=
  [([60842], [])]

def z80EncOUTD : List (List Nat × List Nat) :=
  [([60843], [])]

def z80EncLDIR : List (List Nat × List Nat) :=
  [([60848], [])]

def z80EncCPIR : List (List Nat × List Nat) :=
  [([60849], [])]

def z80EncINIR : List (List Nat × List Nat) :=
  [([60850], [])]

def z80EncOTIR : List (List Nat × List Nat) :=
  [([60851], [])]

def z80EncLDDR : List (List Nat × List Nat) :=
  [([60856], [])]

def z80EncCPDR : List (List Nat × List Nat) :=
  [([60857], [])]

def z80EncINDR : List (List Nat × List Nat) :=
  [([60858], [])]

def z80EncOTDR : List (List Nat × List Nat) :=
  [([60859], [])]

def z80EncDI : List (List Nat × List Nat) :=
  [([243], [])]

def z80EncEI : List (List Nat × List Nat) :=
  [([251], [])]

def z80Enc : List (List (List Nat × List Nat)) :=
  [z80EncNOP, z80EncLD, z80EncINC, z80EncDEC, z80EncRLCA, z80EncEX, z80EncADD, z80EncRRCA, z80EncDJNZ, z80EncRLA, z80EncJR,
   z80EncRRA, z80EncDAA, z80EncCPL, z80EncSCF, z80EncCCF, z80EncHALT, z80EncADC, z80EncSUB, z80EncSBC, z80EncAND, z80EncXOR,
   z80EncOR, z80EncCP, z80EncRET, z80EncPOP, z80EncJP, z80EncCALL, z80EncPUSH, z80EncRST, z80EncRLC, z80EncRRC, z80EncRL,
   z80EncRR, z80EncSLA, z80EncSRA, z80EncSLL, z80EncSRL, z80EncBIT, z80EncRES, z80EncSET, z80EncOUT, z80EncEXX, z80EncIN,
   z80EncNEG, z80EncRETN, z80EncIM, z80EncRETI, z80EncRRD, z80EncRLD, z80EncLDI, z80EncCPI, z80EncINI, z80EncOUTI, z80EncLDD,
   z80EncCPD, z80EncIND, z80EncOUTD, z80EncLDIR, z80EncCPIR, z80EncINIR, z80EncOTIR, z80EncLDDR, z80EncCPDR, z80EncINDR,
   z80EncOTDR, z80EncDI, z80EncEI]

/-- Name, words and the codes of the variant that assembles it, for each opcode behind the prefix `none`. -/
def z80Ops_none : List (Option (Nat × List Nat × List Nat)) :=
  [some (0, [], [0]), some (1, [0, 1], [1]), some (1, [2, 0, 3, 4], [2]), some (2, [0], [3]), some (2, [5], [4]),
   some (3, [5], [5]), some (1, [5, 6], [6]), some (4, [], [7]), some (5, [7, 8], [8]), some (6, [9, 0], [9]),
   some (1, [4, 2, 0, 3], [10]), some (3, [0], [11]), some (2, [10], [12]), some (3, [10], [13]), some (1, [10, 6], [14]),
   some (7, [], [15]), some (8, [11], [16]), some (1, [12, 1], [17]), some (1, [2, 12, 3, 4], [18]), some (2, [12], [19]),
   some (2, [13], [20]), some (3, [13], [21]), some (1, [13, 6], [22]), some (9, [], [23]), some (10, [11], [24]),
   some (6, [9, 12], [25]), some (1, [4, 2, 12, 3], [26]), some (3, [12], [27]), some (2, [14], [28]), some (3, [14], [29]),
   some (1, [14, 6], [30]), some (11, [], [31]), some (10, [15, 11], [32]), some (1, [9, 1], [33]),
   some (1, [2, 1, 3, 9], [34]), some (2, [9], [35]), some (2, [16], [36]), some (3, [16], [37]), some (1, [16, 6], [38]),
   some (12, [], [39]), some (10, [17, 11], [40]), some (6, [9, 9], [41]), some (1, [9, 2, 1, 3], [42]), some (3, [9], [43]),
   some (2, [18], [44]), some (3, [18], [45]), some (1, [18, 6], [46]), some (13, [], [47]), some (10, [19, 11], [48]),
   some (1, [20, 1], [49]), some (1, [2, 1, 3, 4], [50]), some (2, [20], [51]), some (2, [2, 9, 3], [52]),
   some (3, [2, 9, 3], [53]), some (1, [2, 9, 3, 6], [54]), some (14, [], [55]), some (10, [10, 11], [56]),
   some (6, [9, 20], [57]), some (1, [4, 2, 1, 3], [58]), some (3, [20], [59]), some (2, [4], [60]), some (3, [4], [61]),
   some (1, [4, 6], [62]), some (15, [], [63]), some (1, [5, 5], [64]), some (1, [5, 10], [65]), some (1, [5, 13], [66]),
   some (1, [5, 14], [67]), some (1, [5, 16], [68]), some (1, [5, 18], [69]), some (1, [5, 2, 9, 3], [70]),
   some (1, [5, 4], [71]), some (1, [10, 5], [72]), some (1, [10, 10], [73]), some (1, [10, 13], [74]),
   some (1, [10, 14], [75]), some (1, [10, 16], [76]), some (1, [10, 18], [77]), some (1, [10, 2, 9, 3], [78]),
   some (1, [10, 4], [79]), some (1, [13, 5], [80]), some (1, [13, 10], [81]), some (1, [13, 13], [82]),
   some (1, [13, 14], [83]), some (1, [13, 16], [84]), some (1, [13, 18], [85]), some (1, [13, 2, 9, 3], [86]),
   some (1, [13, 4], [87]), some (1, [14, 5], [88]), some (1, [14, 10], [89]), some (1, [14, 13], [90]),
   some (1, [14, 14], [91]), some (1, [14, 16], [92]), some (1, [14, 18], [93]), some (1, [14, 2, 9, 3], [94]),
   some (1, [14, 4], [95]), some (1, [16, 5], [96]), some (1, [16, 10], [97]), some (1, [16, 13], [98]),
   some (1, [16, 14], [99]), some (1, [16, 16], [100]), some (1, [16, 18], [101]), some (1, [16, 2, 9, 3], [102]),
   some (1, [16, 4], [103]), some (1, [18, 5], [104]), some (1, [18, 10], [105]), some (1, [18, 13], [106]),
   some (1, [18, 14], [107]), some (1, [18, 16], [108]), some (1, [18, 18], [109]), some (1, [18, 2, 9, 3], [110]),
   some (1, [18, 4], [111]), some (1, [2, 9, 3, 5], [112]), some (1, [2, 9, 3, 10], [113]), some (1, [2, 9, 3, 13], [114]),
   some (1, [2, 9, 3, 14], [115]), some (1, [2, 9, 3, 16], [116]), some (1, [2, 9, 3, 18], [117]), some (16, [], [118]),
   some (1, [2, 9, 3, 4], [119]), some (1, [4, 5], [120]), some (1, [4, 10], [121]), some (1, [4, 13], [122]),
   some (1, [4, 14], [123]), some (1, [4, 16], [124]), some (1, [4, 18], [125]), some (1, [4, 2, 9, 3], [126]),
   some (1, [4, 4], [127]), some (6, [4, 5], [128]), some (6, [4, 10], [129]), some (6, [4, 13], [130]),
   some (6, [4, 14], [131]), some (6, [4, 16], [132]), some (6, [4, 18], [133]), some (6, [4, 2, 9, 3], [134]),
   some (6, [4, 4], [135]), some (17, [4, 5], [136]), some (17, [4, 10], [137]), some (17, [4, 13], [138]),
   some (17, [4, 14], [139]), some (17, [4, 16], [140]), some (17, [4, 18], [141]), some (17, [4, 2, 9, 3], [142]),
   some (17, [4, 4], [143]), some (18, [5], [144]), some (18, [10], [145]), some (18, [13], [146]), some (18, [14], [147]),
   some (18, [16], [148]), some (18, [18], [149]), some (18, [2, 9, 3], [150]), some (18, [4], [151]),
   some (19, [4, 5], [152]), some (19, [4, 10], [153]), some (19, [4, 13], [154]), some (19, [4, 14], [155]),
   some (19, [4, 16], [156]), some (19, [4, 18], [157]), some (19, [4, 2, 9, 3], [158]), some (19, [4, 4], [159]),
   some (20, [5], [160]), some (20, [10], [161]), some (20, [13], [162]), some (20, [14], [163]), some (20, [16], [164]),
   some (20, [18], [165]), some (20, [2, 9, 3], [166]), some (20, [4], [167]), some (21, [5], [168]), some (21, [10], [169]),
   some (21, [13], [170]), some (21, [14], [171]), some (21, [16], [172]), some (21, [18], [173]), some (21, [2, 9, 3], [174]),
   some (21, [4], [175]), some (22, [5], [176]), some (22, [10], [177]), some (22, [13], [178]), some (22, [14], [179]),
   some (22, [16], [180]), some (22, [18], [181]), some (22, [2, 9, 3], [182]), some (22, [4], [183]), some (23, [5], [184]),
   some (23, [10], [185]), some (23, [13], [186]), some (23, [14], [187]), some (23, [16], [188]), some (23, [18], [189]),
   some (23, [2, 9, 3], [190]), some (23, [4], [191]), some (24, [15], [192]), some (25, [0], [193]),
   some (26, [15, 1], [194]), some (26, [1], [195]), some (27, [15, 1], [196]), some (28, [0], [197]), some (6, [4, 6], [198]),
   some (29, [21], [199]), some (24, [17], [200]), some (24, [], [201]), some (26, [17, 1], [202]), none,
   some (27, [17, 1], [204]), some (27, [1], [205]), some (17, [4, 6], [206]), some (29, [30], [207]), some (24, [19], [208]),
   some (25, [12], [209]), some (26, [19, 1], [210]), some (41, [2, 6, 3, 4], [211]), some (27, [19, 1], [212]),
   some (28, [12], [213]), some (18, [6], [214]), some (29, [31], [215]), some (24, [10], [216]), some (42, [], [217]),
   some (26, [10, 1], [218]), some (43, [4, 2, 6, 3], [219]), some (27, [10, 1], [220]), none, some (19, [4, 6], [222]),
   some (29, [60], [223]), some (24, [61], [224]), some (25, [9], [225]), some (26, [61, 1], [226]),
   some (5, [2, 20, 3, 9], [227]), some (27, [61, 1], [228]), some (28, [9], [229]), some (20, [6], [230]),
   some (29, [62], [231]), some (24, [63], [232]), some (26, [2, 9, 3], [233]), some (26, [63, 1], [234]),
   some (5, [12, 9], [235]), some (27, [63, 1], [236]), none, some (21, [6], [238]), some (29, [69], [239]),
   some (24, [70], [240]), some (25, [7], [241]), some (26, [70, 1], [242]), some (66, [], [243]), some (27, [70, 1], [244]),
   some (28, [7], [245]), some (22, [6], [246]), some (29, [71], [247]), some (24, [72], [248]), some (1, [20, 9], [249]),
   some (26, [72, 1], [250]), some (67, [], [251]), some (27, [72, 1], [252]), none, some (23, [6], [254]),
   some (29, [77], [255])]

/-- Name, words and the codes of the variant that assembles it, for each opcode behind the prefix `cb`. -/
def z80Ops_cb : List (Option (Nat × List Nat × List Nat)) :=
  [some (30, [5], [51968]), some (30, [10], [51969]), some (30, [13], [51970]), some (30, [14], [51971]),
   some (30, [16], [51972]), some (30, [18], [51973]), some (30, [2, 9, 3], [51974]), some (30, [4], [51975]),
   some (31, [5], [51976]), some (31, [10], [51977]), some (31, [13], [51978]), some (31, [14], [51979]),
   some (31, [16], [51980]), some (31, [18], [51981]), some (31, [2, 9, 3], [51982]), some (31, [4], [51983]),
   some (32, [5], [51984]), some (32, [10], [51985]), some (32, [13], [51986]), some (32, [14], [51987]),
   some (32, [16], [51988]), some (32, [18], [51989]), some (32, [2, 9, 3], [51990]), some (32, [4], [51991]),
   some (33, [5], [51992]), some (33, [10], [51993]), some (33, [13], [51994]), some (33, [14], [51995]),
   some (33, [16], [51996]), some (33, [18], [51997]), some (33, [2, 9, 3], [51998]), some (33, [4], [51999]),
   some (34, [5], [52000]), some (34, [10], [52001]), some (34, [13], [52002]), some (34, [14], [52003]),
   some (34, [16], [52004]), some (34, [18], [52005]), some (34, [2, 9, 3], [52006]), some (34, [4], [52007]),
   some (35, [5], [52008]), some (35, [10], [52009]), some (35, [13], [52010]), some (35, [14], [52011]),
   some (35, [16], [52012]), some (35, [18], [52013]), some (35, [2, 9, 3], [52014]), some (35, [4], [52015]),
   some (36, [5], [52016]), some (36, [10], [52017]), some (36, [13], [52018]), some (36, [14], [52019]),
   some (36, [16], [52020]), some (36, [18], [52021]), some (36, [2, 9, 3], [52022]), some (36, [4], [52023]),
   some (37, [5], [52024]), some (37, [10], [52025]), some (37, [13], [52026]), some (37, [14], [52027]),
   some (37, [16], [52028]), some (37, [18], [52029]), some (37, [2, 9, 3], [52030]), some (37, [4], [52031]),
   some (38, [22, 5], [52032]), some (38, [22, 10], [52033]), some (38, [22, 13], [52034]), some (38, [22, 14], [52035]),
   some (38, [22, 16], [52036]), some (38, [22, 18], [52037]), some (38, [22, 2, 9, 3], [52038]), some (38, [22, 4], [52039]),
   some (38, [23, 5], [52040]), some (38, [23, 10], [52041]), some (38, [23, 13], [52042]), some (38, [23, 14], [52043]),
   some (38, [23, 16], [52044]), some (38, [23, 18], [52045]), some (38, [23, 2, 9, 3], [52046]), some (38, [23, 4], [52047]),
   some (38, [24, 5], [52048]), some (38, [24, 10], [52049]), some (38, [24, 13], [52050]), some (38, [24, 14], [52051]),
   some (38, [24, 16], [52052]), some (38, [24, 18], [52053]), some (38, [24, 2, 9, 3], [52054]), some (38, [24, 4], [52055]),
   some (38, [25, 5], [52056]), some (38, [25, 10], [52057]), some (38, [25, 13], [52058]), some (38, [25, 14], [52059]),
   some (38, [25, 16], [52060]), some (38, [25, 18], [52061]), some (38, [25, 2, 9, 3], [52062]), some (38, [25, 4], [52063]),
   some (38, [26, 5], [52064]), some (38, [26, 10], [52065]), some (38, [26, 13], [52066]), some (38, [26, 14], [52067]),
   some (38, [26, 16], [52068]), some (38, [26, 18], [52069]), some (38, [26, 2, 9, 3], [52070]), some (38, [26, 4], [52071]),
   some (38, [27, 5], [52072]), some (38, [27, 10], [52073]), some (38, [27, 13], [52074]), some (38, [27, 14], [52075]),
   some (38, [27, 16], [52076]), some (38, [27, 18], [52077]), some (38, [27, 2, 9, 3], [52078]), some (38, [27, 4], [52079]),
   some (38, [28, 5], [52080]), some (38, [28, 10], [52081]), some (38, [28, 13], [52082]), some (38, [28, 14], [52083]),
   some (38, [28, 16], [52084]), some (38, [28, 18], [52085]), some (38, [28, 2, 9, 3], [52086]), some (38, [28, 4], [52087]),
   some (38, [29, 5], [52088]), some (38, [29, 10], [52089]), some (38, [29, 13], [52090]), some (38, [29, 14], [52091]),
   some (38, [29, 16], [52092]), some (38, [29, 18], [52093]), some (38, [29, 2, 9, 3], [52094]), some (38, [29, 4], [52095]),
   some (39, [22, 5], [52096]), some (39, [22, 10], [52097]), some (39, [22, 13], [52098]), some (39, [22, 14], [52099]),
   some (39, [22, 16], [52100]), some (39, [22, 18], [52101]), some (39, [22, 2, 9, 3], [52102]), some (39, [22, 4], [52103]),
   some (39, [23, 5], [52104]), some (39, [23, 10], [52105]), some (39, [23, 13], [52106]), some (39, [23, 14], [52107]),
   some (39, [23, 16], [52108]), some (39, [23, 18], [52109]), some (39, [23, 2, 9, 3], [52110]), some (39, [23, 4], [52111]),
   some (39, [24, 5], [52112]), some (39, [24, 10], [52113]), some (39, [24, 13], [52114]), some (39, [24, 14], [52115]),
   some (39, [24, 16], [52116]), some (39, [24, 18], [52117]), some (39, [24, 2, 9, 3], [52118]), some (39, [24, 4], [52119]),
   some (39, [25, 5], [52120]), some (39, [25, 10], [52121]), some (39, [25, 13], [52122]), some (39, [25, 14], [52123]),
   some (39, [25, 16], [52124]), some (39, [25, 18], [52125]), some (39, [25, 2, 9, 3], [52126]), some (39, [25, 4], [52127]),
   some (39, [26, 5], [52128]), some (39, [26, 10], [52129]), some (39, [26, 13], [52130]), some (39, [26, 14], [52131]),
   some (39, [26, 16], [52132]), some (39, [26, 18], [52133]), some (39, [26, 2, 9, 3], [52134]), some (39, [26, 4], [52135]),
   some (39, [27, 5], [52136]), some (39, [27, 10], [52137]), some (39, [27, 13], [52138]), some (39, [27, 14], [52139]),
   some (39, [27, 16], [52140]), some (39, [27, 18], [52141]), some (39, [27, 2, 9, 3], [52142]), some (39, [27, 4], [52143]),
   some (39, [28, 5], [52144]), some (39, [28, 10], [52145]), some (39, [28, 13], [52146]), some (39, [28, 14], [52147]),
   some (39, [28, 16], [52148]), some (39, [28, 18], [52149]), some (39, [28, 2, 9, 3], [52150]), some (39, [28, 4], [52151]),
   some (39, [29, 5], [52152]), some (39, [29, 10], [52153]), some (39, [29, 13], [52154]), some (39, [29, 14], [52155]),
   some (39, [29, 16], [52156]), some (39, [29, 18], [52157]), some (39, [29, 2, 9, 3], [52158]), some (39, [29, 4], [52159]),
   some (40, [22, 5], [52160]), some (40, [22, 10], [52161]), some (40, [22, 13], [52162]), some (40, [22, 14], [52163]),
   some (40, [22, 16], [52164]), some (40, [22, 18], [52165]), some (40, [22, 2, 9, 3], [52166]), some (40, [22, 4], [52167]),
   some (40, [23, 5], [52168]), some (40, [23, 10], [52169]), some (40, [23, 13], [52170]), some (40, [23, 14], [52171]),
   some (40, [23, 16], [52172]), some (40, [23, 18], [52173]), some (40, [23, 2, 9, 3], [52174]), some (40, [23, 4], [52175]),
   some (40, [24, 5], [52176]), some (40, [24, 10], [52177]), some (40, [24, 13], [52178]), some (40, [24, 14], [52179]),
   some (40, [24, 16], [52180]), some (40, [24, 18], [52181]), some (40, [24, 2, 9, 3], [52182]), some (40, [24, 4], [52183]),
   some (40, [25, 5], [52184]), some (40, [25, 10], [52185]), some (40, [25, 13], [52186]), some (40, [25, 14], [52187]),
   some (40, [25, 16], [52188]), some (40, [25, 18], [52189]), some (40, [25, 2, 9, 3], [52190]), some (40, [25, 4], [52191]),
   some (40, [26, 5], [52192]), some (40, [26, 10], [52193]), some (40, [26, 13], [52194]), some (40, [26, 14], [52195]),
   some (40, [26, 16], [52196]), some (40, [26, 18], [52197]), some (40, [26, 2, 9, 3], [52198]), some (40, [26, 4], [52199]),
   some (40, [27, 5], [52200]), some (40, [27, 10], [52201]), some (40, [27, 13], [52202]), some (40, [27, 14], [52203]),
   some (40, [27, 16], [52204]), some (40, [27, 18], [52205]), some (40, [27, 2, 9, 3], [52206]), some (40, [27, 4], [52207]),
   some (40, [28, 5], [52208]), some (40, [28, 10], [52209]), some (40, [28, 13], [52210]), some (40, [28, 14], [52211]),
   some (40, [28, 16], [52212]), some (40, [28, 18], [52213]), some (40, [28, 2, 9, 3], [52214]), some (40, [28, 4], [52215]),
   some (40, [29, 5], [52216]), some (40, [29, 10], [52217]), some (40, [29, 13], [52218]), some (40, [29, 14], [52219]),
   some (40, [29, 16], [52220]), some (40, [29, 18], [52221]), some (40, [29, 2, 9, 3], [52222]), some (40, [29, 4], [52223])]

/-- Name, words and the codes of the variant that assembles it, for each opcode behind the prefix `ed`. -/
def z80Ops_ed : List (Option (Nat × List Nat × List Nat)) :=
  [none, none, none, none, none, none, none, none, none, none, none, none, none, none, none, none, none, none, none, none,
   none, none, none, none, none, none, none, none, none, none, none, none, none, none, none, none, none, none, none, none,
   none, none, none, none, none, none, none, none, none, none, none, none, none, none, none, none, none, none, none, none,
   none, none, none, none, some (43, [5, 2, 10, 3], [60736]), some (41, [2, 10, 3, 5], [60737]), some (19, [9, 0], [60738]),
   some (1, [2, 1, 3, 0], [60739]), some (44, [], [60740]), some (45, [], [60741]), some (46, [22], [60742]),
   some (1, [64, 4], [60743]), some (43, [10, 2, 10, 3], [60744]), some (41, [2, 10, 3, 10], [60745]),
   some (17, [9, 0], [60746]), some (1, [0, 2, 1, 3], [60747]), some (44, [], [60740]), some (47, [], [60749]),
   some (46, [65], [60750]), some (1, [66, 4], [60751]), some (43, [13, 2, 10, 3], [60752]),
   some (41, [2, 10, 3, 13], [60753]), some (19, [9, 12], [60754]), some (1, [2, 1, 3, 12], [60755]), some (44, [], [60740]),
   some (45, [], [60741]), some (46, [23], [60758]), some (1, [4, 64], [60759]), some (43, [14, 2, 10, 3], [60760]),
   some (41, [2, 10, 3, 14], [60761]), some (17, [9, 12], [60762]), some (1, [12, 2, 1, 3], [60763]), some (44, [], [60740]),
   some (45, [], [60741]), some (46, [24], [60766]), some (1, [4, 66], [60767]), some (43, [16, 2, 10, 3], [60768]),
   some (41, [2, 10, 3, 16], [60769]), some (19, [9, 9], [60770]), some (1, [2, 1, 3, 9], [34]), some (44, [], [60740]),
   some (45, [], [60741]), some (46, [22], [60742]), some (48, [], [60775]), some (43, [18, 2, 10, 3], [60776]),
   some (41, [2, 10, 3, 18], [60777]), some (17, [9, 9], [60778]), some (1, [9, 2, 1, 3], [42]), some (44, [], [60740]),
   some (45, [], [60741]), some (46, [65], [60750]), some (49, [], [60783]), some (43, [67, 2, 10, 3], []),
   some (41, [2, 10, 3, 22], [60785]), some (19, [9, 20], [60786]), some (1, [2, 1, 3, 20], [60787]), some (44, [], [60740]),
   some (45, [], [60741]), some (46, [23], [60758]), none, some (43, [4, 2, 10, 3], [60792]),
   some (41, [2, 10, 3, 4], [60793]), some (17, [9, 20], [60794]), some (1, [20, 2, 1, 3], [60795]), some (44, [], [60740]),
   some (45, [], [60741]), some (46, [24], [60766]), none, none, none, none, none, none, none, none, none, none, none, none,
   none, none, none, none, none, none, none, none, none, none, none, none, none, none, none, none, none, none, none, none,
   none, some (50, [], [60832]), some (51, [], [60833]), some (52, [], [60834]), some (53, [], [60835]), none, none, none,
   none, some (54, [], [60840]), some (55, [], [60841]), some (56, [], [60842]), some (57, [], [60843]), none, none, none,
   none, some (58, [], [60848]), some (59, [], [60849]), some (60, [], [60850]), some (61, [], [60851]), none, none, none,
   none, some (62, [], [60856]), some (63, [], [60857]), some (64, [], [60858]), some (65, [], [60859]), none, none, none,
   none, none, none, none, none, none, none, none, none, none, none, none, none, none, none, none, none, none, none, none,
   none, none, none, none, none, none, none, none, none, none, none, none, none, none, none, none, none, none, none, none,
   none, none, none, none, none, none, none, none, none, none, none, none, none, none, none, none, none, none, none, none,
   none, none, none, none, none]

/-- Name, words and the codes of the variant that assembles it, for each opcode behind the prefix `dd`. -/
def z80Ops_dd : List (Option (Nat × List Nat × List Nat)) :=
  [none, none, none, none, none, none, none, none, none, some (6, [32, 0], [56585]), none, none, none, none, none, none, none,
   none, none, none, none, none, none, none, none, some (6, [32, 12], [56601]), none, none, none, none, none, none, none,
   some (1, [32, 1], [56609]), some (1, [2, 1, 3, 32], [56610]), some (2, [32], [56611]), some (2, [33], [56612]),
   some (3, [33], [56613]), some (1, [33, 6], [56614]), none, none, some (6, [32, 32], [56617]),
   some (1, [32, 2, 1, 3], [56618]), some (3, [32], [56619]), some (2, [34], [56620]), some (3, [34], [56621]),
   some (1, [34, 6], [56622]), none, none, none, none, none, some (2, [2, 35, 3], [56628]), some (3, [2, 35, 3], [56629]),
   some (1, [2, 35, 3, 6], []), none, none, some (6, [32, 20], [56633]), none, none, none, none, none, none, none, none, none,
   none, some (1, [5, 33], [56644]), some (1, [5, 34], [56645]), some (1, [5, 2, 35, 3], [56646]), none, none, none, none,
   none, some (1, [10, 33], [56652]), some (1, [10, 34], [56653]), some (1, [10, 2, 35, 3], [56654]), none, none, none, none,
   none, some (1, [13, 33], [56660]), some (1, [13, 34], [56661]), some (1, [13, 2, 35, 3], [56662]), none, none, none, none,
   none, some (1, [14, 33], [56668]), some (1, [14, 34], [56669]), some (1, [14, 2, 35, 3], [56670]), none,
   some (1, [33, 5], [56672]), some (1, [33, 10], [56673]), some (1, [33, 13], [56674]), some (1, [33, 14], [56675]),
   some (1, [33, 33], [56676]), some (1, [33, 34], [56677]), some (1, [16, 2, 35, 3], [56678]), some (1, [33, 4], [56679]),
   some (1, [34, 5], [56680]), some (1, [34, 10], [56681]), some (1, [34, 13], [56682]), some (1, [34, 14], [56683]),
   some (1, [34, 33], [56684]), some (1, [34, 34], [56685]), some (1, [18, 2, 35, 3], [56686]), some (1, [34, 4], [56687]),
   some (1, [2, 35, 3, 5], [56688]), some (1, [2, 35, 3, 10], [56689]), some (1, [2, 35, 3, 13], [56690]),
   some (1, [2, 35, 3, 14], [56691]), some (1, [2, 35, 3, 16], [56692]), some (1, [2, 35, 3, 18], [56693]), none,
   some (1, [2, 35, 3, 4], []), none, none, none, none, some (1, [4, 33], [56700]), some (1, [4, 34], [56701]),
   some (1, [4, 2, 35, 3], []), none, none, none, none, none, some (6, [4, 33], [56708]), some (6, [4, 34], [56709]),
   some (6, [4, 2, 35, 3], [56710]), none, none, none, none, none, some (17, [4, 33], [56716]), some (17, [4, 34], [56717]),
   some (17, [4, 2, 35, 3], [56718]), none, none, none, none, none, some (18, [33], [56724]), some (18, [34], [56725]),
   some (18, [2, 35, 3], [56726]), none, none, none, none, none, some (19, [4, 33], [56732]), some (19, [4, 34], [56733]),
   some (19, [4, 2, 35, 3], [56734]), none, none, none, none, none, some (20, [33], [56740]), some (20, [34], [56741]),
   some (20, [2, 35, 3], [56742]), none, none, none, none, none, some (21, [33], [56748]), some (21, [34], [56749]),
   some (21, [2, 35, 3], [56750]), none, none, none, none, none, some (22, [33], [56756]), some (22, [34], [56757]),
   some (22, [2, 35, 3], [56758]), none, none, none, none, none, some (23, [33], [56764]), some (23, [34], [56765]),
   some (23, [2, 35, 3], [56766]), none, none, none, none, none, none, none, none, none, none, none, none, none, none, none,
   none, none, none, none, none, none, none, none, none, none, none, none, none, none, none, none, none, none, none,
   some (25, [32], [56801]), none, some (5, [2, 20, 3, 32], [56803]), none, some (28, [32], [56805]), none, none, none,
   some (26, [2, 32, 3], [56809]), none, none, none, none, none, none, none, none, none, none, none, none, none, none, none,
   some (1, [20, 32], [56825]), none, none, none, none, none, none]

/-- Name, words and the codes of the variant that assembles it, for each opcode behind the prefix `fd`. -/
def z80Ops_fd : List (Option (Nat × List Nat × List Nat)) :=
  [none, none, none, none, none, none, none, none, none, some (6, [73, 0], [64777]), none, none, none, none, none, none, none,
   none, none, none, none, none, none, none, none, some (6, [73, 12], [64793]), none, none, none, none, none, none, none,
   some (1, [73, 1], [64801]), some (1, [2, 1, 3, 73], [64802]), some (2, [73], [64803]), some (2, [74], [64804]),
   some (3, [74], [64805]), some (1, [74, 6], [64806]), none, none, some (6, [73, 73], [64809]),
   some (1, [73, 2, 1, 3], [64810]), some (3, [73], [64811]), some (2, [75], [64812]), some (3, [75], [64813]),
   some (1, [75, 6], [64814]), none, none, none, none, none, some (2, [2, 76, 3], [64820]), some (3, [2, 76, 3], [64821]),
   some (1, [2, 76, 3, 6], []), none, none, some (6, [73, 20], [64825]), none, none, none, none, none, none, none, none, none,
   none, some (1, [5, 74], [64836]), some (1, [5, 75], [64837]), some (1, [5, 2, 76, 3], [64838]), none, none, none, none,
   none, some (1, [10, 74], [64844]), some (1, [10, 75], [64845]), some (1, [10, 2, 76, 3], [64846]), none, none, none, none,
   none, some (1, [13, 74], [64852]), some (1, [13, 75], [64853]), some (1, [13, 2, 76, 3], [64854]), none, none, none, none,
   none, some (1, [14, 74], [64860]), some (1, [14, 75], [64861]), some (1, [14, 2, 76, 3], [64862]), none,
   some (1, [74, 5], [64864]), some (1, [74, 10], [64865]), some (1, [74, 13], [64866]), some (1, [74, 14], [64867]),
   some (1, [74, 74], [64868]), some (1, [74, 75], [64869]), some (1, [16, 2, 76, 3], [64870]), some (1, [74, 4], [64871]),
   some (1, [75, 5], [64872]), some (1, [75, 10], [64873]), some (1, [75, 13], [64874]), some (1, [75, 14], [64875]),
   some (1, [75, 74], [64876]), some (1, [75, 75], [64877]), some (1, [18, 2, 76, 3], [64878]), some (1, [75, 4], [64879]),
   some (1, [2, 76, 3, 5], [64880]), some (1, [2, 76, 3, 10], [64881]), some (1, [2, 76, 3, 13], [64882]),
   some (1, [2, 76, 3, 14], [64883]), some (1, [2, 76, 3, 16], [64884]), some (1, [2, 76, 3, 18], [64885]), none,
   some (1, [2, 76, 3, 4], []), none, none, none, none, some (1, [4, 74], [64892]), some (1, [4, 75], [64893]),
   some (1, [4, 2, 76, 3], []), none, none, none, none, none, some (6, [4, 74], [64900]), some (6, [4, 75], [64901]),
   some (6, [4, 2, 76, 3], [64902]), none, none, none, none, none, some (17, [4, 74], [64908]), some (17, [4, 75], [64909]),
   some (17, [4, 2, 76, 3], [64910]), none, none, none, none, none, some (18, [74], [64916]), some (18, [75], [64917]),
   some (18, [2, 76, 3], [64918]), none, none, none, none, none, some (19, [4, 74], [64924]), some (19, [4, 75], [64925]),
   some (19, [4, 2, 76, 3], [64926]), none, none, none, none, none, some (20, [74], [64932]), some (20, [75], [64933]),
   some (20, [2, 76, 3], [64934]), none, none, none, none, none, some (21, [74], [64940]), some (21, [75], [64941]),
   some (21, [2, 76, 3], [64942]), none, none, none, none, none, some (22, [74], [64948]), some (22, [75], [64949]),
   some (22, [2, 76, 3], [64950]), none, none, none, none, none, some (23, [74], [64956]), some (23, [75], [64957]),
   some (23, [2, 76, 3], [64958]), none, none, none, none, none, none, none, none, none, none, none, none, none, none, none,
   none, none, none, none, none, none, none, none, none, none, none, none, none, none, none, none, none, none, none,
   some (25, [73], [64993]), none, some (5, [2, 20, 3, 73], [64995]), none, some (28, [73], [64997]), none, none, none,
   some (26, [2, 73, 3], [65001]), none, none, none, none, none, none, none, none, none, none, none, none, none, none, none,
   some (1, [20, 73], [65017]), none, none, none, none, none, none]

/-- Name, words and the codes of the variant that assembles it, for each opcode behind the prefix `ddcb`. -/
def z80Ops_ddcb : List (Option (Nat × List Nat × List Nat)) :=
  [some (1, [5, 36, 2, 35, 3], [56779, 0]), some (1, [10, 36, 2, 35, 3], [56779, 1]), some (1, [13, 36, 2, 35, 3], [56779, 2]),
   some (1, [14, 36, 2, 35, 3], [56779, 3]), some (1, [16, 36, 2, 35, 3], [56779, 4]),
   some (1, [18, 36, 2, 35, 3], [56779, 5]), some (30, [2, 35, 3], [56779, 6]), some (1, [4, 36, 2, 35, 3], [56779, 7]),
   some (1, [5, 37, 2, 35, 3], [56779, 8]), some (1, [10, 37, 2, 35, 3], [56779, 9]),
   some (1, [13, 37, 2, 35, 3], [56779, 10]), some (1, [14, 37, 2, 35, 3], [56779, 11]),
   some (1, [16, 37, 2, 35, 3], [56779, 12]), some (1, [18, 37, 2, 35, 3], [56779, 13]), some (31, [2, 35, 3], [56779, 14]),
   some (1, [4, 37, 2, 35, 3], [56779, 15]), some (1, [5, 38, 2, 35, 3], [56779, 16]),
   some (1, [10, 38, 2, 35, 3], [56779, 17]), some (1, [13, 38, 2, 35, 3], [56779, 18]),
   some (1, [14, 38, 2, 35, 3], [56779, 19]), some (1, [16, 38, 2, 35, 3], [56779, 20]),
   some (1, [18, 38, 2, 35, 3], [56779, 21]), some (32, [2, 35, 3], [56779, 22]), some (1, [4, 38, 2, 35, 3], [56779, 23]),
   some (1, [5, 39, 2, 35, 3], [56779, 24]), some (1, [10, 39, 2, 35, 3], [56779, 25]),
   some (1, [13, 39, 2, 35, 3], [56779, 26]), some (1, [14, 39, 2, 35, 3], [56779, 27]),
   some (1, [16, 39, 2, 35, 3], [56779, 28]), some (1, [18, 39, 2, 35, 3], [56779, 29]), some (33, [2, 35, 3], [56779, 30]),
   some (1, [4, 39, 2, 35, 3], [56779, 31]), some (1, [5, 40, 2, 35, 3], [56779, 32]),
   some (1, [10, 40, 2, 35, 3], [56779, 33]), some (1, [13, 40, 2, 35, 3], [56779, 34]),
   some (1, [14, 40, 2, 35, 3], [56779, 35]), some (1, [16, 40, 2, 35, 3], [56779, 36]),
   some (1, [18, 40, 2, 35, 3], [56779, 37]), some (34, [2, 35, 3], [56779, 38]), some (1, [4, 40, 2, 35, 3], [56779, 39]),
   some (1, [5, 41, 2, 35, 3], [56779, 40]), some (1, [10, 41, 2, 35, 3], [56779, 41]),
   some (1, [13, 41, 2, 35, 3], [56779, 42]), some (1, [14, 41, 2, 35, 3], [56779, 43]),
   some (1, [16, 41, 2, 35, 3], [56779, 44]), some (1, [18, 41, 2, 35, 3], [56779, 45]), some (35, [2, 35, 3], [56779, 46]),
   some (1, [4, 41, 2, 35, 3], [56779, 47]), some (1, [5, 42, 2, 35, 3], [56779, 48]),
   some (1, [10, 42, 2, 35, 3], [56779, 49]), some (1, [13, 42, 2, 35, 3], [56779, 50]),
   some (1, [14, 42, 2, 35, 3], [56779, 51]), some (1, [16, 42, 2, 35, 3], [56779, 52]),
   some (1, [18, 42, 2, 35, 3], [56779, 53]), some (36, [2, 35, 3], [56779, 54]), some (1, [4, 42, 2, 35, 3], [56779, 55]),
   some (1, [5, 43, 2, 35, 3], [56779, 56]), some (1, [10, 43, 2, 35, 3], [56779, 57]),
   some (1, [13, 43, 2, 35, 3], [56779, 58]), some (1, [14, 43, 2, 35, 3], [56779, 59]),
   some (1, [16, 43, 2, 35, 3], [56779, 60]), some (1, [18, 43, 2, 35, 3], [56779, 61]), some (37, [2, 35, 3], [56779, 62]),
   some (1, [4, 43, 2, 35, 3], [56779, 63]), some (38, [22, 2, 35, 3], [56779, 64]), some (38, [22, 2, 35, 3], [56779, 64]),
   some (38, [22, 2, 35, 3], [56779, 64]), some (38, [22, 2, 35, 3], [56779, 64]), some (38, [22, 2, 35, 3], [56779, 64]),
   some (38, [22, 2, 35, 3], [56779, 64]), some (38, [22, 2, 35, 3], [56779, 64]), some (38, [22, 2, 35, 3], [56779, 64]),
   some (38, [23, 2, 35, 3], [56779, 72]), some (38, [23, 2, 35, 3], [56779, 72]), some (38, [23, 2, 35, 3], [56779, 72]),
   some (38, [23, 2, 35, 3], [56779, 72]), some (38, [23, 2, 35, 3], [56779, 72]), some (38, [23, 2, 35, 3], [56779, 72]),
   some (38, [23, 2, 35, 3], [56779, 72]), some (38, [23, 2, 35, 3], [56779, 72]), some (38, [24, 2, 35, 3], [56779, 80]),
   some (38, [24, 2, 35, 3], [56779, 80]), some (38, [24, 2, 35, 3], [56779, 80]), some (38, [24, 2, 35, 3], [56779, 80]),
   some (38, [24, 2, 35, 3], [56779, 80]), some (38, [24, 2, 35, 3], [56779, 80]), some (38, [24, 2, 35, 3], [56779, 80]),
   some (38, [24, 2, 35, 3], [56779, 80]), some (38, [25, 2, 35, 3], [56779, 88]), some (38, [25, 2, 35, 3], [56779, 88]),
   some (38, [25, 2, 35, 3], [56779, 88]), some (38, [25, 2, 35, 3], [56779, 88]), some (38, [25, 2, 35, 3], [56779, 88]),
   some (38, [25, 2, 35, 3], [56779, 88]), some (38, [25, 2, 35, 3], [56779, 88]), some (38, [25, 2, 35, 3], [56779, 88]),
   some (38, [26, 2, 35, 3], [56779, 96]), some (38, [26, 2, 35, 3], [56779, 96]), some (38, [26, 2, 35, 3], [56779, 96]),
   some (38, [26, 2, 35, 3], [56779, 96]), some (38, [26, 2, 35, 3], [56779, 96]), some (38, [26, 2, 35, 3], [56779, 96]),
   some (38, [26, 2, 35, 3], [56779, 96]), some (38, [26, 2, 35, 3], [56779, 96]), some (38, [27, 2, 35, 3], [56779, 104]),
   some (38, [27, 2, 35, 3], [56779, 104]), some (38, [27, 2, 35, 3], [56779, 104]), some (38, [27, 2, 35, 3], [56779, 104]),
   some (38, [27, 2, 35, 3], [56779, 104]), some (38, [27, 2, 35, 3], [56779, 104]), some (38, [27, 2, 35, 3], [56779, 104]),
   some (38, [27, 2, 35, 3], [56779, 104]), some (38, [28, 2, 35, 3], [56779, 112]), some (38, [28, 2, 35, 3], [56779, 112]),
   some (38, [28, 2, 35, 3], [56779, 112]), some (38, [28, 2, 35, 3], [56779, 112]), some (38, [28, 2, 35, 3], [56779, 112]),
   some (38, [28, 2, 35, 3], [56779, 112]), some (38, [28, 2, 35, 3], [56779, 112]), some (38, [28, 2, 35, 3], [56779, 112]),
   some (38, [29, 2, 35, 3], [56779, 120]), some (38, [29, 2, 35, 3], [56779, 120]), some (38, [29, 2, 35, 3], [56779, 120]),
   some (38, [29, 2, 35, 3], [56779, 120]), some (38, [29, 2, 35, 3], [56779, 120]), some (38, [29, 2, 35, 3], [56779, 120]),
   some (38, [29, 2, 35, 3], [56779, 120]), some (38, [29, 2, 35, 3], [56779, 120]), some (1, [5, 44, 2, 35, 3], [56779, 128]),
   some (1, [10, 44, 2, 35, 3], [56779, 129]), some (1, [13, 44, 2, 35, 3], [56779, 130]),
   some (1, [14, 44, 2, 35, 3], [56779, 131]), some (1, [16, 44, 2, 35, 3], [56779, 132]),
   some (1, [18, 44, 2, 35, 3], [56779, 133]), some (39, [22, 2, 35, 3], [56779, 134]),
   some (1, [4, 44, 2, 35, 3], [56779, 135]), some (1, [5, 45, 2, 35, 3], [56779, 136]),
   some (1, [10, 45, 2, 35, 3], [56779, 137]), some (1, [13, 45, 2, 35, 3], [56779, 138]),
   some (1, [14, 45, 2, 35, 3], [56779, 139]), some (1, [16, 45, 2, 35, 3], [56779, 140]),
   some (1, [18, 45, 2, 35, 3], [56779, 141]), some (39, [23, 2, 35, 3], [56779, 142]),
   some (1, [4, 45, 2, 35, 3], [56779, 143]), some (1, [5, 46, 2, 35, 3], [56779, 144]),
   some (1, [10, 46, 2, 35, 3], [56779, 145]), some (1, [13, 46, 2, 35, 3], [56779, 146]),
   some (1, [14, 46, 2, 35, 3], [56779, 147]), some (1, [16, 46, 2, 35, 3], [56779, 148]),
   some (1, [18, 46, 2, 35, 3], [56779, 149]), some (39, [24, 2, 35, 3], [56779, 150]),
   some (1, [4, 46, 2, 35, 3], [56779, 151]), some (1, [5, 47, 2, 35, 3], [56779, 152]),
   some (1, [10, 47, 2, 35, 3], [56779, 153]), some (1, [13, 47, 2, 35, 3], [56779, 154]),
   some (1, [14, 47, 2, 35, 3], [56779, 155]), some (1, [16, 47, 2, 35, 3], [56779, 156]),
   some (1, [18, 47, 2, 35, 3], [56779, 157]), some (39, [25, 2, 35, 3], [56779, 158]),
   some (1, [4, 47, 2, 35, 3], [56779, 159]), some (1, [5, 48, 2, 35, 3], [56779, 160]),
   some (1, [10, 48, 2, 35, 3], [56779, 161]), some (1, [13, 48, 2, 35, 3], [56779, 162]),
   some (1, [14, 48, 2, 35, 3], [56779, 163]), some (1, [16, 48, 2, 35, 3], [56779, 164]),
   some (1, [18, 48, 2, 35, 3], [56779, 165]), some (39, [26, 2, 35, 3], [56779, 166]),
   some (1, [4, 48, 2, 35, 3], [56779, 167]), some (1, [5, 49, 2, 35, 3], [56779, 168]),
   some (1, [10, 49, 2, 35, 3], [56779, 169]), some (1, [13, 49, 2, 35, 3], [56779, 170]),
   some (1, [14, 49, 2, 35, 3], [56779, 171]), some (1, [16, 49, 2, 35, 3], [56779, 172]),
   some (1, [18, 49, 2, 35, 3], [56779, 173]), some (39, [27, 2, 35, 3], [56779, 174]),
   some (1, [4, 49, 2, 35, 3], [56779, 175]), some (1, [5, 50, 2, 35, 3], [56779, 176]),
   some (1, [10, 50, 2, 35, 3], [56779, 177]), some (1, [13, 50, 2, 35, 3], [56779, 178]),
   some (1, [14, 50, 2, 35, 3], [56779, 179]), some (1, [16, 50, 2, 35, 3], [56779, 180]),
   some (1, [18, 50, 2, 35, 3], [56779, 181]), some (39, [28, 2, 35, 3], [56779, 182]),
   some (1, [4, 50, 2, 35, 3], [56779, 183]), some (1, [5, 51, 2, 35, 3], [56779, 184]),
   some (1, [10, 51, 2, 35, 3], [56779, 185]), some (1, [13, 51, 2, 35, 3], [56779, 186]),
   some (1, [14, 51, 2, 35, 3], [56779, 187]), some (1, [16, 51, 2, 35, 3], [56779, 188]),
   some (1, [18, 51, 2, 35, 3], [56779, 189]), some (39, [29, 2, 35, 3], [56779, 190]),
   some (1, [4, 51, 2, 35, 3], [56779, 191]), some (1, [5, 52, 2, 35, 3], [56779, 192]),
   some (1, [10, 52, 2, 35, 3], [56779, 193]), some (1, [13, 52, 2, 35, 3], [56779, 194]),
   some (1, [14, 52, 2, 35, 3], [56779, 195]), some (1, [16, 52, 2, 35, 3], [56779, 196]),
   some (1, [18, 52, 2, 35, 3], [56779, 197]), some (40, [22, 2, 35, 3], [56779, 198]),
   some (1, [4, 52, 2, 35, 3], [56779, 199]), some (1, [5, 53, 2, 35, 3], [56779, 200]),
   some (1, [10, 53, 2, 35, 3], [56779, 201]), some (1, [13, 53, 2, 35, 3], [56779, 202]),
   some (1, [14, 53, 2, 35, 3], [56779, 203]), some (1, [16, 53, 2, 35, 3], [56779, 204]),
   some (1, [18, 53, 2, 35, 3], [56779, 205]), some (40, [23, 2, 35, 3], [56779, 206]),
   some (1, [4, 53, 2, 35, 3], [56779, 207]), some (1, [5, 54, 2, 35, 3], [56779, 208]),
   some (1, [10, 54, 2, 35, 3], [56779, 209]), some (1, [13, 54, 2, 35, 3], [56779, 210]),
   some (1, [14, 54, 2, 35, 3], [56779, 211]), some (1, [16, 54, 2, 35, 3], [56779, 212]),
   some (1, [18, 54, 2, 35, 3], [56779, 213]), some (40, [24, 2, 35, 3], [56779, 214]),
   some (1, [4, 54, 2, 35, 3], [56779, 215]), some (1, [5, 55, 2, 35, 3], [56779, 216]),
   some (1, [10, 55, 2, 35, 3], [56779, 217]), some (1, [13, 55, 2, 35, 3], [56779, 218]),
   some (1, [14, 55, 2, 35, 3], [56779, 219]), some (1, [16, 55, 2, 35, 3], [56779, 220]),
   some (1, [18, 55, 2, 35, 3], [56779, 221]), some (40, [25, 2, 35, 3], [56779, 222]),
   some (1, [4, 55, 2, 35, 3], [56779, 223]), some (1, [5, 56, 2, 35, 3], [56779, 224]),
   some (1, [10, 56, 2, 35, 3], [56779, 225]), some (1, [13, 56, 2, 35, 3], [56779, 226]),
   some (1, [14, 56, 2, 35, 3], [56779, 227]), some (1, [16, 56, 2, 35, 3], [56779, 228]),
   some (1, [18, 56, 2, 35, 3], [56779, 229]), some (40, [26, 2, 35, 3], [56779, 230]),
   some (1, [4, 56, 2, 35, 3], [56779, 231]), some (1, [5, 57, 2, 35, 3], [56779, 232]),
   some (1, [10, 57, 2, 35, 3], [56779, 233]), some (1, [13, 57, 2, 35, 3], [56779, 234]),
   some (1, [14, 57, 2, 35, 3], [56779, 235]), some (1, [16, 57, 2, 35, 3], [56779, 236]),
   some (1, [18, 57, 2, 35, 3], [56779, 237]), some (40, [27, 2, 35, 3], [56779, 238]),
   some (1, [4, 57, 2, 35, 3], [56779, 239]), some (1, [5, 58, 2, 35, 3], [56779, 240]),
   some (1, [10, 58, 2, 35, 3], [56779, 241]), some (1, [13, 58, 2, 35, 3], [56779, 242]),
   some (1, [14, 58, 2, 35, 3], [56779, 243]), some (1, [16, 58, 2, 35, 3], [56779, 244]),
   some (1, [18, 58, 2, 35, 3], [56779, 245]), some (40, [28, 2, 35, 3], [56779, 246]),
   some (1, [4, 58, 2, 35, 3], [56779, 247]), some (1, [5, 59, 2, 35, 3], [56779, 248]),
   some (1, [10, 59, 2, 35, 3], [56779, 249]), some (1, [13, 59, 2, 35, 3], [56779, 250]),
   some (1, [14, 59, 2, 35, 3], [56779, 251]), some (1, [16, 59, 2, 35, 3], [56779, 252]),
   some (1, [18, 59, 2, 35, 3], [56779, 253]), some (40, [29, 2, 35, 3], [56779, 254]),
   some (1, [4, 59, 2, 35, 3], [56779, 255])]

/-- Name, words and the codes of the variant that assembles it, for each opcode behind the prefix `fdcb`. -/
def z80Ops_fdcb : List (Option (Nat × List Nat × List Nat)) :=
  [some (1, [5, 36, 2, 76, 3], [64971, 0]), some (1, [10, 36, 2, 76, 3], [64971, 1]), some (1, [13, 36, 2, 76, 3], [64971, 2]),
   some (1, [14, 36, 2, 76, 3], [64971, 3]), some (1, [16, 36, 2, 76, 3], [64971, 4]),
   some (1, [18, 36, 2, 76, 3], [64971, 5]), some (30, [2, 76, 3], [64971, 6]), some (1, [4, 36, 2, 76, 3], [64971, 7]),
   some (1, [5, 37, 2, 76, 3], [64971, 8]), some (1, [10, 37, 2, 76, 3], [64971, 9]),
   some (1, [13, 37, 2, 76, 3], [64971, 10]), some (1, [14, 37, 2, 76, 3], [64971, 11]),
   some (1, [16, 37, 2, 76, 3], [64971, 12]), some (1, [18, 37, 2, 76, 3], [64971, 13]), some (31, [2, 76, 3], [64971, 14]),
   some (1, [4, 37, 2, 76, 3], [64971, 15]), some (1, [5, 38, 2, 76, 3], [64971, 16]),
   some (1, [10, 38, 2, 76, 3], [64971, 17]), some (1, [13, 38, 2, 76, 3], [64971, 18]),
   some (1, [14, 38, 2, 76, 3], [64971, 19]), some (1, [16, 38, 2, 76, 3], [64971, 20]),
   some (1, [18, 38, 2, 76, 3], [64971, 21]), some (32, [2, 76, 3], [64971, 22]), some (1, [4, 38, 2, 76, 3], [64971, 23]),
   some (1, [5, 39, 2, 76, 3], [64971, 24]), some (1, [10, 39, 2, 76, 3], [64971, 25]),
   some (1, [13, 39, 2, 76, 3], [64971, 26]), some (1, [14, 39, 2, 76, 3], [64971, 27]),
   some (1, [16, 39, 2, 76, 3], [64971, 28]), some (1, [18, 39, 2, 76, 3], [64971, 29]), some (33, [2, 76, 3], [64971, 30]),
   some (1, [4, 39, 2, 76, 3], [64971, 31]), some (1, [5, 40, 2, 76, 3], [64971, 32]),
   some (1, [10, 40, 2, 76, 3], [64971, 33]), some (1, [13, 40, 2, 76, 3], [64971, 34]),
   some (1, [14, 40, 2, 76, 3], [64971, 35]), some (1, [16, 40, 2, 76, 3], [64971, 36]),
   some (1, [18, 40, 2, 76, 3], [64971, 37]), some (34, [2, 76, 3], [64971, 38]), some (1, [4, 40, 2, 76, 3], [64971, 39]),
   some (1, [5, 41, 2, 76, 3], [64971, 40]), some (1, [10, 41, 2, 76, 3], [64971, 41]),
   some (1, [13, 41, 2, 76, 3], [64971, 42]), some (1, [14, 41, 2, 76, 3], [64971, 43]),
   some (1, [16, 41, 2, 76, 3], [64971, 44]), some (1, [18, 41, 2, 76, 3], [64971, 45]), some (35, [2, 76, 3], [64971, 46]),
   some (1, [4, 41, 2, 76, 3], [64971, 47]), some (1, [5, 42, 2, 76, 3], [64971, 48]),
   some (1, [10, 42, 2, 76, 3], [64971, 49]), some (1, [13, 42, 2, 76, 3], [64971, 50]),
   some (1, [14, 42, 2, 76, 3], [64971, 51]), some (1, [16, 42, 2, 76, 3], [64971, 52]),
   some (1, [18, 42, 2, 76, 3], [64971, 53]), some (36, [2, 76, 3], [64971, 54]), some (1, [4, 42, 2, 76, 3], [64971, 55]),
   some (1, [5, 43, 2, 76, 3], [64971, 56]), some (1, [10, 43, 2, 76, 3], [64971, 57]),
   some (1, [13, 43, 2, 76, 3], [64971, 58]), some (1, [14, 43, 2, 76, 3], [64971, 59]),
   some (1, [16, 43, 2, 76, 3], [64971, 60]), some (1, [18, 43, 2, 76, 3], [64971, 61]), some (37, [2, 76, 3], [64971, 62]),
   some (1, [4, 43, 2, 76, 3], [64971, 63]), some (38, [22, 2, 76, 3], [64971, 64]), some (38, [22, 2, 76, 3], [64971, 64]),
   some (38, [22, 2, 76, 3], [64971, 64]), some (38, [22, 2, 76, 3], [64971, 64]), some (38, [22, 2, 76, 3], [64971, 64]),
   some (38, [22, 2, 76, 3], [64971, 64]), some (38, [22, 2, 76, 3], [64971, 64]), some (38, [22, 2, 76, 3], [64971, 64]),
   some (38, [23, 2, 76, 3], [64971, 72]), some (38, [23, 2, 76, 3], [64971, 72]), some (38, [23, 2, 76, 3], [64971, 72]),
   some (38, [23, 2, 76, 3], [64971, 72]), some (38, [23, 2, 76, 3], [64971, 72]), some (38, [23, 2, 76, 3], [64971, 72]),
   some (38, [23, 2, 76, 3], [64971, 72]), some (38, [23, 2, 76, 3], [64971, 72]), some (38, [24, 2, 76, 3], [64971, 80]),
   some (38, [24, 2, 76, 3], [64971, 80]), some (38, [24, 2, 76, 3], [64971, 80]), some (38, [24, 2, 76, 3], [64971, 80]),
   some (38, [24, 2, 76, 3], [64971, 80]), some (38, [24, 2, 76, 3], [64971, 80]), some (38, [24, 2, 76, 3], [64971, 80]),
   some (38, [24, 2, 76, 3], [64971, 80]), some (38, [25, 2, 76, 3], [64971, 88]), some (38, [25, 2, 76, 3], [64971, 88]),
   some (38, [25, 2, 76, 3], [64971, 88]), some (38, [25, 2, 76, 3], [64971, 88]), some (38, [25, 2, 76, 3], [64971, 88]),
   some (38, [25, 2, 76, 3], [64971, 88]), some (38, [25, 2, 76, 3], [64971, 88]), some (38, [25, 2, 76, 3], [64971, 88]),
   some (38, [26, 2, 76, 3], [64971, 96]), some (38, [26, 2, 76, 3], [64971, 96]), some (38, [26, 2, 76, 3], [64971, 96]),
   some (38, [26, 2, 76, 3], [64971, 96]), some (38, [26, 2, 76, 3], [64971, 96]), some (38, [26, 2, 76, 3], [64971, 96]),
   some (38, [26, 2, 76, 3], [64971, 96]), some (38, [26, 2, 76, 3], [64971, 96]), some (38, [27, 2, 76, 3], [64971, 104]),
   some (38, [27, 2, 76, 3], [64971, 104]), some (38, [27, 2, 76, 3], [64971, 104]), some (38, [27, 2, 76, 3], [64971, 104]),
   some (38, [27, 2, 76, 3], [64971, 104]), some (38, [27, 2, 76, 3], [64971, 104]), some (38, [27, 2, 76, 3], [64971, 104]),
   some (38, [27, 2, 76, 3], [64971, 104]), some (38, [28, 2, 76, 3], [64971, 112]), some (38, [28, 2, 76, 3], [64971, 112]),
   some (38, [28, 2, 76, 3], [64971, 112]), some (38, [28, 2, 76, 3], [64971, 112]), some (38, [28, 2, 76, 3], [64971, 112]),
   some (38, [28, 2, 76, 3], [64971, 112]), some (38, [28, 2, 76, 3], [64971, 112]), some (38, [28, 2, 76, 3], [64971, 112]),
   some (38, [29, 2, 76, 3], [64971, 120]), some (38, [29, 2, 76, 3], [64971, 120]), some (38, [29, 2, 76, 3], [64971, 120]),
   some (38, [29, 2, 76, 3], [64971, 120]), some (38, [29, 2, 76, 3], [64971, 120]), some (38, [29, 2, 76, 3], [64971, 120]),
   some (38, [29, 2, 76, 3], [64971, 120]), some (38, [29, 2, 76, 3], [64971, 120]), some (1, [5, 44, 2, 76, 3], [64971, 128]),
   some (1, [10, 44, 2, 76, 3], [64971, 129]), some (1, [13, 44, 2, 76, 3], [64971, 130]),
   some (1, [14, 44, 2, 76, 3], [64971, 131]), some (1, [16, 44, 2, 76, 3], [64971, 132]),
   some (1, [18, 44, 2, 76, 3], [64971, 133]), some (39, [22, 2, 76, 3], [64971, 134]),
   some (1, [4, 44, 2, 76, 3], [64971, 135]), some (1, [5, 45, 2, 76, 3], [64971, 136]),
   some (1, [10, 45, 2, 76, 3], [64971, 137]), some (1, [13, 45, 2, 76, 3], [64971, 138]),
   some (1, [14, 45, 2, 76, 3], [64971, 139]), some (1, [16, 45, 2, 76, 3], [64971, 140]),
   some (1, [18, 45, 2, 76, 3], [64971, 141]), some (39, [23, 2, 76, 3], [64971, 142]),
   some (1, [4, 45, 2, 76, 3], [64971, 143]), some (1, [5, 46, 2, 76, 3], [64971, 144]),
   some (1, [10, 46, 2, 76, 3], [64971, 145]), some (1, [13, 46, 2, 76, 3], [64971, 146]),
   some (1, [14, 46, 2, 76, 3], [64971, 147]), some (1, [16, 46, 2, 76, 3], [64971, 148]),
   some (1, [18, 46, 2, 76, 3], [64971, 149]), some (39, [24, 2, 76, 3], [64971, 150]),
   some (1, [4, 46, 2, 76, 3], [64971, 151]), some (1, [5, 47, 2, 76, 3], [64971, 152]),
   some (1, [10, 47, 2, 76, 3], [64971, 153]), some (1, [13, 47, 2, 76, 3], [64971, 154]),
   some (1, [14, 47, 2, 76, 3], [64971, 155]), some (1, [16, 47, 2, 76, 3], [64971, 156]),
   some (1, [18, 47, 2, 76, 3], [64971, 157]), some (39, [25, 2, 76, 3], [64971, 158]),
   some (1, [4, 47, 2, 76, 3], [64971, 159]), some (1, [5, 48, 2, 76, 3], [64971, 160]),
   some (1, [10, 48, 2, 76, 3], [64971, 161]), some (1, [13, 48, 2, 76, 3], [64971, 162]),
   some (1, [14, 48, 2, 76, 3], [64971, 163]), some (1, [16, 48, 2, 76, 3], [64971, 164]),
   some (1, [18, 48, 2, 76, 3], [64971, 165]), some (39, [26, 2, 76, 3], [64971, 166]),
   some (1, [4, 48, 2, 76, 3], [64971, 167]), some (1, [5, 49, 2, 76, 3], [64971, 168]),
   some (1, [10, 49, 2, 76, 3], [64971, 169]), some (1, [13, 49, 2, 76, 3], [64971, 170]),
   some (1, [14, 49, 2, 76, 3], [64971, 171]), some (1, [16, 49, 2, 76, 3], [64971, 172]),
   some (1, [18, 49, 2, 76, 3], [64971, 173]), some (39, [27, 2, 76, 3], [64971, 174]),
   some (1, [4, 49, 2, 76, 3], [64971, 175]), some (1, [5, 50, 2, 76, 3], [64971, 176]),
   some (1, [10, 50, 2, 76, 3], [64971, 177]), some (1, [13, 50, 2, 76, 3], [64971, 178]),
   some (1, [14, 50, 2, 76, 3], [64971, 179]), some (1, [16, 50, 2, 76, 3], [64971, 180]),
   some (1, [18, 50, 2, 76, 3], [64971, 181]), some (39, [28, 2, 76, 3], [64971, 182]),
   some (1, [4, 50, 2, 76, 3], [64971, 183]), some (1, [5, 51, 2, 76, 3], [64971, 184]),
   some (1, [10, 51, 2, 76, 3], [64971, 185]), some (1, [13, 51, 2, 76, 3], [64971, 186]),
   some (1, [14, 51, 2, 76, 3], [64971, 187]), some (1, [16, 51, 2, 76, 3], [64971, 188]),
   some (1, [18, 51, 2, 76, 3], [64971, 189]), some (39, [29, 2, 76, 3], [64971, 190]),
   some (1, [4, 51, 2, 76, 3], [64971, 191]), some (1, [5, 52, 2, 76, 3], [64971, 192]),
   some (1, [10, 52, 2, 76, 3], [64971, 193]), some (1, [13, 52, 2, 76, 3], [64971, 194]),
   some (1, [14, 52, 2, 76, 3], [64971, 195]), some (1, [16, 52, 2, 76, 3], [64971, 196]),
   some (1, [18, 52, 2, 76, 3], [64971, 197]), some (40, [22, 2, 76, 3], [64971, 198]),
   some (1, [4, 52, 2, 76, 3], [64971, 199]), some (1, [5, 53, 2, 76, 3], [64971, 200]),
   some (1, [10, 53, 2, 76, 3], [64971, 201]), some (1, [13, 53, 2, 76, 3], [64971, 202]),
   some (1, [14, 53, 2, 76, 3], [64971, 203]), some (1, [16, 53, 2, 76, 3], [64971, 204]),
   some (1, [18, 53, 2, 76, 3], [64971, 205]), some (40, [23, 2, 76, 3], [64971, 206]),
   some (1, [4, 53, 2, 76, 3], [64971, 207]), some (1, [5, 54, 2, 76, 3], [64971, 208]),
   some (1, [10, 54, 2, 76, 3], [64971, 209]), some (1, [13, 54, 2, 76, 3], [64971, 210]),
   some (1, [14, 54, 2, 76, 3], [64971, 211]), some (1, [16, 54, 2, 76, 3], [64971, 212]),
   some (1, [18, 54, 2, 76, 3], [64971, 213]), some (40, [24, 2, 76, 3], [64971, 214]),
   some (1, [4, 54, 2, 76, 3], [64971, 215]), some (1, [5, 55, 2, 76, 3], [64971, 216]),
   some (1, [10, 55, 2, 76, 3], [64971, 217]), some (1, [13, 55, 2, 76, 3], [64971, 218]),
   some (1, [14, 55, 2, 76, 3], [64971, 219]), some (1, [16, 55, 2, 76, 3], [64971, 220]),
   some (1, [18, 55, 2, 76, 3], [64971, 221]), some (40, [25, 2, 76, 3], [64971, 222]),
   some (1, [4, 55, 2, 76, 3], [64971, 223]), some (1, [5, 56, 2, 76, 3], [64971, 224]),
   some (1, [10, 56, 2, 76, 3], [64971, 225]), some (1, [13, 56, 2, 76, 3], [64971, 226]),
   some (1, [14, 56, 2, 76, 3], [64971, 227]), some (1, [16, 56, 2, 76, 3], [64971, 228]),
   some (1, [18, 56, 2, 76, 3], [64971, 229]), some (40, [26, 2, 76, 3], [64971, 230]),
   some (1, [4, 56, 2, 76, 3], [64971, 231]), some (1, [5, 57, 2, 76, 3], [64971, 232]),
   some (1, [10, 57, 2, 76, 3], [64971, 233]), some (1, [13, 57, 2, 76, 3], [64971, 234]),
   some (1, [14, 57, 2, 76, 3], [64971, 235]), some (1, [16, 57, 2, 76, 3], [64971, 236]),
   some (1, [18, 57, 2, 76, 3], [64971, 237]), some (40, [27, 2, 76, 3], [64971, 238]),
   some (1, [4, 57, 2, 76, 3], [64971, 239]), some (1, [5, 58, 2, 76, 3], [64971, 240]),
   some (1, [10, 58, 2, 76, 3], [64971, 241]), some (1, [13, 58, 2, 76, 3], [64971, 242]),
   some (1, [14, 58, 2, 76, 3], [64971, 243]), some (1, [16, 58, 2, 76, 3], [64971, 244]),
   some (1, [18, 58, 2, 76, 3], [64971, 245]), some (40, [28, 2, 76, 3], [64971, 246]),
   some (1, [4, 58, 2, 76, 3], [64971, 247]), some (1, [5, 59, 2, 76, 3], [64971, 248]),
   some (1, [10, 59, 2, 76, 3], [64971, 249]), some (1, [13, 59, 2, 76, 3], [64971, 250]),
   some (1, [14, 59, 2, 76, 3], [64971, 251]), some (1, [16, 59, 2, 76, 3], [64971, 252]),
   some (1, [18, 59, 2, 76, 3], [64971, 253]), some (40, [29, 2, 76, 3], [64971, 254]),
   some (1, [4, 59, 2, 76, 3], [64971, 255])]

end Necro
