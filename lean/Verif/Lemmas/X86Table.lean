import Verif.Model.Cpu.X86
/-!
# The rows of the x86 table, by mnemonic

Comparing twelve hundred names is slow for the kernel, so the names are first turned into numbers.
-/

namespace Necro

/-- A name as a number. -/
def x86Code : Str → Nat
  | [] => 0
  | c :: l => c.toNat + 1 + 2097152 * x86Code l

theorem char_small (c : Char) : c.toNat < 1114112 := by
  have := c.valid
  simp only [UInt32.isValidChar, Nat.isValidChar] at this
  show c.val.toNat < _
  omega

theorem x86Code_inj : ∀ {a b : Str}, x86Code a = x86Code b → a = b
  | [], [], _ => rfl
  | [], c :: l, e => by
    simp only [x86Code] at e
    omega
  | c :: l, [], e => by
    simp only [x86Code] at e
    omega
  | c :: l, d :: k, e => by
    have h1 := char_small c
    have h2 := char_small d
    simp only [x86Code] at e
    have e1 : c.toNat = d.toNat := by omega
    have e2 : x86Code l = x86Code k := by omega
    rw [Char.toNat_inj.1 e1, x86Code_inj e2]

/-- The names of the table, as numbers. -/
def x86Codes : List Nat :=
  [0x1140008a00042, 0x1140008a00042, 0x1140008a00042, 0x1140008a00042, 0x1140008a00042, 0x1140008a00042, 0xa600050, 0xa600050, 0xa600050,
   0xa600050, 0xa600050, 0xa600050, 0x1100008a00042, 0x1100008a00042, 0x1100008a00042, 0x1100008a00042, 0x1100008a00042, 0x1100008a00042,
   0x10c0008600054, 0x10c0008600054, 0x10c0008600054, 0x10c0008600054, 0x10c0008600054, 0x10c0008600054, 0x1140009e00042, 0x1140009e00042,
   0x1140009e00042, 0x1140009e00042, 0x1140009e00042, 0x1140009e00042, 0x1080008400045, 0x10c000ac00054, 0x10c000ac00054, 0x10c000ac00054,
   0x10c000ac00054, 0x10c000ac00054, 0x10c000ac00054, 0x9e0004600026000108000aa0004f, 0x1500008400045, 0x14c000a000059, 0x14c000a000059,
   0x14c000a000059, 0x14c000a000059, 0x14c000a000059, 0x14c000a000059, 0x1080008400042, 0x1440009c00044, 0x1440009c00044, 0x1440009c00044,
   0x1440009c00044, 0x1440009c00044, 0x1440009c00044, 0x4f000230001300008400055, 0x1500008400042, 0x1100009e0004a, 0x1640008c00053,
   0x43000178001640008c00053, 0x59000178001640008c00053, 0x8600059000178001640008c00053, 0x53000178001640008c00053,
   0x8600053000178001640008c00053, 0xb200053000178001640008c00053, 0x10c000b200053000178001640008c00053, 0x1100008c00045,
   0x58000178001640008c00053, 0x8600058000178001640008c00053, 0xb200058000178001640008c00053, 0x10c000b200058000178001640008c00053,
   0xa600058000178001640008c00053, 0x10c000a600058000178001640008c00053, 0x164000a600058000178001640008c00053,
   0x21800164000a600058000178001640008c00053, 0x24800150000ac00051, 0x24800150000ac00051, 0x144000a000051, 0x144000a000051,
   0x4200024800150000ac00051, 0x8a0004200024800150000ac00051, 0x21000144000a000051, 0x4500021000144000a000051, 0x4500027800158000a000043,
   0x26800144000a600042, 0x8a000590002a00015c000a00004e, 0x53000230001540009a00042, 0x24800150000ac00051, 0x268001580009c0004a,
   0x24800150000ac00051, 0x268001580009c0004a, 0x1500009e0004a, 0x218001500009e0004a, 0x1500009e0004a, 0x2c0001500009e0004a, 0x1500009e0004a,
   0x228001500009e0004a, 0x2a000154000ac00050, 0x430002a000154000ac00050, 0x2a000154000ac00050, 0x580002a000154000ac00050, 0x2a000154000ac00050,
   0x450002a000154000ac00050, 0xa00004b, 0x1400009e0004b, 0x860004b, 0x230001080009e0004b, 0x880004b, 0x10c0009e0004b, 0x118000840004b,
   0x1100009e0004b, 0xb60004b, 0x8c0004b, 0x16c0009e0004b, 0x1180009e0004b, 0x118000860004b, 0x1080009e0004b, 0x2300010c0009e0004b, 0x840004b,
   0xa80004b, 0x1500009e0004b, 0xa20004b, 0x118000a20004b, 0x1440009e0004b, 0x140000a20004b, 0x9a0004b, 0x230001200009e0004b, 0x1340009e0004b,
   0x118000900004b, 0x1180009a0004b, 0x1200009e0004b, 0x230001340009e0004b, 0x900004b, 0x1140008a00042, 0xa600050, 0x1100008a00042,
   0x10c0008600054, 0x1140009e00042, 0x10c000ac00054, 0x14c000a000059, 0x1440009c00044, 0x1140008a00042, 0xa600050, 0x1100008a00042,
   0x10c0008600054, 0x1140009e00042, 0x10c000ac00054, 0x14c000a000059, 0x1440009c00044, 0x1140008a00042, 0xa600050, 0x1100008a00042,
   0x10c0008600054, 0x1140009e00042, 0x10c000ac00054, 0x14c000a000059, 0x1440009c00044, 0x1140008a00042, 0xa600050, 0x1100008a00042,
   0x10c0008600054, 0x1140009e00042, 0x10c000ac00054, 0x14c000a000059, 0x1440009c00044, 0x2a8001500008c00055, 0x2a8001500008c00055,
   0x240001240008800059, 0x240001240008800059, 0x15c000a00004e, 0x15c000a00004e, 0x15c000a00004e, 0x15c000a00004e, 0x15c000a00004e,
   0x15c000a00004e, 0x1080008c0004d, 0x15c000a00004e, 0x144000a000051, 0x144000a000051, 0x240001240008800059, 0x144000a00004f, 0x144000a00004f,
   0x460002a0001580008400051, 0x1600008600044, 0x23000114000b000044, 0x1600008600044, 0x23000114000b000044, 0x230001480008a00044,
   0x114000b000044, 0x1480008a00044, 0x114000b000044, 0x1480008a00044, 0x140000a400044, 0x47000268001340008400044, 0x5500025000108000b000047,
   0x2a8001280008400058, 0x4700024800150000ac00051, 0x8a0004700024800150000ac00051, 0x4700024800150000ac00051, 0xa40004700024800150000ac00051,
   0x23800144000a000051, 0x4500023800144000a000051, 0x23800144000a000051, 0x5200023800144000a000051, 0x238001240008400054, 0x23800124000840004d,
   0x15c000a00004e, 0x15c000a00004e, 0x15c000a00004e, 0x15c000a00004e, 0x2a00015c000a00004e, 0x430002a00015c000a00004e, 0x2a00015c000a00004e,
   0x580002a00015c000a00004e, 0x2a00015c000a00004e, 0x450002a00015c000a00004e, 0x2a00015c000a00004e, 0x580002a00015c000a00004e,
   0x450002a00015c000a00004e, 0x520002a00015c000a00004e, 0x2a0001440009c00044, 0x430002a0001440009c00044, 0x2a0001440009c00044,
   0x580002a0001440009c00044, 0x2a0001440009c00044, 0x450002a0001440009c00044, 0x2a0001440009c00044, 0x580002a0001440009c00044,
   0x450002a0001440009c00044, 0x520002a0001440009c00044, 0x2a8001500008c00055, 0x2a8001500008c00055, 0x2a000140000aa00054,
   0x430002a000140000aa00054, 0x2a000140000aa00054, 0x580002a000140000aa00054, 0x2a000140000aa00054, 0x450002a000140000aa00054,
   0x2a000140000aa00054, 0x580002a000140000aa00054, 0x450002a000140000aa00054, 0x520002a000140000aa00054, 0x2a000114000a00004d,
   0x430002a000114000a00004d, 0x2a000114000a00004d, 0x580002a000114000a00004d, 0x2a000114000a00004d, 0x450002a000114000a00004d,
   0x2a000114000a00004d, 0x580002a000114000a00004d, 0x450002a000114000a00004d, 0x520002a000114000a00004d, 0x2a0001080008800054,
   0x430002a0001080008800054, 0x2a0001080008800054, 0x580002a0001080008800054, 0x2a0001080008800054, 0x450002a0001080008800054,
   0x2a0001080008800054, 0x580002a0001080008800054, 0x450002a0001080008800054, 0x520002a0001080008800054, 0x15c000a00004e, 0x15c000a00004e,
   0x134000a000053, 0x14c000a000053, 0x1340008800053, 0x14c0008800053, 0x1340009200054, 0x1340008400054, 0x14c0009200054, 0x1340008400054,
   0x1340009200054, 0x14c0008400054, 0x134000a000053, 0x14c000a000053, 0x1340008800053, 0x14c0008800053, 0x1340009200054, 0x1340008400054,
   0x14c0009200054, 0x1340008400054, 0x1340009200054, 0x14c0008400054, 0x278001540008c00053, 0x278001540008c00053, 0x1540008c00053,
   0x15c000a00004e, 0x15c000a00004e, 0x53000230001540009e00046, 0x53000230001540009e00046, 0x460002b8001080008c0004d, 0x460002b8001080008c0004d,
   0x238001540008c00053, 0x238001540008c00053, 0x1540009e0004a, 0x1540009e0004a, 0x280001540009e0004a, 0x2a800118000a60004a,
   0x450002a800118000a60004a, 0x2a800118000a60004a, 0x450002a800118000a60004a, 0x520002a800118000a60004a, 0x134000a000053, 0x14c000a000053,
   0x1340008800053, 0x14c0008800053, 0x1340009200054, 0x1340008400054, 0x14c0009200054, 0x1340008400054, 0x1340009200054, 0x14c0008400054,
   0x134000a000053, 0x14c000a000053, 0x1340008800053, 0x14c0008800053, 0x1340009200054, 0x1340008400054, 0x14c0009200054, 0x1340008400054,
   0x1340009200054, 0x14c0008400054, 0x134000a000053, 0x14c000a000053, 0x1340008800053, 0x14c0008800053, 0x1340009200054, 0x1340008400054,
   0x14c0009200054, 0x1340008400054, 0x1340009200054, 0x14c0008400054, 0x134000a000053, 0x14c000a000053, 0x1340008800053, 0x14c0008800053,
   0x1340009200054, 0x1340008400054, 0x14c0009200054, 0x1340008400054, 0x1340009200054, 0x14c0008400054, 0x1380008400042, 0x1640009c00042,
   0x1140008400042, 0x1640008a00042, 0x220001340008400054, 0x880004d000210001540008c00054, 0x2a8001080009a00059, 0x430002a8001080009a00059,
   0x228001140008400047, 0x228001140008400047, 0x268001580009c00047, 0x268001580009c00047, 0x270001400008800047, 0x270001400008800047,
   0x51000270001400008800047, 0x51000270001400008800047, 0x21800158000a800047, 0x21800158000a800047, 0x5300021800158000a800047,
   0x5300021800158000a800047, 0x2b8001280008a00047, 0x2b8001280008a00047, 0x530002b8001280008a00047, 0x530002b8001280008a00047, 0x1140009a00047,
   0x24800110000b200047, 0x24800110000b200047, 0x154000a800047, 0x288001400009e00047, 0x28800154000a800047, 0x3200028800154000a800047,
   0x3200028800154000a800047, 0xae0004f000230001140009a00047, 0x2a0001240008800047, 0x2a00010c0008400047, 0x2a800150000aa00047,
   0x27000108000b200047, 0x58000220001140009a00047, 0x190001140009a00047, 0xaa00033000268001140009a00047, 0x8c00033000268001140009a00047,
   0x4a000288001140009a00047, 0x6600048000268001140009a00047, 0x660004f000268001140009a00047, 0x2d8001140009a00047,
   0x15c0009e000460002a8001500009e00047, 0xae0004f00023000154000a800047, 0x32000270001640006600047, 0x5900019800134000b400047,
   0x4f00021000154000a200047, 0x9e000420002a800108000a200047, 0x154000880004200029800154000b200047, 0x640004e0002300014c000a200047,
   0x144000aa00054000220001180008a00047, 0x144000aa000540002200013c0009400047, 0xb0000440002a8001500009e00047, 0x5800022000154000a800047,
   0x4e0002300014c000a200047, 0xc8000a20005900019800134000b400047, 0x5500029800148000a800047, 0x150000a00004400027800128000a800047,
   0x1540009e0004a0002280013c000a600047, 0x8c0004d00021000110000a800047, 0x27800128000a800047, 0x2a0001400008800047, 0x45000228001080009400047,
   0x8600057000280001380008800047, 0x4d0002b0001380009400047, 0x8c00057000280001380008800047, 0x4e000280001100009400047,
   0x1180008600057000280001380008800047, 0xa20004e000280001100009400047, 0xac00057000280001380008800047, 0x430002b0001500009400047,
   0xa6000430002b0001500009400047, 0x144000a20004e00028000110000ac00047, 0x57000250001140009400047, 0xa600057000250001140009400047,
   0x228001340009400047, 0x10c0009e00057000280001380008800047, 0xa2000550002a8001500009400047, 0x1180009e00057000280001380008800047,
   0x2a8001500009400047, 0x2300010c0009e00057000280001380008800047, 0x510002a8001500009400047, 0x1580009e00057000280001380008800047,
   0x4a000278001180009e00047, 0x2500013c0008c00047, 0x4a000278001180009e00047, 0x9400054000250001140009e00047, 0x4a0002a0001280008a00047,
   0x9400054000250001140009e00047, 0xb200046000268001100009e00047, 0x59000230001340008800047, 0xaa0004a000278001280009e00047,
   0x550002500013c0009400047, 0x138000a200055000230001500009e00047, 0x9c000510002a800118000a800047, 0x138000a200055000230001500009e00047,
   0x1140009a00047, 0x940004e00028000110000ac00047, 0x4a000270001400008800047, 0x28800154000a800047, 0x228001140008400047, 0x228001140008400047,
   0x268001580009c00047, 0x268001580009c00047, 0x270001400008800047, 0x33000270001400008800047, 0x33000270001400008800047,
   0x51000270001400008800047, 0x6800051000270001400008800047, 0x6800051000270001400008800047, 0x21800158000a800047, 0x5300021800158000a800047,
   0x5300021800158000a800047, 0x21800158000a800047, 0x2b8001280008a00047, 0x530002b8001280008a00047, 0x530002b8001280008a00047,
   0x2b8001280008a00047, 0x1140009a00047, 0x460002300014c0008e00047, 0xa2000550002a8001500009400047, 0x3500024800110000b200047,
   0x3500024800110000b200047, 0x154000a800047, 0x154000a800047, 0x28800154000a800047, 0x28800154000a800047, 0xa6000500002a800150000a600047,
   0x4e00028000110000ac00047, 0x4e00028000110000ac00047, 0xa20004e00028000110000ac00047, 0xa20004e00028000110000ac00047,
   0x8c00057000210001500009e00047, 0x460002b800108000a800047, 0xb0000540002a8001500009e00047, 0x580002a000154000a800047,
   0x45000228001080009400047, 0x51000228001140008400047, 0x51000228001140008400047, 0x4d0002b0001380009400047, 0x51000268001580009c00047,
   0x51000268001580009c00047, 0x4e000280001100009400047, 0x6c00051000270001400008800047, 0x6c00051000270001400008800047,
   0xa20004e000280001100009400047, 0xa200051000270001400008800047, 0x430002b0001500009400047, 0xa20005300021800158000a800047,
   0xa20005300021800158000a800047, 0xa6000430002b0001500009400047, 0x5100021800158000a800047, 0x5100021800158000a800047,
   0x57000250001140009400047, 0xa2000530002b8001280008a00047, 0xa2000530002b8001280008a00047, 0xa600057000250001140009400047,
   0x510002b8001280008a00047, 0x510002b8001280008a00047, 0x228001340009400047, 0xa2000460002300014c0008e00047, 0xa2000550002a8001500009400047,
   0x3800024800110000b200047, 0x3800024800110000b200047, 0x2a8001500009400047, 0x3900028800154000a800047, 0x3900028800154000a800047,
   0x510002a8001500009400047, 0x3a00028800154000a800047, 0x3a00028800154000a800047, 0x228001340008600047, 0xb0000540002a8001500009e00047,
   0x580002a000154000a800047, 0x228001340009400047, 0x144000940004e00028000110000ac00047, 0x510002a8001500008600047,
   0xa20004a000270001400008800047, 0x510002a8001500009400047, 0xb60004f00028800140000a00004d, 0x8c0004f00028800140000a00004d,
   0xb60004f00028800140000a00004d, 0x8c0004f00028800140000a00004d, 0x5b00028800140000a00004d, 0x4600028800140000a00004d,
   0x5b00028800140000a00004d, 0x4600028800140000a00004d, 0x28800140000a00004d, 0x28800140000a00004d, 0x2d800164000880004b,
   0x5b0002c8001100008c0004b, 0x5b0002c8001100008c0004b, 0x5b0002c800110000a60004b, 0x9e0004a, 0x9e0004a, 0x154000ac00050, 0x154000ac00050,
   0x268001340008400044, 0x1440009c0004b, 0x238001440009c0004b, 0x1440009c0004b, 0x9e0004a, 0x9e0004a, 0x154000ac00050, 0x154000ac00050,
   0x26000110000a00004d, 0x190001540009e0004a, 0x5100021800118000880004a, 0x5b000278001440008c00053, 0x46000278001440008c00053,
   0x2d8001440008c00053, 0x230001440008c00053, 0x1440008c00053, 0x2d8001440008c00053, 0x230001440008c00053, 0x1440008c00053, 0x1540009a00049,
   0x1100009c00044, 0x2a8001500008c00055, 0x2a8001500008c00055, 0x154000a00004f, 0x1200008c0004f, 0x134000ac0004e, 0x268001580009c0004a,
   0x15c0009400045, 0x2b8001280008a0004a, 0x2a8001500008c00055, 0x2a8001500008c00055, 0x154000a00004f, 0x1200008c0004f, 0x134000ac0004e,
   0x268001580009c0004a, 0x15c0009400045, 0x2b8001280008a0004a, 0x1100009a00044, 0x110000aa00054, 0x1280009a00044, 0x128000aa00054,
   0x1140009a00044, 0x114000aa00054, 0x1100009e0004a, 0x1100008c00045, 0x1100009e0004a, 0x1100008c00045, 0x268001340008400044,
   0x268001340008400044, 0x47000268001340008400044, 0x1440009c0004b, 0x1440009c0004b, 0x238001440009c0004b, 0x24800150000ac00051,
   0x24800150000ac00051, 0x2a8001140009a00054, 0x2a8001140009a00054, 0x14c000aa00054, 0x14c000aa00054, 0x2a8001140009a0004d, 0x14c000aa0004d,
   0x2980014c0008c00057, 0x2c00014c0008c00057, 0x230001440009c0004b, 0x2a8001140009000054, 0x9a0004d000210001100009c00057,
   0x248001100009e00056000210001340009c00057, 0x23000138000ac000540002300014c0009c00057, 0x8e00047000280001640009c00057, 0x2a8001140009400054,
   0x14c000a0000550002500013c000a00004e, 0x5500025000108000b00004e, 0x2a800114000900004d, 0xae000430002a8001180009000059,
   0xae000430002a800118000a800059, 0x2a800114000940004d, 0x2c0001500009c00054, 0x2c0001500009c00054, 0x2c0001500009c0004d,
   0x90000510002680015c0009e0004a, 0xa80004800028800108000b000054, 0xa2000440002a0001540008a00053, 0x14c000840004d, 0x14c000840004d,
   0x134000a80004d, 0x134000a80004d, 0x1340009a0004200022800108000a00004d, 0x1340009a0004200022000150000b400054, 0x2a0001540009a00044,
   0x1340009a0004200022800108000a00004d, 0xaa0004600029800150000b400054, 0x2280015c0009e0004a, 0x8a00057000278001280008600058, 0xcc0008a00056,
   0x144000a00004f, 0xa8000510002b00015c000a00004e, 0x540002a00015c000a00004e, 0x8a000510002b00015c000a00004e, 0x450002a00015c000a00004e,
   0xa8000510002b00015c000a00004e, 0x540002a00015c000a00004e, 0x8a000510002b00015c000a00004e, 0x450002a00015c000a00004e,
   0x150000a20004d0002480015c000a00004e, 0xa8000510002680015c000a00004e, 0x8a000510002680015c000a00004e, 0x144000ac000450002280015c000a00004e,
   0x288001580008a0004d0002a00015c000a00004e, 0xa8000510002680015c000a00004e, 0x8a000510002680015c000a00004e,
   0x2a0001440009a0004c000220001440009e00056, 0x228001440009a0004c000220001440009e00056, 0x2a000144000920004c000220001440009e00056,
   0x22800144000920004c000220001440009e00056, 0x150000a2000490002680015c000a00004e, 0xa8000510002480015c000a00004e,
   0x8a000510002480015c000a00004e, 0x288001580008a000490002a00015c000a00004e, 0xa8000510002480015c000a00004e, 0x8a000510002480015c000a00004e,
   0x288001400009e000600002a80013c0009400049, 0x108000aa0004f00024800110000aa0004600023800118000a600051,
   0x620005500024800110000aa0004600023800118000a600051, 0x640005500024800110000aa0004600023800118000a600051,
   0x660005500024800110000aa0004600023800118000a600051, 0x288001400009e000600002a80013c0009400049, 0x288001400009e000600002a80013c0009400049,
   0x288001400009e000600002a80013c0009400049, 0x288001400009e000600002a80013c0009400049, 0x288001400009e000600002a80013c0009400049,
   0x288001400009e000600002a80013c0009400049, 0x288001400009e000600002a80013c0009400049, 0x288001400009e000600002a80013c0009400049,
   0x288001400009e000600002a80013c0009400049, 0x288001400009e000600002a80013c0009400049, 0x288001400009e000600002a80013c0009400049,
   0x144000a00004f, 0x288001400009e000600002a80013c0009400049, 0x288001400009e000600002a80013c0009400049,
   0x288001400009e000600002a80013c0009400049, 0x288001400009e000600002a80013c0009400049, 0x288001400009e000600002a80013c0009400049,
   0x288001400009e000600002a80013c0009400049, 0x288001400009e000600002a80013c0009400049, 0x15c000a00004e, 0x15c000a00004e, 0x15c000a00004e,
   0x15c000a00004e, 0x15c000a00004e, 0x15c000a00004e, 0x15c000a00004e, 0x15c000a00004e, 0x15c000a00004e, 0x15c000a00004e, 0x15c000a00004e,
   0x15c000a00004e, 0x15c000a00004e, 0x15c000a00004e, 0x15c000a00004e, 0x15c000a00004e, 0x15c000a00004e, 0x15c000a00004e, 0x15c000a00004e,
   0x15c000a00004e, 0xa8000510002100015c000a00004e, 0x8a000510002100015c000a00004e, 0xa8000510002100015c000a00004e,
   0x8a000510002100015c000a00004e, 0x2a000144000660004a00028800154000ae00044, 0x2a000150000660004a0002a000154000ae00044,
   0x22800144000660004a00028800154000ae00044, 0x22800150000660004a0002a000154000ae00044, 0x150000a2000550002780015c000a00004e,
   0x114000a2000550002780015c000a00004e, 0x4a000288000cc000a8000510002a800154000ae00044, 0x4a0002a0000cc000a8000540002a800154000ae00044,
   0x4a000288000cc0008a000510002a800154000ae00044, 0x4a0002a0000cc0008a000540002a800154000ae00044, 0x25000144000660005400028800154000ae00044,
   0x2500015000066000540002a000154000ae00044, 0x25000144000660004500028800154000ae00044, 0x2500015000066000450002a000154000ae00044,
   0x150000a80004a000270001400008800056, 0x114000a80004a000270001400008800056, 0xa80005400025000138000a000044, 0x8a0005400025000138000a000044,
   0x530002a000138000a600058, 0x440002a0001540008a00053, 0x530002a0001380008a00053, 0x44000270001440008a00053,
   0x29800118000aa0004f00023000150000b400054, 0x29800118000aa0004f00023000150000b400054, 0x154000940005900023000150000b400054,
   0x88000460002a0001540008c00048, 0x86000470002b000124000a800051, 0x86000470002b000124000a800051, 0xb000045000228001080009200051,
   0xb000045000228001080009200051, 0x8a00045000228001080009200051, 0x8a00045000228001080009200051, 0x160000a800045000228001080009200051,
   0x160000a800045000228001080009200051, 0x580002a00010c000ac00045000228001080009c00051, 0x580002a00010c000ac00045000228001080009c00051,
   0xb0000430002b0001500009200051, 0xb0000430002b0001500009200051, 0x8a000430002b0001500009200051, 0x8a000430002b0001500009200051,
   0x160000a8000430002b0001500009200051, 0x160000a8000430002b0001500009200051, 0x860004f00024000128000a800051, 0x860004f00024000128000a800051,
   0xb00004f00024000128000a800051, 0xb00004f00024000128000a800051, 0x8a0004f00024000128000a800051, 0x8a0004f00024000128000a800051,
   0x2c000150000a600049000268001580009c00051, 0x2c000150000a600049000268001580009c00051, 0x2180015c0008a0004f000230001340008600051,
   0x2a000144000ae00045000278001180009a00043, 0x22800144000ae00045000278001180009a00043, 0x550002a000118000aa00051, 0x430002a00010c0008400051,
   0x430002a00010c0008400051, 0x580002a00010c0008400051, 0x580002a00010c0008400051, 0x450002a00010c0008400051, 0x450002a00010c0008400051,
   0x2c00010c000b2000540002b8001400009c00051, 0x2c00010c000b2000540002b8001400009c00051, 0x2280010c000b2000540002b8001400009c00051,
   0x2280010c000b2000540002b8001400009c00051, 0x2900010c000b2000540002b8001400009c00051, 0x2900010c000b2000540002b8001400009c00051,
   0x22800160000b2000540002b8001400009c00051, 0x22800160000b2000540002b8001400009c00051, 0x29000160000b2000540002b8001400009c00051,
   0x29000160000b2000540002b8001400009c00051, 0x29000114000b2000540002b8001400009c00051, 0x29000114000b2000540002b8001400009c00051,
   0xa400045000268001580009c00051, 0x148000a400046000288001380008800051, 0x210001480008a000550002780015c000a00004e,
   0x2c000114000a800056000260001100008400051, 0x2c00010c000b20005b0002b8001400009c00051, 0x2c00010c000b20005b0002b8001400009c00051,
   0x2280010c000b20005b0002b8001400009c00051, 0x2280010c000b20005b0002b8001400009c00051, 0x2900010c000b20005b0002b8001400009c00051,
   0x2900010c000b20005b0002b8001400009c00051, 0x22800160000b20005b0002b8001400009c00051, 0x22800160000b20005b0002b8001400009c00051,
   0x29000160000b20005b0002b8001400009c00051, 0x29000160000b20005b0002b8001400009c00051, 0x29000114000b20005b0002b8001400009c00051,
   0x29000114000b20005b0002b8001400009c00051, 0x148000aa00048000288001380008800051, 0x8600054000278001280009c00051,
   0x8a00054000278001280009c00051, 0xb000056000278001280009c00051, 0x8a00056000278001280009c00051, 0x86000540002c8001080009c00051,
   0x8a000540002c8001080009c00051, 0xb0000560002c8001080009c00051, 0x8a000560002c8001080009c00051, 0x8a0004d000268001580009c00051,
   0xb0000560002a000140000a20004f000250001380009200051, 0xaa000510002300015c0009e0004a, 0xaa000510002300015c0009e0004a,
   0x11400094000510002b80015c0009e0004a, 0x11400094000510002b80015c0009e0004a, 0x460002180015c000a00004e, 0x330001a000110000a600044,
   0x460002180015c000a00004e, 0x330001a000110000a600044, 0x150000a20004500027800158000a000053, 0x114000a20004500027800158000a000053,
   0x150000a80004500027800158000a000053, 0x114000a80004500027800158000a000053, 0x150000a200045000278001180009a00043,
   0x114000a200045000278001180009a00043, 0x1600008a0004f000230001340008600051, 0x14c0009e00048000250001340008400051,
   0x14c0009e00048000250001340008400051, 0x86000530002a8001640008c00051, 0x86000530002a8001640008c00051, 0xb0000530002a8001640008c00051,
   0xb0000530002a8001640008c00051, 0x8a000530002a8001640008c00051, 0xa4000530002a8001640008c00051,
   0x5400028800154000880004200029800154000b200046, 0x86000530002a00013c0009400051, 0x86000530002a00013c0009400051,
   0x2a000144000aa00053000230001500009e0004a, 0x2a000144000aa00053000230001500009e0004a, 0x8a000530002a00013c0009400051,
   0xa4000530002a00013c0009400051, 0x2a000144000a200045, 0x22800144000a200045, 0x160000860004500021000150000a20004e,
   0x4e00029800154000a800046000288001380008800051, 0x4a00029800154000a800046000288001380008800051,
   0x4e00029800154000a80004a000288001380008800051, 0x4a00029800154000a80004a000288001380008800051, 0x500002b8001400009c00044,
   0xa00004f0002b8001400009c00044, 0x430002b8001400009c00044, 0x118000840004f0002b8001400009c00044, 0x440002b8001400009c00044,
   0x860004f0002b8001400009c00044, 0x8c000420002b8001400009c00044, 0x880004f0002b8001400009c00044, 0x5b0002b8001400009c00044,
   0x460002b8001400009c00044, 0xb60004f0002b8001400009c00044, 0x8c0004f0002b8001400009c00044, 0x8c000430002b8001400009c00044,
   0x840004f0002b8001400009c00044, 0x118000860004f0002b8001400009c00044, 0x420002b8001400009c00044, 0x540002b8001400009c00044,
   0xa80004f0002b8001400009c00044, 0x510002b8001400009c00044, 0x8c000510002b8001400009c00044, 0xa20004f0002b8001400009c00044,
   0xa0000510002b8001400009c00044, 0x4d0002b8001400009c00044, 0x118000900004f0002b8001400009c00044, 0x9a0004f0002b8001400009c00044,
   0x8c000480002b8001400009c00044, 0x8c0004d0002b8001400009c00044, 0x900004f0002b8001400009c00044, 0x1180009a0004f0002b8001400009c00044,
   0x480002b8001400009c00044, 0x2a00014400098000540002700015c000a00004e, 0x2280014400098000540002700015c000a00004e,
   0xa8000510002a80014c000a400054, 0xa8000540002a80014c000a400054, 0x8a000510002a80014c000a400054, 0x8a000540002a80014c000a400054,
   0x150000a20005500029800148000a800053, 0x150000a80005500029800148000a800053, 0x54000288001440008800053, 0x540002a0001440008800053,
   0x54000288001140009e00042, 0x45000288001140009e00042, 0xa800051000278001140009e00042, 0x8a00051000278001140009e00042, 0x2a000144000a600050,
   0x22800144000a600050, 0x540002880014c000a000059, 0x450002880014c000a000059, 0x54000288001140008a00042, 0x540002a0001140008a00042,
   0x45000288001140008a00042, 0x450002a0001140008a00042, 0x5400028800134000ac0004e, 0x540002a000134000ac0004e, 0x4500028800134000ac0004e,
   0x450002a000134000ac0004e, 0x22800144000660005400028800154000ae00044, 0x2a000144000660004500028800154000ae00044,
   0x2280015000066000540002a000154000ae00044, 0x2a00015000066000450002a000154000ae00044, 0x2a000144000660005200022800154000ae00044,
   0x29000114000660005400028800154000ae00044, 0x52000228000cc000a8000510002a800154000ae00044, 0x540002880010c000ac00054,
   0x540002a00010c000ac00054, 0x450002880010c000ac00054, 0x450002a00010c000ac00054, 0x540002880013c000940004e, 0x540002a00013c000940004e,
   0x450002880013c000940004e, 0x450002a00013c000940004e, 0x540002880015c0009400045, 0x540002a00015c0009400045, 0x450002880015c0009400045,
   0x450002a00015c0009400045, 0x5400028800164000840004e, 0x540002a000164000840004e, 0x4500028800164000840004e, 0x450002a000164000840004e,
   0x580002180013400098000440002880013c000ac00051, 0x580002180013400098000440002880013c000ac00051,
   0x450002c00013400098000440002880013c000ac00051, 0x450002c00013400098000440002880013c000ac00051,
   0x520002280013400098000440002880013c000ac00051, 0x520002280013400098000440002880013c000ac00051, 0x21800160000a800054000260001100008400051,
   0x21800160000a800054000260001100008400051, 0x10c000aa00048000288001380008800051, 0x10c000aa00048000288001380008800051,
   0x160000aa00048000288001380008800051, 0x160000aa00048000288001380008800051, 0x114000aa00048000288001380008800051,
   0x114000aa00048000288001380008800051, 0x21800160000a800056000260001100008400051, 0x21800160000a800056000260001100008400051,
   0x580002180012400098000440002880013c000ac00051, 0x580002180012400098000440002880013c000ac00051,
   0x450002c00012400098000440002880013c000ac00051, 0x450002c00012400098000440002880013c000ac00051,
   0x520002280012400098000440002880013c000ac00051, 0x520002280012400098000440002880013c000ac00051, 0x2c000114000a800054000260001100008400051,
   0x2c000114000a800054000260001100008400051, 0xa4000450002900013400098000440002880013c000ac00051,
   0xa4000450002900012400098000440002880013c000ac00051, 0x2280015c000a00004e, 0x2280015c000a00004e, 0x2900015c000a00004e, 0x2280015c000a00004e,
   0x2280015c000a00004e, 0x2900015c000a00004e, 0x2900015c000a00004e, 0x84000520002280015c000a00004e, 0xac000520002280015c000a00004e,
   0xb0000470002b000124000a800051, 0x1600009a000470002b000124000a800051, 0x16000092000470002b000124000a800051, 0x8a000470002b000124000a800051,
   0x580002680014c000a800051, 0x580002680014c000a800051, 0x580002100014c000a800051, 0x580002100014c000a800051, 0x5800026800134000a800051,
   0x5800026800134000a800051, 0x450002680014c000a800051, 0x450002680014c000a800051, 0x450002100014c000a800051, 0x450002100014c000a800051,
   0x4500026800134000a800051, 0x4500026800134000a800051, 0x520002680014c000a800051, 0x520002680014c000a800051, 0xa4000450002680014c000a800051,
   0x5200026800134000a800051, 0x5200026800134000a800051, 0xa40004500026800134000a800051, 0x10c000a400046000288001380008800051,
   0x10c000a400046000288001380008800051, 0x160000a400046000288001380008800051, 0x160000a400046000288001380008800051,
   0x114000a400046000288001380008800051, 0x114000a400046000288001380008800051, 0x2a0001380009c00046, 0x8a000420002300014c0009c00057,
   0x8a000420002300014c0009c00057, 0x118000aa0004a000298001600009c00057, 0x118000aa0004a000298001600009c00057, 0x8a00051000228001140008400049,
   0xa800051000228001140008400049, 0x8a0005100021800158000a800049, 0xa80005100021800158000a800049, 0x2280015c000a00004e, 0x2280015c000a00004e,
   0x2900015c000a00004e, 0x2280015c000a00004e, 0x2280015c000a00004e, 0x2900015c000a00004e, 0x2900015c000a00004e, 0x2900015c000a00004e,
   0x84000520002280015c000a00004e, 0xac000520002280015c000a00004e, 0xa00004b, 0x1400009e0004b, 0x860004b, 0x230001080009e0004b, 0x880004b,
   0x10c0009e0004b, 0x118000840004b, 0x1100009e0004b, 0xb60004b, 0x8c0004b, 0x16c0009e0004b, 0x1180009e0004b, 0x118000860004b, 0x1080009e0004b,
   0x2300010c0009e0004b, 0x840004b, 0xa80004b, 0x1500009e0004b, 0xa20004b, 0x118000a20004b, 0x1440009e0004b, 0x140000a20004b, 0x9a0004b,
   0x230001200009e0004b, 0x1340009e0004b, 0x118000900004b, 0x1180009a0004b, 0x1200009e0004b, 0x230001340009e0004b, 0x900004b,
   0x280001540008c00054, 0x50000278001540008c00054, 0x218001540008c00054, 0x8c00042000278001540008c00054, 0x220001540008c00054,
   0x43000278001540008c00054, 0x46000210001540008c00054, 0x44000278001540008c00054, 0x2d8001540008c00054, 0x230001540008c00054,
   0x5b000278001540008c00054, 0x46000278001540008c00054, 0x46000218001540008c00054, 0x42000278001540008c00054, 0x8c00043000278001540008c00054,
   0x210001540008c00054, 0x2a0001540008c00054, 0x54000278001540008c00054, 0x288001540008c00054, 0x46000288001540008c00054,
   0x51000278001540008c00054, 0x50000288001540008c00054, 0x268001540008c00054, 0x8c00048000278001540008c00054, 0x4d000278001540008c00054,
   0x46000240001540008c00054, 0x46000268001540008c00054, 0x48000278001540008c00054, 0x8c0004d000278001540008c00054, 0x240001540008c00054,
   0x4500025000158000a200044, 0xaa00043, 0x228001340009200054, 0x228001340009200054, 0x138000a800053, 0x150000aa00043, 0x2280014c0009200054,
   0x2280014c0009200054, 0x8c0005700021000150000b200047, 0x8c0005700021000150000b200047, 0x14c000a0000550002a00014c000b200047,
   0x14c000a0000550002a00014c000b200047, 0x14c000a8000440002c8001380008a0004d, 0x14c000a8000440002c800138000aa00054, 0x460002b800108000a800059,
   0x460002b800108000a800059, 0x8c00044000278001180008e0004d, 0xa6000500002a800150000a600059, 0xa6000500002a800150000a600059,
   0x8c00044000278001180008e0004e, 0x8c00044000278001180008e00054, 0x124000a8000560002680011c0009a00044, 0x268001580009c0004a,
   0x12000092000440002c8001440009c00044, 0x12000092000440002c8001440009c00044, 0x14c000aa00043, 0x590002d80015c000a00004e,
   0x590002d80015c000a00004e, 0x230001440009c0004b, 0xaa0004f00022000144000a000051, 0x8a00056, 0xaa00043, 0x150000aa00043, 0x14c000aa00043,
   0x110000aa00043, 0x110000aa00043, 0x11c000a800043, 0x14c000a800043, 0x590002a00015c000a00004e, 0x590002a00015c000a00004e,
   0x228001140008400059, 0x228001140008400059, 0x54000288001440009c00044, 0x540002a0001440009c00044, 0x45000288001440009c00044,
   0x450002a0001440009c00044, 0x94000550002780015c000a00004e, 0xb0000530002a00013c0009400051, 0xb0000530002a00013c0009400051,
   0xb0000530002a00013c0009400051, 0xb0000530002a00013c0009400051, 0xb0000530002a8001640008c00051, 0xb0000530002a8001640008c00051,
   0xa800051000238001580009200054, 0x8a00051000238001580009200054, 0x430001c80012000092000440002c8001440009c00044,
   0x430001c80012000092000440002c8001440009c00044, 0x86000370001900012000092000440002c8001440009c00044, 0x1140009a000530002a8001440009c00057,
   0x14c0008400046000268001100009c00057, 0x4f000280001640009c00057, 0x154000a8000530002a8001440009c00057, 0x5100021000160000a800043,
   0x2280014400086000560002a0001140008a00042, 0x2a00014400086000560002a0001140008a00042, 0x580002680014c000a800051, 0x580002680014c000a800051,
   0x450002680014c000a800051, 0x450002680014c000a800051, 0x520002680014c000a800051, 0x520002680014c000a800051, 0x52000228001140008400051,
   0x52000228001140008400051, 0xb00004d000268001580009c00051, 0xb00004d000268001580009c00051, 0x2900015c000a00004e,
   0x1480008a000330002900015c000a00004e, 0x14800066000520002280015c000a00004e, 0x21800130000a80004e0002b8001400009c00051,
   0x21800130000a80004e0002b8001400009c00051, 0x10c000a80005600021800158000a800051, 0x10c000a80005600021800158000a800051,
   0x160000a80005600021800158000a800051, 0x160000a80005600021800158000a800051, 0x8600056000278001280009c00051, 0x8600056000278001280009c00051,
   0x2280013c0008400051, 0x2280013c0008400051, 0x10c000a800056000228001140008400051, 0x10c000a800056000228001140008400051,
   0x160000a800056000228001140008400051, 0x160000a800056000228001140008400051, 0x86000560002c8001080009c00051, 0x86000560002c8001080009c00051,
   0x4f0002280013c0008400051, 0x4f0002280013c0008400051, 0x430002400015c0008400051, 0x430002400015c0008400051, 0x580002100014c000a800051,
   0x580002100014c000a800051, 0x450002100014c000a800051, 0x450002100014c000a800051, 0x580002400015c0008400051, 0x580002400015c0008400051,
   0x160000ac00049000268001580009c00051, 0x160000ac00049000268001580009c00051, 0xb000049000268001580009c00051, 0xb000049000268001580009c00051,
   0x29000114000660004500028800154000ae00044, 0x52000228000cc0008a000510002a800154000ae00044, 0x22800144000660005200022800154000ae00044,
   0xa4000550002780015c000a00004e, 0x1480008a000550002780015c000a00004e, 0x860005400021800158000a800051, 0x860005400021800158000a800051,
   0xb00005400021800158000a800051, 0xb00005400021800158000a800051, 0xb000054000278001280009c00051, 0xb000054000278001280009c00051,
   0x14c000a000051, 0x14c000a000051, 0x8600054000228001140008400051, 0x8600054000228001140008400051, 0xb000054000228001140008400051,
   0xb000054000228001140008400051, 0xb0000540002c8001080009c00051, 0xb0000540002c8001080009c00051, 0x29800140000b200051, 0x29800140000b200051,
   0x56000290001140008a0004d, 0x5800026800134000a800051, 0x5800026800134000a800051, 0x4500026800134000a800051, 0x4500026800134000a800051,
   0x5200026800134000a800051, 0x5200026800134000a800051, 0x1480008a00056000268001580009c00051, 0x1480008a00056000268001580009c00051,
   0x114000b000045000228001080009c00051, 0x114000b000045000228001080009c00051, 0xb00004300022800108000a800051, 0xb00004300022800108000a800051,
   0x2900015c000a00004e00026000150000840004e, 0xac000520002280015c000a00004e00026000150000840004e, 0x4300021800158000a800051,
   0x4300021800158000a800051, 0x5800021800158000a800051, 0x5800021800158000a800051, 0x4500021800158000a800051, 0x4500021800158000a800051,
   0x5200021800158000a800051, 0x5200021800158000a800051, 0x43000228001140008400051, 0x43000228001140008400051, 0x58000228001140008400051,
   0x58000228001140008400051, 0x45000228001140008400051, 0x45000228001140008400051]

/-- The rows of the mnemonics with operands. -/
def x86Rows : List (String × Nat × List (Nat × List X86Arg)) :=
  [("ADD", 0x1140008a00042, [(0x0, [.pass, .pass]), (0x1, [.evqp, .gvqp]), (0x2, [.pass, .pass]), (0x3, [.gvqp, .evqp]), (0x4, [.pass, .pass]), (0x5, [.rax, .ivds]), (0x80, [.pass, .pass]), (0x81, [.evqp, .ivds]), (0x82, [.pass, .pass]), (0x83, [.evqp, .pass])]),
   ("OR", 0xa600050, [(0x8, [.pass, .pass]), (0x9, [.evqp, .gvqp]), (0xa, [.pass, .pass]), (0xb, [.gvqp, .evqp]), (0xc, [.pass, .pass]), (0xd, [.rax, .ivds]), (0x80, [.pass, .pass]), (0x81, [.evqp, .ivds]), (0x82, [.pass, .pass]), (0x83, [.evqp, .pass])]),
   ("ADC", 0x1100008a00042, [(0x10, [.pass, .pass]), (0x11, [.evqp, .gvqp]), (0x12, [.pass, .pass]), (0x13, [.gvqp, .evqp]), (0x14, [.pass, .pass]), (0x15, [.rax, .ivds]), (0x80, [.pass, .pass]), (0x81, [.evqp, .ivds]), (0x82, [.pass, .pass]), (0x83, [.evqp, .pass])]),
   ("SBB", 0x10c0008600054, [(0x18, [.pass, .pass]), (0x19, [.evqp, .gvqp]), (0x1a, [.pass, .pass]), (0x1b, [.gvqp, .evqp]), (0x1c, [.pass, .pass]), (0x1d, [.rax, .ivds]), (0x80, [.pass, .pass]), (0x81, [.evqp, .ivds]), (0x82, [.pass, .pass]), (0x83, [.evqp, .pass])]),
   ("AND", 0x1140009e00042, [(0x20, [.pass, .pass]), (0x21, [.evqp, .gvqp]), (0x22, [.pass, .pass]), (0x23, [.gvqp, .evqp]), (0x24, [.pass, .pass]), (0x25, [.rax, .ivds]), (0x80, [.pass, .pass]), (0x81, [.evqp, .ivds]), (0x82, [.pass, .pass]), (0x83, [.evqp, .pass])]),
   ("SUB", 0x10c000ac00054, [(0x28, [.pass, .pass]), (0x29, [.evqp, .gvqp]), (0x2a, [.pass, .pass]), (0x2b, [.gvqp, .evqp]), (0x2c, [.pass, .pass]), (0x2d, [.rax, .ivds]), (0x80, [.pass, .pass]), (0x81, [.evqp, .ivds]), (0x82, [.pass, .pass]), (0x83, [.evqp, .pass])]),
   ("XOR", 0x14c000a000059, [(0x30, [.pass, .pass]), (0x31, [.evqp, .gvqp]), (0x32, [.pass, .pass]), (0x33, [.gvqp, .evqp]), (0x34, [.pass, .pass]), (0x35, [.rax, .ivds]), (0x80, [.pass, .pass]), (0x81, [.evqp, .ivds]), (0x82, [.pass, .pass]), (0x83, [.evqp, .pass])]),
   ("MOV", 0x15c000a00004e, [(0x88, [.pass, .pass]), (0x89, [.evqp, .gvqp]), (0x8a, [.pass, .pass]), (0x8b, [.gvqp, .evqp]), (0x8c, [.pass, .pass]), (0x8c, [.pass, .pass]), (0x8e, [.pass, .pass]), (0xa0, [.pass, .pass]), (0xa1, [.rax, .pass]), (0xa2, [.pass, .pass]), (0xa3, [.pass, .rax]), (0xb0, [.pass, .pass]), (0xb8, [.zvqp, .ivqp]), (0xc6, [.pass, .pass]), (0xc7, [.evqp, .ivds]), (0xf20, [.rd, .cd]), (0xf20, [.pass, .cd]), (0xf20, [.pass, .pass]), (0xf20, [.pass, .pass]), (0xf21, [.rd, .pass]), (0xf21, [.pass, .pass]), (0xf21, [.pass, .pass]), (0xf21, [.pass, .pass]), (0xf22, [.cd, .rd]), (0xf22, [.cd, .pass]), (0xf22, [.pass, .pass]), (0xf22, [.pass, .pass]), (0xf23, [.pass, .rd]), (0xf23, [.pass, .pass]), (0xf23, [.pass, .pass]), (0xf23, [.pass, .pass]), (0xf24, [.rd, .pass]), (0xf24, [.pass, .pass]), (0xf26, [.pass, .rd]), (0xf26, [.pass, .pass])]),
   ("PUSH", 0x24800150000ac00051, [(0x50, [.pass]), (0x50, [.zvq]), (0x68, [.pass]), (0x6a, [.pass]), (0xff, [.pass]), (0xff, [.pass])]),
   ("POP", 0x144000a000051, [(0x58, [.pass]), (0x58, [.zvq]), (0x8f, [.pass]), (0x8f, [.pass])]),
   ("BSWAP", 0x5100021000160000a800043, [(0xfc8, [.zvqp])]), ("LEA", 0x1080008c0004d, [(0x8d, [.gvqp, .m])]),
   ("CALL", 0x268001340008400044, [(0xe8, [.jvds]), (0xff, [.pass]), (0xff, [.pass])]),
   ("JMP", 0x1440009c0004b, [(0xe9, [.jvds]), (0xeb, [.pass]), (0xff, [.pass]), (0xff, [.pass])]),
   ("BTS", 0x150000aa00043, [(0xfab, [.evqp, .gvqp]), (0xfba, [.evqp, .pass])]),
   ("CMPXCHG", 0x12000092000440002c8001440009c00044, [(0xfb0, [.pass, .pass]), (0xfb1, [.evqp, .gvqp])]),
   ("BTR", 0x14c000aa00043, [(0xfb3, [.evqp, .gvqp]), (0xfba, [.evqp, .pass])]),
   ("BTC", 0x110000aa00043, [(0xfba, [.evqp, .pass]), (0xfbb, [.evqp, .gvqp])]), ("BSF", 0x11c000a800043, [(0xfbc, [.gvqp, .evqp])]),
   ("BSR", 0x14c000a800043, [(0xfbd, [.gvqp, .evqp])]), ("CMOVO", 0x500002b8001400009c00044, [(0xf40, [.gvqp, .evqp])]),
   ("CMOVNO", 0xa00004f0002b8001400009c00044, [(0xf41, [.gvqp, .evqp])]), ("CMOVB", 0x430002b8001400009c00044, [(0xf42, [.gvqp, .evqp])]),
   ("CMOVNAE", 0x118000840004f0002b8001400009c00044, [(0xf42, [.gvqp, .evqp])]), ("CMOVC", 0x440002b8001400009c00044, [(0xf42, [.gvqp, .evqp])]),
   ("CMOVNB", 0x860004f0002b8001400009c00044, [(0xf43, [.gvqp, .evqp])]), ("CMOVAE", 0x8c000420002b8001400009c00044, [(0xf43, [.gvqp, .evqp])]),
   ("CMOVNC", 0x880004f0002b8001400009c00044, [(0xf43, [.gvqp, .evqp])]), ("CMOVZ", 0x5b0002b8001400009c00044, [(0xf44, [.gvqp, .evqp])]),
   ("CMOVE", 0x460002b8001400009c00044, [(0xf44, [.gvqp, .evqp])]), ("CMOVNZ", 0xb60004f0002b8001400009c00044, [(0xf45, [.gvqp, .evqp])]),
   ("CMOVNE", 0x8c0004f0002b8001400009c00044, [(0xf45, [.gvqp, .evqp])]), ("CMOVBE", 0x8c000430002b8001400009c00044, [(0xf46, [.gvqp, .evqp])]),
   ("CMOVNA", 0x840004f0002b8001400009c00044, [(0xf46, [.gvqp, .evqp])]),
   ("CMOVNBE", 0x118000860004f0002b8001400009c00044, [(0xf47, [.gvqp, .evqp])]), ("CMOVA", 0x420002b8001400009c00044, [(0xf47, [.gvqp, .evqp])]),
   ("CMOVS", 0x540002b8001400009c00044, [(0xf48, [.gvqp, .evqp])]), ("CMOVNS", 0xa80004f0002b8001400009c00044, [(0xf49, [.gvqp, .evqp])]),
   ("CMOVP", 0x510002b8001400009c00044, [(0xf4a, [.gvqp, .evqp])]), ("CMOVPE", 0x8c000510002b8001400009c00044, [(0xf4a, [.gvqp, .evqp])]),
   ("CMOVNP", 0xa20004f0002b8001400009c00044, [(0xf4b, [.gvqp, .evqp])]), ("CMOVPO", 0xa0000510002b8001400009c00044, [(0xf4b, [.gvqp, .evqp])]),
   ("CMOVL", 0x4d0002b8001400009c00044, [(0xf4c, [.gvqp, .evqp])]), ("CMOVNGE", 0x118000900004f0002b8001400009c00044, [(0xf4c, [.gvqp, .evqp])]),
   ("CMOVNL", 0x9a0004f0002b8001400009c00044, [(0xf4d, [.gvqp, .evqp])]), ("CMOVGE", 0x8c000480002b8001400009c00044, [(0xf4d, [.gvqp, .evqp])]),
   ("CMOVLE", 0x8c0004d0002b8001400009c00044, [(0xf4e, [.gvqp, .evqp])]), ("CMOVNG", 0x900004f0002b8001400009c00044, [(0xf4e, [.gvqp, .evqp])]),
   ("CMOVNLE", 0x1180009a0004f0002b8001400009c00044, [(0xf4f, [.gvqp, .evqp])]), ("CMOVG", 0x480002b8001400009c00044, [(0xf4f, [.gvqp, .evqp])]),
   ("JO", 0xa00004b, [(0x70, [.pass]), (0xf80, [.jvds])]), ("JNO", 0x1400009e0004b, [(0x71, [.pass]), (0xf81, [.jvds])]),
   ("JB", 0x860004b, [(0x72, [.pass]), (0xf82, [.jvds])]), ("JNAE", 0x230001080009e0004b, [(0x72, [.pass]), (0xf82, [.jvds])]),
   ("JC", 0x880004b, [(0x72, [.pass]), (0xf82, [.jvds])]), ("JNB", 0x10c0009e0004b, [(0x73, [.pass]), (0xf83, [.jvds])]),
   ("JAE", 0x118000840004b, [(0x73, [.pass]), (0xf83, [.jvds])]), ("JNC", 0x1100009e0004b, [(0x73, [.pass]), (0xf83, [.jvds])]),
   ("JZ", 0xb60004b, [(0x74, [.pass]), (0xf84, [.jvds])]), ("JE", 0x8c0004b, [(0x74, [.pass]), (0xf84, [.jvds])]),
   ("JNZ", 0x16c0009e0004b, [(0x75, [.pass]), (0xf85, [.jvds])]), ("JNE", 0x1180009e0004b, [(0x75, [.pass]), (0xf85, [.jvds])]),
   ("JBE", 0x118000860004b, [(0x76, [.pass]), (0xf86, [.jvds])]), ("JNA", 0x1080009e0004b, [(0x76, [.pass]), (0xf86, [.jvds])]),
   ("JNBE", 0x2300010c0009e0004b, [(0x77, [.pass]), (0xf87, [.jvds])]), ("JA", 0x840004b, [(0x77, [.pass]), (0xf87, [.jvds])]),
   ("JS", 0xa80004b, [(0x78, [.pass]), (0xf88, [.jvds])]), ("JNS", 0x1500009e0004b, [(0x79, [.pass]), (0xf89, [.jvds])]),
   ("JP", 0xa20004b, [(0x7a, [.pass]), (0xf8a, [.jvds])]), ("JPE", 0x118000a20004b, [(0x7a, [.pass]), (0xf8a, [.jvds])]),
   ("JNP", 0x1440009e0004b, [(0x7b, [.pass]), (0xf8b, [.jvds])]), ("JPO", 0x140000a20004b, [(0x7b, [.pass]), (0xf8b, [.jvds])]),
   ("JL", 0x9a0004b, [(0x7c, [.pass]), (0xf8c, [.jvds])]), ("JNGE", 0x230001200009e0004b, [(0x7c, [.pass]), (0xf8c, [.jvds])]),
   ("JNL", 0x1340009e0004b, [(0x7d, [.pass]), (0xf8d, [.jvds])]), ("JGE", 0x118000900004b, [(0x7d, [.pass]), (0xf8d, [.jvds])]),
   ("JLE", 0x1180009a0004b, [(0x7e, [.pass]), (0xf8e, [.jvds])]), ("JNG", 0x1200009e0004b, [(0x7e, [.pass]), (0xf8e, [.jvds])]),
   ("JNLE", 0x230001340009e0004b, [(0x7f, [.pass]), (0xf8f, [.jvds])]), ("JG", 0x900004b, [(0x7f, [.pass]), (0xf8f, [.jvds])])]

/-- The rows of the mnemonics without operands. -/
def x86PlainRows : List (String × Nat × List (Nat × List X86Arg)) :=
  [("DAA", 0x1080008400045, [(0x27, [])]), ("DAS", 0x1500008400045, [(0x2f, [])]), ("AAA", 0x1080008400042, [(0x37, [])]),
   ("AAS", 0x1500008400042, [(0x3f, [])]), ("PUSHA", 0x4200024800150000ac00051, [(0x60, [])]),
   ("PUSHAD", 0x8a0004200024800150000ac00051, [(0x60, [])]), ("POPA", 0x21000144000a000051, [(0x61, [])]),
   ("POPAD", 0x4500021000144000a000051, [(0x61, [])]), ("INSB", 0x218001500009e0004a, [(0x6c, [])]),
   ("INSW", 0x2c0001500009e0004a, [(0x6d, [])]), ("INSD", 0x228001500009e0004a, [(0x6d, [])]),
   ("OUTSB", 0x430002a000154000ac00050, [(0x6e, [])]), ("OUTSW", 0x580002a000154000ac00050, [(0x6f, [])]),
   ("OUTSD", 0x450002a000154000ac00050, [(0x6f, [])]), ("NOP", 0x144000a00004f, [(0x90, []), (0x90, []), (0xf0d, [.pass]), (0xf1f, [.pass])]),
   ("CBW", 0x1600008600044, [(0x98, []), (0x98, [])]), ("CWDE", 0x23000114000b000044, [(0x98, []), (0x98, [])]),
   ("CWD", 0x114000b000044, [(0x99, []), (0x99, [])]), ("CDQ", 0x1480008a00044, [(0x99, []), (0x99, [])]),
   ("WAIT", 0x2a8001280008400058, [(0x9b, [])]), ("FWAIT", 0x5500025000108000b000047, [(0x9b, [])]),
   ("PUSHF", 0x4700024800150000ac00051, [(0x9c, []), (0x9c, [])]), ("PUSHFD", 0x8a0004700024800150000ac00051, [(0x9c, [])]),
   ("PUSHFQ", 0xa40004700024800150000ac00051, [(0x9c, [])]), ("POPF", 0x23800144000a000051, [(0x9d, []), (0x9d, [])]),
   ("POPFD", 0x4500023800144000a000051, [(0x9d, [])]), ("POPFQ", 0x5200023800144000a000051, [(0x9d, [])]),
   ("SAHF", 0x238001240008400054, [(0x9e, [])]), ("LAHF", 0x23800124000840004d, [(0x9f, [])]),
   ("MOVSB", 0x430002a00015c000a00004e, [(0xa4, [])]), ("MOVSW", 0x580002a00015c000a00004e, [(0xa5, []), (0xa5, [])]),
   ("MOVSD", 0x450002a00015c000a00004e, [(0xa5, []), (0xa5, []), (0xf10, [.pass, .pass]), (0xf11, [.pass, .pass])]),
   ("CMPSB", 0x430002a0001440009c00044, [(0xa6, [])]), ("CMPSW", 0x580002a0001440009c00044, [(0xa7, []), (0xa7, [])]),
   ("CMPSD", 0x450002a0001440009c00044, [(0xa7, []), (0xa7, []), (0xfc2, [.pass, .pass])]), ("STOSB", 0x430002a000140000aa00054, [(0xaa, [])]),
   ("STOSW", 0x580002a000140000aa00054, [(0xab, []), (0xab, [])]), ("STOSD", 0x450002a000140000aa00054, [(0xab, []), (0xab, [])]),
   ("LODSB", 0x430002a000114000a00004d, [(0xac, [])]), ("LODSW", 0x580002a000114000a00004d, [(0xad, []), (0xad, [])]),
   ("LODSD", 0x450002a000114000a00004d, [(0xad, []), (0xad, [])]), ("SCASB", 0x430002a0001080008800054, [(0xae, [])]),
   ("SCASW", 0x580002a0001080008800054, [(0xaf, []), (0xaf, [])]), ("SCASD", 0x450002a0001080008800054, [(0xaf, []), (0xaf, [])]),
   ("RET", 0x1540008c00053, [(0xc3, [])]), ("LEAVE", 0x460002b8001080008c0004d, [(0xc9, []), (0xc9, [])]),
   ("RETF", 0x238001540008c00053, [(0xca, [.pass]), (0xcb, [])]), ("INTO", 0x280001540009e0004a, [(0xce, [])]),
   ("IRET", 0x2a800118000a60004a, [(0xcf, []), (0xcf, [])]), ("IRETD", 0x450002a800118000a60004a, [(0xcf, []), (0xcf, [])]),
   ("XLATB", 0x430002a8001080009a00059, [(0xd7, [])]), ("HLT", 0x1540009a00049, [(0xf4, [])]), ("CMC", 0x1100009c00044, [(0xf5, [])]),
   ("CLC", 0x1100009a00044, [(0xf8, [])]), ("STC", 0x110000aa00054, [(0xf9, [])]), ("CLI", 0x1280009a00044, [(0xfa, [])]),
   ("STI", 0x128000aa00054, [(0xfb, [])]), ("CLD", 0x1140009a00044, [(0xfc, [])]), ("STD", 0x114000aa00054, [(0xfd, [])])]

theorem x86Codes_eq : x86Table.map (fun r => x86Code r.2.1.toList) = x86Codes := by decide +kernel

/-- The rows found by number. -/
def x86Find : List Nat → List (Nat × String × List X86Arg) → Nat → List (Nat × List X86Arg)
  | n :: ns, r :: rs, k => if Nat.beq n k then (r.1, r.2.2) :: x86Find ns rs k else x86Find ns rs k
  | _, _, _ => []

theorem x86Find_eq (key : Str) : ∀ (rs : List (Nat × String × List X86Arg)),
    x86Find (rs.map fun r => x86Code r.2.1.toList) rs (x86Code key) = (rs.filter fun r => r.2.1.toList == key).map fun r => (r.1, r.2.2)
  | [] => rfl
  | r :: rs => by
    have ih := x86Find_eq key rs
    simp only [List.map_cons, x86Find, ih, List.filter_cons]
    by_cases e : r.2.1.toList = key
    · simp [e]
    · have : x86Code r.2.1.toList ≠ x86Code key := fun he => e (x86Code_inj he)
      simp [e, this]

theorem x86Conds_code (key : Str) : x86Conds key = x86Find x86Codes x86Table (x86Code key) := by
  rw [← x86Codes_eq, x86Find_eq]
  rfl

theorem x86Rows_code : ∀ p ∈ x86Rows ++ x86PlainRows, x86Code p.1.toList = p.2.1 := by decide +kernel

theorem x86Rows_find : ∀ p ∈ x86Rows, x86Find x86Codes x86Table p.2.1 = p.2.2 := by decide +kernel

theorem x86PlainRows_find : ∀ p ∈ x86PlainRows, x86Find x86Codes x86Table p.2.1 = p.2.2 := by decide +kernel

theorem x86Conds_row {p : String × Nat × List (Nat × List X86Arg)} (h : p ∈ x86Rows ++ x86PlainRows) : x86Conds p.1.toList = p.2.2 := by
  rw [x86Conds_code, x86Rows_code p h]
  rcases List.mem_append.1 h with h | h
  · exact x86Rows_find p h
  · exact x86PlainRows_find p h

end Necro
