import Verif.Model.Cpu.PowerPC
import Verif.Spec.PowerPC
/-!
# The PowerPC table against the instruction set
-/

namespace Necro
open Spec

/-- No operand touches bits `hi … lo`. -/
def ppcApart (items : List PpcItem) (hi lo : Nat) : Bool := items.all fun x => Nat.blt hi x.1 || Nat.ble (x.1 + x.2.1) lo

/-- The operand kinds of the table that write what the instruction set wants. -/
def ppcKindOk : PpcOperand → PpcKind → Bool
  | .gpr, .greg | .base, .g0reg | .fpr, .freg => true
  | .unsigned, .hi | .unsigned, .ui | .unsigned, .num | .unsigned, .num0 => true
  | .signed, .si | .signed, .snum | .relative, .pcrel | .absolute, .baddr => true
  | _, _ => false

/-- Each field of the instruction is a constant of the number in the table, or exactly the operand wanted. -/
def ppcArgsOk (base : Nat) (items : List PpcItem) : List PpcField → List PpcArg → Bool
  | [], [] => true
  | f :: fs, .num n :: as => Nat.beq (f.read base) n && ppcApart items f.hi f.lo && Nat.ble f.lo f.hi && Nat.blt f.hi 32 &&
      (f.kind != .spr || Nat.beq f.hi 20 && Nat.beq f.lo 11) && ppcArgsOk base items fs as
  | f :: fs, .op i :: as =>
    (match items[i]? with
    | some (lo, w, k) => ppcKindOk f.kind k && Nat.beq f.lo lo && Nat.beq (f.hi + 1) (lo + w)
    | none => false) && ppcArgsOk base items fs as
  | _, _ => false

/-- A register operand. -/
def PpcKind.isReg : PpcKind → Bool
  | .greg | .g0reg | .freg => true
  | _ => false

/-- The operands are apart from each other, and zero in the number in the table. -/
def ppcItemsOk (base : Nat) : List PpcItem → Bool
  | [] => true
  | x :: items => Nat.blt 0 x.2.1 && Nat.ble (x.1 + x.2.1) 32 && ppcApart items (x.1 + x.2.1 - 1) x.1 && (!x.2.2.isReg || Nat.beq x.2.1 5) && Nat.beq (fld base (x.1 + x.2.1 - 1) x.1) 0 && ppcItemsOk base items

/-- The row of the table writes the instruction `op` with `args`. -/
def ppcOpOk (base : Nat) (items : List PpcItem) (op : PpcOp) (args : List PpcArg) : Bool :=
  (op.fixed.all fun x => Nat.ble x.2.1 x.1 && Nat.blt x.1 32 && ppcApart items x.1 x.2.1 && Nat.beq (fld base x.1 x.2.1) x.2.2) && ppcArgsOk base items op.fields args &&
    ppcItemsOk base items && (List.range items.length).all fun i => args.any fun a => match a with | .op j => Nat.beq i j | .num _ => false

def PpcKind.isUnset : PpcKind → Bool
  | .unset => true
  | _ => false

/-- A row with an operand that can not be assembled. -/
def ppcBroken (items : List PpcItem) : Bool := items.any fun x => x.2.2.isUnset

/-- An earlier row matches everything that this one does. -/
def ppcCovers : List PpcItem → List PpcItem → Bool
  | [], [] => true
  | x :: xs, y :: ys => (x.2.2.isUnset || x.2.2 == y.2.2) && ppcCovers xs ys
  | _, _ => false

/-- The row can not be assembled, or an earlier one that can not always comes first. -/
def ppcDead (pre : List (List PpcItem)) (items : List PpcItem) : Bool := ppcBroken items || pre.any fun x => ppcBroken x && ppcCovers x items

def ppcSplits (name : String) (base : Nat) (pre : List (List PpcItem)) : List PpcRow → List (String × Nat × List (List PpcItem) × List PpcItem)
  | [] => []
  | r :: rows => (name, base, pre, r.2.getD []) :: ppcSplits name base (pre ++ [r.2.getD []]) rows

/-- The rows of the table, each with the name, the number used for it, and the operands of the rows before it. -/
def ppcFlat (l : List (String × List PpcRow)) : List (String × Nat × List (List PpcItem) × List PpcItem) :=
  l.flatMap fun g => ppcSplits g.1 (g.2.headD (0, none)).1 [] g.2

/-- A name as a number. -/
def ppcNum (s : Str) : Nat := s.foldl (fun n c => n * 128 + c.toNat) 1

/-- For each row of the table the place of what it writes in `ppcForms`, and of the instruction in `ppcOps`. -/
def ppcPlan : List (Nat × Nat) :=
  [(0, 0), (477, 0), (1, 1), (478, 1), (2, 2), (3, 3), (41, 41), (42, 42), (43, 43), (44, 44), (45, 45), (46, 46), (47, 47), (48, 48), (49, 49), (50,
   50), (51, 51), (52, 52), (97, 97), (98, 98), (99, 99), (100, 100), (101, 101), (102, 102), (103, 103), (104, 104), (11, 11), (12, 12), (125, 125),
   (126, 126), (127, 127), (128, 128), (16, 16), (17, 17), (18, 18), (19, 19), (1000, 0), (1000, 0), (20, 20), (21, 21), (22, 22), (23, 23), (455,
   26), (26, 26), (456, 27), (27, 27), (453, 24), (24, 24), (454, 25), (25, 25), (1000, 0), (1000, 0), (1000, 0), (1000, 0), (427, 20), (429, 22),
   (1000, 0), (1000, 0), (1000, 0), (1000, 0), (431, 20), (433, 22), (1000, 0), (1000, 0), (1000, 0), (1000, 0), (1000, 0), (1000, 0), (1000, 0),
   (1000, 0), (428, 21), (430, 23), (1000, 0), (1000, 0), (1000, 0), (1000, 0), (432, 21), (434, 23), (1000, 0), (1000, 0), (1000, 0), (1000, 0),
   (435, 24), (436, 24), (437, 25), (438, 25), (1000, 0), (1000, 0), (1000, 0), (1000, 0), (1000, 0), (1000, 0), (1000, 0), (1000, 0), (439, 24),
   (440, 24), (441, 25), (442, 25), (1000, 0), (1000, 0), (1000, 0), (1000, 0), (1000, 0), (1000, 0), (1000, 0), (1000, 0), (443, 24), (444, 24),
   (445, 25), (446, 25), (1000, 0), (1000, 0), (1000, 0), (1000, 0), (1000, 0), (1000, 0), (1000, 0), (1000, 0), (449, 26), (1000, 0), (1000, 0),
   (452, 27), (1000, 0), (1000, 0), (1000, 0), (1000, 0), (1000, 0), (1000, 0), (1000, 0), (1000, 0), (1000, 0), (1000, 0), (1000, 0), (331, 20),
   (1000, 0), (333, 22), (1000, 0), (339, 20), (1000, 0), (341, 22), (1000, 0), (347, 20), (1000, 0), (349, 22), (1000, 0), (355, 20), (1000, 0),
   (357, 22), (1000, 0), (363, 20), (1000, 0), (365, 22), (1000, 0), (371, 20), (1000, 0), (373, 22), (1000, 0), (379, 20), (1000, 0), (381, 22),
   (1000, 0), (387, 20), (1000, 0), (389, 22), (1000, 0), (395, 20), (1000, 0), (397, 22), (1000, 0), (403, 20), (1000, 0), (405, 22), (1000, 0),
   (411, 20), (1000, 0), (413, 22), (1000, 0), (419, 20), (1000, 0), (421, 22), (1000, 0), (332, 21), (1000, 0), (334, 23), (1000, 0), (340, 21),
   (1000, 0), (342, 23), (1000, 0), (348, 21), (1000, 0), (350, 23), (1000, 0), (356, 21), (1000, 0), (358, 23), (1000, 0), (364, 21), (1000, 0),
   (366, 23), (1000, 0), (372, 21), (1000, 0), (374, 23), (1000, 0), (380, 21), (1000, 0), (382, 23), (1000, 0), (388, 21), (1000, 0), (390, 23),
   (1000, 0), (396, 21), (1000, 0), (398, 23), (1000, 0), (404, 21), (1000, 0), (406, 23), (1000, 0), (412, 21), (1000, 0), (414, 23), (1000, 0),
   (420, 21), (1000, 0), (422, 23), (1000, 0), (1000, 0), (335, 24), (1000, 0), (1000, 0), (336, 25), (1000, 0), (1000, 0), (343, 24), (1000, 0),
   (1000, 0), (344, 25), (1000, 0), (1000, 0), (351, 24), (1000, 0), (1000, 0), (352, 25), (1000, 0), (1000, 0), (359, 24), (1000, 0), (1000, 0),
   (360, 25), (1000, 0), (1000, 0), (367, 24), (1000, 0), (1000, 0), (368, 25), (1000, 0), (1000, 0), (375, 24), (1000, 0), (1000, 0), (376, 25),
   (1000, 0), (1000, 0), (383, 24), (1000, 0), (1000, 0), (384, 25), (1000, 0), (1000, 0), (391, 24), (1000, 0), (1000, 0), (392, 25), (1000, 0),
   (1000, 0), (399, 24), (1000, 0), (1000, 0), (400, 25), (1000, 0), (1000, 0), (407, 24), (1000, 0), (1000, 0), (408, 25), (1000, 0), (1000, 0),
   (415, 24), (1000, 0), (1000, 0), (416, 25), (1000, 0), (1000, 0), (423, 24), (1000, 0), (1000, 0), (424, 25), (1000, 0), (1000, 0), (337, 26),
   (1000, 0), (1000, 0), (338, 27), (1000, 0), (1000, 0), (345, 26), (1000, 0), (1000, 0), (346, 27), (1000, 0), (1000, 0), (353, 26), (1000, 0),
   (1000, 0), (354, 27), (1000, 0), (1000, 0), (361, 26), (1000, 0), (1000, 0), (362, 27), (1000, 0), (1000, 0), (369, 26), (1000, 0), (1000, 0),
   (370, 27), (1000, 0), (1000, 0), (377, 26), (1000, 0), (1000, 0), (378, 27), (1000, 0), (1000, 0), (385, 26), (1000, 0), (1000, 0), (386, 27),
   (1000, 0), (1000, 0), (393, 26), (1000, 0), (1000, 0), (394, 27), (1000, 0), (1000, 0), (401, 26), (1000, 0), (1000, 0), (402, 27), (1000, 0),
   (1000, 0), (409, 26), (1000, 0), (1000, 0), (410, 27), (1000, 0), (1000, 0), (417, 26), (1000, 0), (1000, 0), (418, 27), (1000, 0), (1000, 0),
   (425, 26), (1000, 0), (1000, 0), (426, 27), (1000, 0), (1000, 0), (1000, 0), (1000, 0), (458, 13), (1000, 0), (1000, 0), (460, 13), (1000, 0),
   (1000, 0), (1000, 0), (1000, 0), (1000, 0), (1000, 0), (468, 228), (1000, 0), (1000, 0), (470, 228), (1000, 0), (1000, 0), (1000, 0), (1000, 0),
   (1000, 0), (1000, 0), (463, 14), (1000, 0), (1000, 0), (465, 14), (1000, 0), (1000, 0), (1000, 0), (1000, 0), (1000, 0), (1000, 0), (473, 229),
   (1000, 0), (1000, 0), (475, 229), (1000, 0), (1000, 0), (185, 185), (186, 186), (28, 28), (29, 29), (30, 30), (31, 31), (32, 32), (33, 33), (34,
   34), (35, 35), (65, 65), (66, 66), (67, 67), (68, 68), (69, 69), (70, 70), (71, 71), (72, 72), (139, 139), (140, 140), (187, 187), (188, 188),
   (189, 189), (190, 190), (262, 262), (263, 263), (268, 268), (269, 269), (264, 264), (265, 265), (270, 270), (271, 271), (274, 274), (275, 275),
   (276, 276), (277, 277), (266, 266), (267, 267), (272, 272), (273, 273), (278, 278), (279, 279), (286, 286), (287, 287), (280, 280), (281, 281),
   (288, 288), (289, 289), (282, 282), (283, 283), (290, 290), (291, 291), (284, 284), (285, 285), (292, 292), (293, 293), (304, 304), (305, 305),
   (306, 306), (307, 307), (308, 308), (309, 309), (310, 310), (311, 311), (300, 300), (301, 301), (312, 312), (313, 313), (302, 302), (303, 303),
   (294, 294), (295, 295), (296, 296), (297, 297), (298, 298), (299, 299), (314, 314), (315, 315), (316, 316), (317, 317), (1000, 0), (1000, 0),
   (1000, 0), (1000, 0), (320, 320), (321, 321), (1000, 0), (1000, 0), (322, 322), (323, 323), (324, 324), (325, 325), (326, 326), (327, 327), (328,
   328), (329, 329), (1000, 0), (191, 191), (1000, 0), (207, 207), (1000, 0), (192, 192), (1000, 0), (208, 208), (1000, 0), (193, 193), (1000, 0),
   (209, 209), (1000, 0), (194, 194), (1000, 0), (210, 210), (1000, 0), (1000, 0), (195, 195), (196, 196), (197, 197), (198, 198), (224, 224), (225,
   225), (226, 226), (1000, 0), (1000, 0), (214, 214), (219, 219), (1000, 0), (1000, 0), (215, 215), (220, 220), (1000, 0), (1000, 0), (1000, 0),
   (1000, 0), (1000, 0), (1000, 0), (1000, 0), (1000, 0), (1000, 0), (230, 230), (1000, 0), (1000, 0), (532, 256), (535, 256), (536, 256), (538, 257),
   (541, 257), (542, 257), (531, 256), (534, 256), (533, 256), (537, 257), (540, 257), (539, 257), (525, 73), (526, 74), (527, 75), (528, 76), (73,
   73), (74, 74), (75, 75), (76, 76), (529, 93), (530, 94), (93, 93), (94, 94), (95, 95), (96, 96), (135, 135), (136, 136), (113, 113), (114, 114),
   (115, 115), (116, 116), (137, 137), (138, 138), (479, 7), (7, 7), (1000, 0), (8, 8), (129, 129), (130, 130), (131, 131), (132, 132), (1000, 0),
   (1000, 0), (1000, 0), (1000, 0), (1000, 0), (1000, 0), (39, 39), (141, 141), (142, 142), (143, 143), (144, 144), (173, 173), (174, 174), (145,
   145), (146, 146), (1000, 0), (1000, 0), (199, 199), (211, 211), (1000, 0), (1000, 0), (200, 200), (212, 212), (1000, 0), (1000, 0), (201, 201),
   (213, 213), (202, 202), (203, 203), (204, 204), (223, 223), (227, 227), (218, 218), (1000, 0), (1000, 0), (216, 216), (221, 221), (1000, 0), (1000,
   0), (217, 217), (222, 222), (4, 4), (517, 53), (518, 54), (519, 55), (520, 56), (53, 53), (54, 54), (55, 55), (56, 56), (521, 57), (522, 58), (523,
   59), (524, 60), (57, 57), (58, 58), (59, 59), (60, 60), (61, 61), (62, 62), (63, 63), (64, 64), (105, 105), (106, 106), (107, 107), (108, 108),
   (109, 109), (110, 110), (111, 111), (112, 112), (480, 260), (260, 260), (481, 260), (482, 260), (15, 15), (503, 15), (504, 15), (505, 15), (506,
   15), (507, 15), (508, 15), (509, 15), (510, 15), (511, 15), (512, 15), (513, 15), (514, 15), (515, 15), (516, 15), (259, 259), (1000, 0), (489,
   259), (490, 259), (491, 259), (492, 259), (493, 259), (494, 259), (495, 259), (496, 259), (497, 259), (498, 259), (499, 259), (500, 259), (501,
   259), (502, 259), (484, 259), (9, 9), (10, 10), (133, 133), (134, 134), (233, 233), (37, 37), (483, 254), (254, 254), (234, 234), (235, 235), (253,
   253), (236, 236), (237, 237), (205, 205), (206, 206), (240, 240), (38, 38), (232, 232), (231, 231), (238, 238), (239, 239), (1000, 0), (1000, 0),
   (243, 243), (244, 244), (241, 241), (242, 242), (487, 257), (488, 257), (1000, 0), (1000, 0), (486, 258), (40, 40), (6, 6), (77, 77), (78, 78),
   (79, 79), (80, 80), (117, 117), (118, 118), (119, 119), (120, 120), (121, 121), (122, 122), (123, 123), (124, 124), (5, 5), (81, 81), (82, 82),
   (83, 83), (84, 84), (85, 85), (86, 86), (87, 87), (88, 88), (89, 89), (90, 90), (91, 91), (92, 92), (1000, 0), (1000, 0), (147, 147), (148, 148),
   (149, 149), (150, 150), (151, 151), (152, 152), (153, 153), (154, 154), (155, 155), (156, 156), (175, 175), (176, 176), (177, 177), (178, 178),
   (179, 179), (180, 180), (181, 181), (182, 182), (157, 157), (158, 158), (159, 159), (160, 160), (161, 161), (162, 162), (163, 163), (164, 164),
   (165, 165), (166, 166), (167, 167), (168, 168), (183, 183), (184, 184), (169, 169), (170, 170), (171, 171), (172, 172), (261, 261), (245, 245),
   (246, 246), (1000, 0), (1000, 0), (1000, 0), (1000, 0), (1000, 0), (1000, 0), (1000, 0), (1000, 0), (1000, 0), (1000, 0), (1000, 0), (1000, 0),
   (1000, 0), (1000, 0), (247, 247), (248, 248), (249, 249), (250, 250), (251, 251), (252, 252), (1000, 0), (1000, 0), (1000, 0), (1000, 0), (1000,
   0), (1000, 0), (1000, 0), (1000, 0), (1000, 0), (1000, 0), (1000, 0), (1000, 0), (1000, 0), (1000, 0), (1000, 0), (1000, 0), (1000, 0), (1000, 0),
   (1000, 0), (1000, 0), (1000, 0), (1000, 0), (1000, 0), (1000, 0), (1000, 0), (1000, 0), (1000, 0), (1000, 0), (1000, 0), (1000, 0), (1000, 0),
   (1000, 0), (1000, 0), (1000, 0), (1000, 0), (1000, 0), (1000, 0), (1000, 0), (1000, 0), (1000, 0), (1000, 0), (1000, 0), (1000, 0), (1000, 0),
   (1000, 0), (1000, 0), (1000, 0), (1000, 0), (1000, 0), (1000, 0), (1000, 0), (1000, 0), (1000, 0), (1000, 0), (1000, 0), (1000, 0), (1000, 0),
   (1000, 0), (1000, 0), (1000, 0), (1000, 0), (1000, 0), (1000, 0), (1000, 0), (1000, 0), (1000, 0), (1000, 0), (1000, 0), (1000, 0), (1000, 0),
   (1000, 0), (1000, 0), (1000, 0), (1000, 0), (1000, 0), (1000, 0), (1000, 0), (1000, 0), (1000, 0), (1000, 0), (1000, 0), (1000, 0), (1000, 0),
   (1000, 0), (1000, 0), (1000, 0), (1000, 0), (1000, 0), (1000, 0), (1000, 0), (1000, 0), (1000, 0), (1000, 0), (1000, 0), (1000, 0), (1000, 0),
   (1000, 0), (1000, 0), (1000, 0), (1000, 0), (1000, 0), (1000, 0), (1000, 0), (1000, 0), (1000, 0), (1000, 0), (1000, 0), (1000, 0), (1000, 0),
   (1000, 0), (1000, 0), (1000, 0), (1000, 0), (1000, 0), (1000, 0), (1000, 0), (1000, 0), (1000, 0), (1000, 0), (1000, 0), (1000, 0), (1000, 0),
   (1000, 0), (1000, 0), (1000, 0), (1000, 0), (1000, 0), (1000, 0), (1000, 0), (1000, 0), (1000, 0), (1000, 0), (1000, 0), (1000, 0), (1000, 0),
   (1000, 0), (1000, 0), (1000, 0), (1000, 0), (1000, 0), (1000, 0), (1000, 0), (1000, 0), (1000, 0), (1000, 0), (1000, 0), (1000, 0), (1000, 0),
   (1000, 0), (1000, 0), (1000, 0), (1000, 0), (1000, 0), (1000, 0), (1000, 0)]

/-- The places in `ppcForms` of those without a row. -/
def ppcLeft : List Nat :=
  [13, 14, 36, 228, 229, 255, 256, 257, 258, 318, 319, 330, 447, 448, 450, 451, 457, 459, 461, 462, 464, 466, 467, 469, 471, 472, 474, 476, 485]

/-- The names of the table, as numbers. -/
def ppcKeys : List Nat :=
  [405873225, 26185, 51951772883, 3351763, 51951772867, 6649826927022, 3170884, 405873198, 405873231, 51951773614, 405873219, 51951772078,
   51951772111, 6649826830254, 405873221, 51951772334, 51951772367, 6649826863022, 51951773381, 6649826992814, 6649826992847, 851177855084462,
   51951775045, 6649827205806, 6649827205839, 851177882347438, 51972744366, 6652511283630, 3172164, 406037038, 406037059, 51972743598, 194, 24897,
   24908, 3188289, 424716754, 3319504, 24899, 3187137, 3187148, 407955009, 52218096210, 6683916314956, 407955026, 52218243404, 24916, 3189324, 24902,
   3187532, 407971674, 52220374348, 52220374356, 6684207917644, 52220374342, 6684207915852, 3187290, 407973196, 407973204, 52220570188, 407973190,
   52220568396, 3189313, 408233537, 3187521, 408004161, 52220374337, 6684207916609, 6684207917633, 855578613458497, 6684207915841, 855578613229121,
   407973185, 52220569153, 52220570177, 6684232984129, 52220568385, 6684232754753, 3188306, 408103244, 408233554, 52253894988, 408004178, 52224534860,
   6684207916626, 855578613328204, 855578613458514, 109514062522689868, 855578613229138, 109514062493329740, 52220569170, 6684232853836,
   6684232984146, 855581821970764, 6684232754770, 855581792610636, 407956050, 52218374476, 52253747794, 6688479717708, 52224387666, 6684721621324,
   3188308, 408103500, 3188293, 408101580, 3187409, 407988428, 3187653, 408019660, 3187668, 408021580, 3188556, 408135244, 3188549, 408134348,
   3188551, 408134604, 3189199, 408217548, 3188563, 408136140, 3189454, 408250188, 3188565, 408136396, 408103489, 52237248065, 408101569, 52237002305,
   407988417, 52222518849, 408019649, 52226516545, 408021569, 52226762305, 408135233, 52241311297, 408134337, 52241196609, 408134593, 52241229377,
   408217537, 52251846209, 408136129, 52241425985, 408250177, 52256024129, 408136385, 52241458753, 52237248082, 6686367754572, 52237002322,
   6686336297292, 52222518866, 6684482414924, 52226516562, 6684994120012, 52226762322, 6685025577292, 52241311314, 6686887848268, 52241196626,
   6686873168204, 52241229394, 6686877362508, 52251846226, 6688236317004, 52241426002, 6686902528332, 52256024146, 6688771090764, 52241458770,
   6686906722636, 6686367607378, 855855053744460, 6686336150098, 855851027212620, 6684482267730, 855613730269516, 6684993972818, 855679228520780,
   6685025430098, 855683255052620, 6686887701074, 855921625737548, 6686873021010, 855919746689356, 6686877215314, 855920283560268, 6688236169810,
   856094229735756, 6686902381138, 855923504785740, 6688770943570, 856162680777036, 6686906575442, 855924041656652, 410216521, 52507716553,
   52507714121, 3204816, 410216535, 410216516, 52507715145, 6720987540425, 6720987537993, 410216524, 52507715159, 52507715140, 6721264364887,
   860321838705582, 52517955396, 6722298290755, 52518021334, 6722325342020, 52518168530, 410298322, 52518185283, 52518332370, 412248919, 52767861678,
   52767861711, 6754286299054, 52767861717, 6754286299822, 6754286299855, 864548646381486, 3238102, 414477102, 53067721154, 6792668307758,
   53067721160, 6792668308526, 416309828, 53287658030, 53287658067, 6820820232622, 416606914, 53325685038, 53325685075, 6825687689646, 416508620,
   53313103406, 53313103443, 6824077240750, 416359638, 53294033710, 53294033747, 6821636319662, 53312774724, 6824035164718, 6824035164755,
   873476501088686, 53313071810, 6824073191726, 6824073191763, 873481368545710, 6824328716868, 873514075759150, 873514075759187, 111809801697175982,
   6824329013954, 873514113786158, 873514113786195, 111809806564633006, 3253970, 416508206, 416309587, 53287627182, 416522951, 53314937774,
   53314871635, 6824303569326, 416588499, 53323327918, 416590288, 53323556910, 873653159111237, 111827604366238382, 416604876, 53325424174,
   53325621588, 6825679563310, 6825679563347, 873686984108462, 53292115159, 6821390740398, 6821390740442, 873138014776622, 53292001365, 53292001359,
   431072083, 55177226670, 55171130195, 7066443113289, 904504718501038, 55206586822, 7066443113262, 7066443112752, 904504718432302, 7066443112753,
   904504718432430, 3350874, 428911960, 428911957, 54900730584, 3351642, 429010264, 429010261, 54913313496, 3351617, 429007064, 429007061,
   54912903896, 3353562, 429256024, 429256021, 54944770776, 3352279, 443885271, 54912919896, 54944377176, 429190104, 54944360792, 54936002904,
   7031808371758, 429190089, 3351379, 428976597, 428976600, 54909004504, 3351364, 428974677, 428974680, 54908758744, 26177, 431024454, 55177439314,
   55206799442, 55206537542, 7066461727046, 55171132498, 431071698, 7062703630662, 55177519826, 431072850, 55177177682, 55206879954, 431302226,
   55206537810, 431072977, 7062710198732, 7062710198741, 431302353, 7066468295116, 7066468295125, 431318604, 55208781358, 55208781391, 7066724018094,
   55208781399, 7066724019118, 7066724019151, 904540674451374, 55208782788, 7066724196910, 55208780887, 7066723953582, 7066723953621, 904540666063534,
   433088324, 55435305518, 3384007, 433152942, 433152975, 55443580846, 3385298, 433318190, 3385296, 3402057, 435463379, 26578, 3402030, 3402051,
   435462574, 7236129810253, 926224615712430, 56532264781, 7236129892014, 7236129810121, 926224615695534, 27075, 3466839, 443755438, 3467607,
   443853742, 56812923849, 7272054252718, 443850967, 56812923822, 3467842, 443883861, 443883864, 56817134296, 3467848, 443884629, 443884632,
   56817232600, 3467863, 443886549, 443886552, 56817478360, 7272605460824, 7272636918104, 56817413080, 7272636935214, 56817413065, 7272601381848,
   443884371, 56817199573, 56817199576, 7272601545432, 443884356, 56817197653, 56817197656, 7272601299672, 7272861377731, 3467970, 443900206,
   443900239, 56819230638, 443900230, 56819229486, 56819229519, 7272861378478, 443900227, 56819229102, 56819229135, 7272861329326, 56819229507,
   7272861376942, 7272861376975, 930926256252846, 56819229509, 7272861377198, 7272861377231, 930926256285614, 7272861378245, 930926256415406,
   930926256415439, 119158560821176238, 7272861379909, 930926256628398, 930926256628431, 119158560848439214, 443967299, 7032916043587,
   917698589910851, 3484617, 57092024905, 57092022985, 57091909833, 57091941065, 57091942985, 57092056649, 57092055753, 57092056009, 7307779058249,
   7307779056329, 7307778974409, 7307778976329, 7307779089993, 7307779089353, 27223, 446031444, 446031429, 446030545, 446030789, 446030804, 446031692,
   446031685, 446031687, 57092023892, 57092023877, 57092023237, 57092023252, 57092024140, 57092024135, 445948112, 454289737, 58149086419, 3549138,
   454289710, 422633801, 54131058499, 412148052, 6752633694676, 412148058, 52754951500, 52754950612, 412148038, 53023501272, 53023599576, 53036016847,
   3449673, 55206701522, 55177341394, 412148033, 412148041, 431303122, 431073746, 7066470360270, 7062712263886, 57068790977, 935015092741955,
   55206814028, 55206814037, 431073858, 55177453909, 406137422, 412347721, 3221466, 412347694, 412347727, 52780509102, 3170643, 405842350, 405842383,
   51947825070, 433086803, 55435110830, 55435110863, 7095694190510, 55208781385, 3369676, 431318574, 431318607, 55208781742, 3220694, 412248878,
   412248911, 52767860654, 412248915, 52767861166, 52767861199, 6754286233518, 441657033, 56532100270, 441754818, 56544616750, 55166952903,
   7061369971630, 7061369971922, 903855356406062, 3466833, 443754670, 3467601, 443852974, 443753681, 56800471214, 443851985, 56813054126, 56800519377,
   7270466480302, 56813102289, 7272077093038, 443754065, 56800520366, 443852369, 56813103278, 3466821, 443753134, 3467589, 443851438, 443753169,
   56800405678, 443851473, 56812988590, 56812922065, 7272054024366, 443850961, 56812923054, 443851457, 56812986542, 410198483, 57068791364,
   57068791369, 54942327128, 54942327896, 54942329816, 3353432, 429239372, 7272634868056, 7272634868824, 7272634870744, 443886424, 56817462348,
   429238732, 429238738, 7066476667346, 7062718570962, 3221972, 412412500, 52788799956, 6756966394452, 3221971, 6756964001356, 943433733988685,
   943433733988691, 943433733955923, 943433733989453, 943433733989459, 943433733956691, 943433733991373, 943433733991379, 943433733958611,
   7370576044880, 943433733696215, 944056768487757, 944056768487763, 944056768454995, 944056768488525, 944056768488531, 944056768455763,
   944056768490445, 944056768490451, 944056768457683, 7375443501904, 944056768195287, 943850630933186, 943850630932930, 943850630933192,
   943850630932936, 943850630769346, 943850630769090, 943850630769352, 943850630769096, 15463991181659399251, 1979390945916083299411,
   15464008773845476429, 943845245264720, 120812814451695949, 120812814451564877, 120812814451696717, 120812814451696723, 120812814451663949,
   120812814451663955, 944056791526355, 120839269246102483, 120839269250326867, 120839269250294099, 120839269250294867, 7370613844674, 7370613844680,
   7370613844695, 7370613844418, 7370613844424, 7370613844439, 449865540, 3516370, 450242514, 57582789187, 450078674, 450143810, 450143816, 450143831,
   450160194, 450160200, 450160215, 3516876, 450160962, 57620603074, 450160968, 57620603080, 450160983, 57620603095, 3516882, 120768626473380546,
   15458384188592709934, 120768626473380290, 15458384188592677166, 120768626473380552, 15458384188592710702, 120768626473380296, 15458384188592677934,
   120768626473380567, 15458384188592712622, 120768626473380311, 15458384188592679854, 120768626473378640, 15458384188592465966, 120768626469137090,
   15458384188049547566, 120768626469137096, 15458384188049548334, 120768626469137111, 15458384188049550254, 120768626469135184, 15458384188049303598,
   120768626473132880, 15458384188561008686, 943504894239568, 120768626462664750, 450159308, 943951044553421, 943951044553427, 943951040359123,
   943951040358867, 943951044799181, 943951044799187, 943951040604883, 943951040604627, 57614198872, 944124164450754, 944124164450760,
   944124164450392, 944124164516290, 944124164516296, 944124164515928, 7373826679874, 7373826679880, 7373826679895, 7373826680386, 7373826680392,
   7373826680407, 7375433181762, 7375433181768, 7375433181783, 120839097250113986, 120839097250113992, 120839097250114007, 57614100813, 7375424661449,
   450160207, 450160975, 7373791308482, 7373791308226, 7373791308488, 7373791308232, 7373791308503, 7373791308247, 7373791306576, 7373807921858,
   7373807921602, 7373807921864, 7373807921608, 7373807921879, 7373807921623, 7373807919952, 57618293584, 15466854863485363024, 943814649930576,
   120777800550540112, 120817005819372368, 57618310350, 57618310362, 57618310352, 57618310349, 7371146751059, 7371146718291, 57586854616, 57586854360]

/-- The names and numbers of operands of `ppcForms`. -/
def ppcFormKeys : List Nat :=
  [3246985803, 415614183067, 415614182939, 53198615416179, 58182891021851, 441670251083, 3298781771, 27216459, 3483707035, 3634317899, 465192691355,
   415781954931, 53220090269043, 3281732172, 420061721164, 27876939, 1553, 199177, 199265, 25506313, 199195, 25497099, 25497187, 3263640075,
   3263640211, 417745947235, 417744769683, 53471330519651, 420143643171, 53778386326043, 420144170675, 53778602736163, 420145348243, 3282386579,
   420145482267, 420146658963, 3448195634, 433048467992, 27597384, 216600, 3249099377, 25367075, 3246985587, 3246985851, 415614188915, 3246985755,
   415614176627, 415614176891, 53198614642035, 3246985771, 415614178675, 415614178939, 53198614904179, 3551201843, 454553835891, 454553836155,
   58182891027827, 454553836059, 58182891015539, 58182891015803, 7447410050022771, 454553836075, 58182891017587, 58182891017851, 7447410050284915,
   3297991355, 422142893427, 422142893691, 54034290392435, 422142893739, 54034290398579, 54034290398843, 6916389171051891, 441670251195,
   56533792152947, 56533792153211, 7236325395610995, 25771731, 3298781555, 3298781819, 422244072819, 26957411, 3450548595, 3450548859, 441670253939,
   25765555, 3297991027, 3297991291, 422142885235, 3297991323, 422142889331, 422142889595, 54034289868147, 441670247099, 56533791628659,
   56533791628971, 7236325328508275, 415614187050, 53198615942514, 53198615942778, 6809422840675698, 415614200362, 53198617646450, 53198617646714,
   6809423058779506, 58182891025962, 7447410051323250, 7447410051323514, 953268486569409906, 58182891039274, 7447410053027186, 7447410053027450,
   953268486787513714, 27072058, 3465223538, 3465223802, 443548646770, 25365146, 3246738802, 3246739066, 415582600562, 3464694426, 443480886642,
   443480886906, 56765553524082, 25377315, 3248296307, 3248296475, 415781948787, 212627, 27216243, 27216411, 3483700595, 28393107, 3634317683,
   3464706595, 443482444147, 27082387, 3466545523, 25904819, 3315816819, 27734715, 3550043507, 27740859, 3550829939, 3550807739, 454503390579,
   3534038547, 452356934003, 441335623227, 56490959773043, 56490959775379, 7230842851248499, 27734667, 3550037363, 27740811, 3550823795, 3550032523,
   454404162931, 3550818955, 454504826227, 27734571, 3550025075, 27740715, 3550811507, 3550025355, 454403245427, 3550811787, 454503908723, 3550807691,
   454503384435, 3550811659, 454503892339, 454503390795, 58176434021747, 3550029451, 454403769715, 3550815883, 454504433011, 454404155019,
   58163731842419, 454504818315, 58176616744307, 454503376523, 58176432194931, 53770114919098, 6882574709644658, 424541769234, 54341346462066,
   424541769282, 54341346468210, 3431295683, 3432082115, 3432056515, 3434048195, 439303359171, 439555017411, 3433520835, 439554886339, 3551070915,
   3551077059, 3551092419, 58180843686595, 58181095344835, 454539304643, 424188010179, 424188796611, 439205844675, 439306507971, 439303231171,
   439558166211, 454537074371, 454537860803, 454539826883, 3431812803, 3431797443, 454537596611, 454537581251, 58180811054787, 439272036035,
   439270069955, 58180812363459, 58180810397379, 58181095481715, 439488023235, 56254466974067, 3433520715, 454539304523, 25638532, 3281732196,
   3448573585, 441418731153, 441653612177, 3381070410, 54021069557410, 3297184466, 422039604898, 3297184306, 3297184266, 3297184330, 424288134776,
   456550327816, 7480120741935640, 56531762882162, 56501698111090, 456550330913, 456550330953, 25775779, 3299300003, 422310399651, 54055731155619,
   25775769, 54055712010848, 422039612002, 3297184419, 441369059985, 441419514514, 441654395538, 3448590866, 217787, 3551738393, 3281587866,
   3330478627, 426301264243, 3332855315, 426605480307, 3330877107, 426352269683, 426301264539, 54566561860979, 426605480603, 54605501517171,
   426352269979, 54573090557299, 3332068963, 426504827251, 426504827547, 54592617926003, 426502197796, 54592281317748, 426504574484, 54592585533812,
   54594629734948, 6988112606073204, 54594632111636, 6988112910289268, 54592281318044, 6987812008709492, 54592585534108, 6987850948365684,
   6988112606073500, 894478413577407860, 6988112910289564, 894478452517064052, 3332839012, 426603393396, 426604972706, 54605436506482, 54605436506778,
   6989495872867698, 3332707994, 426586623346, 6989225272889898, 894620834929907058, 26031762, 3332065650, 3330476698, 426301017458, 3332183610,
   426519502194, 426518973082, 54594428554610, 3332722306, 426588455282, 426336921274, 54571125923186, 54571125923538, 6985104118212978, 426336010923,
   426336010875, 3448576665, 441417813361, 56531544906314, 7236037748008306, 441652694578, 56531544906098, 56531544902017, 7236037747458417,
   56531544902025, 7236037747459441, 441369041562, 25506465, 3264827913, 3264828001, 417897984521, 417897984656, 53490942036576, 53490940859024,
   6846840429955680, 25506345, 3264812553, 3264812641, 417896018441, 417896018576, 53490690378336, 53490689200784, 6846808217700960, 25499273,
   3263907337, 3263907425, 417780150793, 417780150928, 53475859319392, 53475858141840, 6844909842156128, 25501225, 3264157193, 3264157281,
   417812132361, 417812132496, 53479952960096, 53479951782544, 6845433828166240, 25501345, 3264172553, 3264172641, 417814098441, 417814098576,
   53480204618336, 53480203440784, 6845466040420960, 25508449, 3265081865, 3265081953, 417930490377, 417930490512, 53495102786144, 53495101608592,
   6847373005900384, 25508393, 3265074697, 3265074785, 417929572873, 417929573008, 53494985345632, 53494984168080, 6847357973514848, 25508409,
   3265076745, 3265076833, 417929835017, 417929835152, 53495018900064, 53495017722512, 6847362268482144, 25513593, 3265740297, 3265740385,
   418014769673, 418014769808, 53505890536032, 53505889358480, 6848753837886048, 25508505, 3265089033, 3265089121, 417931407881, 417931408016,
   53495220226656, 53495219049104, 6847388038285920, 25515633, 3266001417, 3266001505, 418048193033, 418048193168, 53510168726112, 53510167548560,
   6849301446216288, 25508521, 3265091081, 3265091169, 417931670025, 417931670160, 53495253781088, 53495252603536, 6847392333253216, 3263773393,
   417762994697, 417762994785, 53473663332873, 25498321, 3263785481, 3263785569, 417764553225, 25506448, 25506449, 3264825952, 3264825953,
   53473663333008, 53473663333009, 6844628906625632, 6844628906625633, 417764553360, 417764553361, 53473862830688, 53473862830689, 3263648400,
   3263648401, 3263648402, 417746995808, 417746995809, 417746995810, 3263640210, 417745947234, 417744769682, 53471330519650, 3281732171, 420061732426,
   420061732427, 420061712970, 420061712971, 420061721163, 53767900323402, 53767900323403, 53767900303946, 53767900303947, 25638531, 3281732282,
   3281732283, 3281732130, 3281732131, 3281732195, 420061721274, 420061721275, 420061721122, 420061721123, 209482, 26814106, 27082368, 3551738392,
   56263328348696, 7341588719286808, 3297184418, 3567584896, 3448590865, 441419631273, 441654512225, 441654512297, 3568251554, 3568251434, 3568244362,
   3568246314, 3568246434, 3568253538, 3568253482, 3568253498, 456736191138, 456736191018, 456736185898, 456736186018, 456736193122, 456736193082,
   456736199242, 456736183882, 456735278666, 456735528522, 456735543882, 456736453194, 456736446026, 456736448074, 58462232465994, 58462232450634,
   58462231795274, 58462231810634, 58462232719946, 58462232714826, 27743763, 3551201651, 3551201915, 454553845107, 3551201819, 454553832819,
   454553833083, 58182890634611, 3450548835, 441670250867, 441670251131, 56533792144755, 441670262307, 56533793575283, 3448583817, 441420158609,
   56501681589929, 56501681589857, 3448582801, 441417421457, 3450418825, 441655039633, 56531746361001, 56531746360929, 3450417809, 441652302481]

/-- The names of `ppcOps`. -/
def ppcOpKeys : List Nat :=
  [473510505, 60609344755, 60609344739, 7757996126638, 8381030577379, 63866353257, 479985001, 3930473, 503100659, 521927017, 66806658291, 60630316206,
   7760680483246, 477853801, 61165287017, 4013033, 226, 29025, 29036, 3716705, 29027, 3715553, 3715564, 475592289, 475592306, 60875815276,
   60875668082, 7792085514604, 61175527268, 7830467490403, 61175593206, 7830494541668, 61175740402, 477935602, 61175757155, 61175904242, 498661734,
   62788630371, 3978089, 31203, 473774702, 3699300, 473510446, 473510511, 60609345454, 473510499, 60609343918, 60609343983, 7757996029870, 473510501,
   60609344174, 60609344239, 7757996062638, 511537510, 65476801326, 65476801391, 8381030578094, 65476801379, 8381030576558, 8381030576623,
   1072771913807790, 65476801381, 8381030576814, 8381030576879, 1072771913840558, 479886199, 61425433518, 61425433583, 7862455498670, 61425433589,
   7862455499438, 7862455499503, 1006394303936430, 63866353271, 8174893218734, 8174893218799, 1046386332006318, 3749882, 479984942, 479985007,
   61438080942, 3898092, 498955822, 498955887, 63866353582, 3749110, 479886126, 479886191, 61425432494, 479886195, 61425433006, 61425433071,
   7862455433134, 63866352759, 8174893153198, 8174893153269, 1046386323618478, 60609345253, 7757996192430, 7757996192495, 993023512639406,
   60609346917, 7757996405422, 7757996405487, 993023539902382, 8381030577893, 1072771913970350, 1072771913970415, 137314804988213166, 8381030579557,
   1072771914183342, 1072771914183407, 137314805015476142, 3912423, 500790190, 500790255, 64101152686, 3699059, 473479598, 473479663, 60605396910,
   500724083, 64092682670, 64092682735, 8203863390126, 3700580, 473674286, 473674339, 60630315438, 30706, 3930414, 3930467, 503099822, 4077554,
   521926958, 500725604, 64092877358, 3913714, 500955438, 3766518, 482114350, 3995255, 511392686, 3996023, 511490990, 511488247, 65470495662,
   509392098, 65202188590, 63824524775, 8169539171246, 8169539171570, 1045701013961006, 3995249, 511391918, 3996017, 511490222, 511391345,
   65458092206, 511489649, 65470675118, 3995237, 511390382, 3996005, 511488686, 511390449, 65457977518, 511488753, 65470560430, 511488241,
   65470494894, 511488737, 65470558382, 65470495721, 8380223452334, 511390961, 65458043054, 511489265, 65470625966, 65458091249, 8378635679918,
   65470674161, 8380246292654, 65470493937, 8380223223982, 7829433564535, 1002167496260526, 61725293026, 7900837507374, 61725293032, 7900837508142,
   496549240, 496647544, 496644344, 496893304, 63570491768, 63601949048, 496827384, 63601932664, 511521144, 511521912, 511523832, 8380774660472,
   8380806117752, 65474984952, 61681073144, 61681171448, 63558302456, 63570885368, 63570475768, 63602342648, 65474706168, 65474804472, 65475050232,
   496613880, 496611960, 65474771448, 65474769528, 8380770581496, 63566576376, 63566330616, 8380770745080, 8380770499320, 8380806134830, 63593574776,
   8139977571374, 496827369, 65474984937, 3733232, 477853804, 498708978, 63834913266, 63864273394, 490271081, 7860802894324, 479785338, 61412522484,
   479785318, 479785313, 479785321, 61693588719, 65726362849, 1076860750296931, 8174639559918, 8170881463534, 65726363236, 65726363241, 3750388,
   480049780, 61446371828, 7865135594100, 3750387, 7865133201004, 61412523372, 479785332, 63828704370, 63835011186, 63864371314, 498711138, 31351,
   511604579, 477835763, 483947108, 61945229870, 484244194, 61983256878, 483996918, 61951605550, 61945229939, 7928989432238, 61983256947,
   7933856889262, 61951605619, 7929805519278, 484145900, 61970675246, 61970675315, 7932246440366, 61970346596, 7932204364334, 61970643682,
   7932242391342, 7932497916516, 1015359733314094, 7932498213602, 1015359771341102, 7932204364403, 1015322158643630, 7932242391411, 1015327026100654,
   1015359733314163, 129966045864212910, 1015359771341171, 129966050731669934, 484242156, 61982996014, 61983193460, 7933848762926, 7933848762995,
   1015532641663406, 484225779, 61980899758, 1015498816666213, 129983848533275310, 3782386, 484145454, 483946867, 61945199022, 484160231, 61972509614,
   61972443507, 7932472768942, 484227568, 61981128750, 61949687031, 7929559940014, 7929559940090, 1014983672331566, 61949573237, 61949573231,
   498709363, 63834798510, 8174612312937, 1046350376055982, 63864158694, 8174612312878, 8174612312368, 1046350375983150, 8174612312369,
   1046350375983278, 63828702067]

/-- Lines that are not assembled to the instruction of that name. -/
def ppcOddLines : List (String × Nat) := [("bctr", 0), ("bctr", 1), ("bctrl", 0), ("bctrl", 1), ("mftb", 1)]

/-- The row writes the instruction planned, and is the first with that number of operands. -/
def ppcRowPlanned (r : String × Nat × List (List PpcItem) × List PpcItem) (p : Nat × Nat) : Bool :=
  !ppcBroken r.2.2.2 && !ppcOddLines.contains (r.1, r.2.2.2.length) && (r.2.2.1.all fun x => !Nat.beq x.length r.2.2.2.length) &&
    match ppcForms[p.1]?, ppcOps[p.2]? with
    | some f, some op => f.name == r.1 && op.name == f.target && Nat.beq f.arity r.2.2.2.length && ppcOpOk r.2.1 r.2.2.2 op f.args
    | _, _ => false

def ppcRowOk (r : String × Nat × List (List PpcItem) × List PpcItem) (p : Nat × Nat) : Bool :=
  if Nat.beq p.1 1000 then ppcDead r.2.2.1 r.2.2.2 || ppcOddLines.contains (r.1, r.2.2.2.length) else ppcRowPlanned r p

/-- Every row of the table is broken, odd, or writes the instruction planned. -/
def ppcRowsOk : List (String × Nat × List (List PpcItem) × List PpcItem) → List (Nat × Nat) → Bool
  | [], [] => true
  | r :: rs, p :: ps => ppcRowOk r p && ppcRowsOk rs ps
  | _, _ => false

set_option maxRecDepth 100000 in
theorem ppc_rows_ok : ppcRowsOk (ppcFlat ppcTable) ppcPlan = true := by decide +kernel
/-- For each of `ppcOps` which bits are fixed, and their content. -/
def ppcMasks : List (Nat × Nat) :=
  [(4227858432, 939524096), (4227858432, 1006632960), (4227858432, 805306368), (4227858432, 872415232), (4227858432, 536870912), (4227858432,
   469762048), (4227858432, 603979776), (4227858432, 1610612736), (4227858432, 1677721600), (4227858432, 1744830464), (4227858432, 1811939328),
   (4227858432, 1879048192), (4227858432, 1946157056), (4232052736, 738197504), (4232052736, 671088640), (4227858432, 201326592), (4227858435,
   1207959552), (4227858435, 1207959554), (4227858435, 1207959553), (4227858435, 1207959555), (4227858435, 1073741824), (4227858435, 1073741826),
   (4227858435, 1073741825), (4227858435, 1073741827), (4227917823, 1275068448), (4227917823, 1275068449), (4227917823, 1275069472), (4227917823,
   1275069473), (4227860479, 1275068930), (4227860479, 1275068674), (4227860479, 1275068994), (4227860479, 1275068866), (4227860479, 1275068482),
   (4227860479, 1275069314), (4227860479, 1275069250), (4227860479, 1275068802), (4234412031, 1275068416), (4294967295, 1275068716), (4294967295,
   1275068516), (4294967295, 1140850690), (4227860479, 512), (4227860479, 2080375316), (4227860479, 2080375317), (4227860479, 2080376340),
   (4227860479, 2080376341), (4227860479, 2080374804), (4227860479, 2080374805), (4227860479, 2080375828), (4227860479, 2080375829), (4227860479,
   2080375060), (4227860479, 2080375061), (4227860479, 2080376084), (4227860479, 2080376085), (4227860479, 2080374864), (4227860479, 2080374865),
   (4227860479, 2080375888), (4227860479, 2080375889), (4227860479, 2080374800), (4227860479, 2080374801), (4227860479, 2080375824), (4227860479,
   2080375825), (4227860479, 2080375056), (4227860479, 2080375057), (4227860479, 2080376080), (4227860479, 2080376081), (4227860479, 2080375766),
   (4227860479, 2080375767), (4227860479, 2080376790), (4227860479, 2080376791), (4227860479, 2080375702), (4227860479, 2080375703), (4227860479,
   2080376726), (4227860479, 2080376727), (4227860479, 2080375254), (4227860479, 2080375255), (4227860479, 2080376278), (4227860479, 2080376279),
   (4227860479, 2080375312), (4227860479, 2080375313), (4227860479, 2080376336), (4227860479, 2080376337), (4227860479, 2080374998), (4227860479,
   2080374999), (4227860479, 2080376022), (4227860479, 2080376023), (4227860479, 2080375446), (4227860479, 2080375447), (4227860479, 2080376470),
   (4227860479, 2080376471), (4227860479, 2080375510), (4227860479, 2080375511), (4227860479, 2080376534), (4227860479, 2080376535), (4227860479,
   2080374934), (4227860479, 2080374935), (4227860479, 2080374806), (4227860479, 2080374807), (4227923967, 2080375252), (4227923967, 2080375253),
   (4227923967, 2080376276), (4227923967, 2080376277), (4227923967, 2080375188), (4227923967, 2080375189), (4227923967, 2080376212), (4227923967,
   2080376213), (4227923967, 2080375248), (4227923967, 2080375249), (4227923967, 2080376272), (4227923967, 2080376273), (4227923967, 2080375184),
   (4227923967, 2080375185), (4227923967, 2080376208), (4227923967, 2080376209), (4227923967, 2080374992), (4227923967, 2080374993), (4227923967,
   2080376016), (4227923967, 2080376017), (4227923967, 2080375504), (4227923967, 2080375505), (4227923967, 2080376528), (4227923967, 2080376529),
   (4227923967, 2080375760), (4227923967, 2080375761), (4227923967, 2080376784), (4227923967, 2080376785), (4227860479, 2080374840), (4227860479,
   2080374841), (4227860479, 2080374904), (4227860479, 2080374905), (4227860479, 2080375672), (4227860479, 2080375673), (4227860479, 2080375608),
   (4227860479, 2080375609), (4227860479, 2080375416), (4227860479, 2080375417), (4227860479, 2080375736), (4227860479, 2080375737), (4227860479,
   2080375032), (4227860479, 2080375033), (4227860479, 2080375352), (4227860479, 2080375353), (4227860479, 2080374832), (4227860479, 2080374833),
   (4227860479, 2080375856), (4227860479, 2080375857), (4227860479, 2080376368), (4227860479, 2080376369), (4227860479, 2080375858), (4227860479,
   2080375859), (4227860479, 2080374842), (4227860479, 2080374843), (4227860479, 2080375866), (4227860479, 2080375867), (4227860479, 2080375088),
   (4227860479, 2080375089), (4227860479, 2080376112), (4227860479, 2080376113), (4227860479, 2080375216), (4227860479, 2080375217), (4227860479,
   2080376240), (4227860479, 2080376241), (4227860479, 2080375090), (4227860479, 2080375091), (4227860479, 2080376114), (4227860479, 2080376115),
   (4227860479, 2080375218), (4227860479, 2080375219), (4227860479, 2080376242), (4227860479, 2080376243), (4227860479, 2080376624), (4227860479,
   2080376625), (4227860479, 2080376626), (4227860479, 2080376627), (4227860479, 2080376432), (4227860479, 2080376433), (4227860479, 2080375152),
   (4227860479, 2080375153), (4227860479, 2080376176), (4227860479, 2080376177), (4227860479, 2080375280), (4227860479, 2080375281), (4227860479,
   2080376304), (4227860479, 2080376305), (4227860479, 2080376688), (4227860479, 2080376689), (4227923967, 2080374836), (4227923967, 2080374837),
   (4227923967, 2080376692), (4227923967, 2080376693), (4227923967, 2080376628), (4227923967, 2080376629), (4227860479, 2080374958), (4227860479,
   2080375342), (4227860479, 2080375470), (4227860479, 2080374830), (4227860479, 2080376364), (4227860479, 2080375852), (4227860479, 2080375850),
   (4227860479, 2080374824), (4227860479, 2080375214), (4227860479, 2080375598), (4227860479, 2080375086), (4227860479, 2080376620), (4227860479,
   2080376108), (4227860479, 2080376106), (4227860479, 2080375404), (4227860479, 2080375660), (4227860479, 2080375022), (4227860479, 2080375406),
   (4227860479, 2080375534), (4227860479, 2080374894), (4227860479, 2080375278), (4227860479, 2080375662), (4227860479, 2080375150), (4227860479,
   2080375854), (4227860479, 2080375982), (4227860479, 2080376110), (4227860479, 2080376238), (4227860479, 2080376750), (4227860479, 2080375918),
   (4227860479, 2080376046), (4227860479, 2080376174), (4227860479, 2080376302), (4227860479, 2080375085), (4227860479, 2080375338), (4227860479,
   2080375339), (4227860479, 2080375978), (4227860479, 2080376234), (4232054783, 2080374784), (4232054783, 2080374848), (4229955583, 2080374822),
   (4229955583, 2080374950), (4229955583, 2080375076), (4292872191, 2080376748), (4292872191, 2080375276), (4292872191, 2080376812), (4292872191,
   2080374892), (4292872191, 2080374956), (4292872191, 2080376300), (4292872191, 2080375724), (4294967295, 2080376492), (4294967295, 2080375524),
   (4294967295, 2080375916), (4229892095, 2080375268), (4229892095, 2080376102), (4294903807, 2080376740), (4294903807, 2080376804), (4286580735,
   2080375468), (4286580735, 2113929900), (4286580735, 2080375532), (4286580735, 2113929964), (4288675839, 2080376428), (4294967295, 2113930860),
   (4292872191, 2082473964), (4261414911, 2080375340), (4236247039, 2080375808), (4227860479, 2080375462), (4227860479, 2080375718), (4227860479,
   2080375526), (4227860479, 2080374792), (4288675839, 2080375980), (4227923967, 2080375846), (4227860479, 4227858474), (4227860479, 4227858475),
   (4227860479, 4227858472), (4227860479, 4227858473), (4227860479, 4227858468), (4227860479, 4227858469), (4227860479, 3959423018), (4227860479,
   3959423019), (4227860479, 3959423016), (4227860479, 3959423017), (4227860479, 3959423012), (4227860479, 3959423013), (4227921983, 4227858482),
   (4227921983, 4227858483), (4227921983, 3959423026), (4227921983, 3959423027), (4227858495, 4227858490), (4227858495, 4227858491), (4227858495,
   4227858488), (4227858495, 4227858489), (4227858495, 4227858494), (4227858495, 4227858495), (4227858495, 4227858492), (4227858495, 4227858493),
   (4227858495, 3959423034), (4227858495, 3959423035), (4227858495, 3959423032), (4227858495, 3959423033), (4227858495, 3959423038), (4227858495,
   3959423039), (4227858495, 3959423036), (4227858495, 3959423037), (4227858495, 4227858478), (4227858495, 4227858479), (4229892095, 4227858476),
   (4229892095, 4227858477), (4229892095, 3959423020), (4229892095, 3959423021), (4229892095, 3959423024), (4229892095, 3959423025), (4229892095,
   4227858484), (4229892095, 4227858485), (4229892095, 4227858576), (4229892095, 4227858577), (4229892095, 4227858960), (4229892095, 4227858961),
   (4229892095, 4227858512), (4229892095, 4227858513), (4229892095, 4227858704), (4229892095, 4227858705), (4229892095, 4227858456), (4229892095,
   4227858457), (4229892095, 4227858460), (4229892095, 4227858461), (4229892095, 4227858462), (4229892095, 4227858463), (4234151935, 4227858432),
   (4234151935, 4227858496), (4229955583, 4227859598), (4229955583, 4227859599), (4236185599, 4227858700), (4236185599, 4227858701), (4261480447,
   4227859854), (4261480447, 4227859855), (4229955583, 4227858572), (4229955583, 4227858573), (4229955583, 4227858508), (4229955583, 4227858509),
   (4234412031, 4227858560)]

/-- Names in the table, with numbers of operands, that are never assembled. -/
def ppcNever : List (String × Nat) :=
  [("jbsr", 2), ("jmp", 2), ("bt", 2), ("btl", 2), ("bf", 2), ("bfl", 2), ("bdnzt", 2), ("bdnztl", 2), ("bdnzf", 2), ("bdnzfl", 2), ("bdzt", 2),
   ("bdztl", 2), ("bdzf", 2), ("bdzfl", 2), ("bta", 2), ("btla", 2), ("bfa", 2), ("bfla", 2), ("bdnzta", 2), ("bdnztla", 2), ("bdnzfa", 2),
   ("bdnzfla", 2), ("bdzta", 2), ("bdztla", 2), ("bdzfa", 2), ("bdzfla", 2), ("btlr", 1), ("btlr", 2), ("btlrl", 1), ("btlrl", 2), ("bflr", 1),
   ("bflr", 2), ("bflrl", 1), ("bflrl", 2), ("bdnztlr", 1), ("bdnztlr", 2), ("bdnztlrl", 1), ("bdnztlrl", 2), ("bdnzflr", 1), ("bdnzflr", 2),
   ("bdnzflrl", 1), ("bdnzflrl", 2), ("bdztlr", 1), ("bdztlr", 2), ("bdztlrl", 1), ("bdztlrl", 2), ("bdzflr", 1), ("bdzflr", 2), ("bdzflrl", 1),
   ("bdzflrl", 2), ("btctr", 1), ("btctr", 2), ("btctrl", 1), ("btctrl", 2), ("bfctr", 1), ("bfctr", 2), ("bfctrl", 1), ("bfctrl", 2), ("blt", 2),
   ("bltl", 2), ("ble", 2), ("blel", 2), ("beq", 2), ("beql", 2), ("bge", 2), ("bgel", 2), ("bgt", 2), ("bgtl", 2), ("bnl", 2), ("bnll", 2),
   ("bne", 2), ("bnel", 2), ("bng", 2), ("bngl", 2), ("bso", 2), ("bsol", 2), ("bns", 2), ("bnsl", 2), ("bun", 2), ("bunl", 2), ("bnu", 2),
   ("bnul", 2), ("blta", 2), ("bltla", 2), ("blea", 2), ("blela", 2), ("beqa", 2), ("beqla", 2), ("bgea", 2), ("bgela", 2), ("bgta", 2), ("bgtla", 2),
   ("bnla", 2), ("bnlla", 2), ("bnea", 2), ("bnela", 2), ("bnga", 2), ("bngla", 2), ("bsoa", 2), ("bsola", 2), ("bnsa", 2), ("bnsla", 2), ("buna", 2),
   ("bunla", 2), ("bnua", 2), ("bnula", 2), ("bltlr", 1), ("bltlr", 2), ("bltlrl", 1), ("bltlrl", 2), ("blelr", 1), ("blelr", 2), ("blelrl", 1),
   ("blelrl", 2), ("beqlr", 1), ("beqlr", 2), ("beqlrl", 1), ("beqlrl", 2), ("bgelr", 1), ("bgelr", 2), ("bgelrl", 1), ("bgelrl", 2), ("bgtlr", 1),
   ("bgtlr", 2), ("bgtlrl", 1), ("bgtlrl", 2), ("bnllr", 1), ("bnllr", 2), ("bnllrl", 1), ("bnllrl", 2), ("bnelr", 1), ("bnelr", 2), ("bnelrl", 1),
   ("bnelrl", 2), ("bnglr", 1), ("bnglr", 2), ("bnglrl", 1), ("bnglrl", 2), ("bsolr", 1), ("bsolr", 2), ("bsolrl", 1), ("bsolrl", 2), ("bnslr", 1),
   ("bnslr", 2), ("bnslrl", 1), ("bnslrl", 2), ("bunlr", 1), ("bunlr", 2), ("bunlrl", 1), ("bunlrl", 2), ("bnulr", 1), ("bnulr", 2), ("bnulrl", 1),
   ("bnulrl", 2), ("bltctr", 1), ("bltctr", 2), ("bltctrl", 1), ("bltctrl", 2), ("blectr", 1), ("blectr", 2), ("blectrl", 1), ("blectrl", 2),
   ("beqctr", 1), ("beqctr", 2), ("beqctrl", 1), ("beqctrl", 2), ("bgectr", 1), ("bgectr", 2), ("bgectrl", 1), ("bgectrl", 2), ("bgtctr", 1),
   ("bgtctr", 2), ("bgtctrl", 1), ("bgtctrl", 2), ("bnlctr", 1), ("bnlctr", 2), ("bnlctrl", 1), ("bnlctrl", 2), ("bnectr", 1), ("bnectr", 2),
   ("bnectrl", 1), ("bnectrl", 2), ("bngctr", 1), ("bngctr", 2), ("bngctrl", 1), ("bngctrl", 2), ("bsoctr", 1), ("bsoctr", 2), ("bsoctrl", 1),
   ("bsoctrl", 2), ("bnsctr", 1), ("bnsctr", 2), ("bnsctrl", 1), ("bnsctrl", 2), ("bunctr", 1), ("bunctr", 2), ("bunctrl", 1), ("bunctrl", 2),
   ("bnuctr", 1), ("bnuctr", 2), ("bnuctrl", 1), ("bnuctrl", 2), ("cmpi", 3), ("cmpi", 4), ("cmpwi", 3), ("cmpdi", 3), ("cmp", 3), ("cmp", 4),
   ("cmpw", 3), ("cmpd", 3), ("cmpli", 3), ("cmpli", 4), ("cmplwi", 3), ("cmpldi", 3), ("cmpl", 3), ("cmpl", 4), ("cmplw", 3), ("cmpld", 3),
   ("fcmpu", 3), ("fcmpo", 3), ("mcrfs", 2), ("lbz", 3), ("lbzu", 3), ("lhz", 3), ("lhzu", 3), ("lha", 3), ("lhau", 3), ("lwz", 3), ("lwzu", 3),
   ("lmw", 3), ("stmw", 3), ("lfs", 3), ("lfsu", 3), ("lfd", 3), ("lfdu", 3), ("la", 3), ("mcrf", 2), ("mfspr", 2), ("mtspr", 2), ("mtcrf", 2),
   ("mtocrf", 2), ("mcrxr", 1), ("mfcr", 2), ("mfocrf", 2), ("rlwinm", 5), ("rlwinm.", 5), ("rlwnm", 5), ("rlwnm.", 5), ("rlwimi", 5), ("rlwimi.", 5),
   ("stb", 3), ("stbu", 3), ("sth", 3), ("sthu", 3), ("stw", 3), ("stwu", 3), ("stfs", 3), ("stfsu", 3), ("stfd", 3), ("stfdu", 3), ("mtsr", 2),
   ("mfsr", 2), ("mftb", 2), ("rlmi", 5), ("rlmi.", 5), ("lvebx", 3), ("lvehx", 3), ("lvewx", 3), ("lvx", 3), ("lvxl", 3), ("stvebx", 3),
   ("stvehx", 3), ("stvewx", 3), ("stvx", 3), ("stvxl", 3), ("lvsl", 3), ("lvsr", 3), ("mtvscr", 1), ("mfvscr", 1), ("vaddubm", 3), ("vaddubs", 3),
   ("vaddsbs", 3), ("vadduhm", 3), ("vadduhs", 3), ("vaddshs", 3), ("vadduwm", 3), ("vadduws", 3), ("vaddsws", 3), ("vaddfp", 3), ("vaddcuw", 3),
   ("vsububm", 3), ("vsububs", 3), ("vsubsbs", 3), ("vsubuhm", 3), ("vsubuhs", 3), ("vsubshs", 3), ("vsubuwm", 3), ("vsubuws", 3), ("vsubsws", 3),
   ("vsubfp", 3), ("vsubcuw", 3), ("vmuloub", 3), ("vmulosb", 3), ("vmulouh", 3), ("vmulosh", 3), ("vmuleub", 3), ("vmulesb", 3), ("vmuleuh", 3),
   ("vmulesh", 3), ("vmhaddshs", 4), ("vmhraddshs", 4), ("vmladduhm", 4), ("vmaddfp", 4), ("vmsumubm", 4), ("vmsummbm", 4), ("vmsumuhm", 4),
   ("vmsumuhs", 4), ("vmsumshm", 4), ("vmsumshs", 4), ("vsumsws", 3), ("vsum2sws", 3), ("vsum4ubs", 3), ("vsum4sbs", 3), ("vsum4shs", 3),
   ("vavgub", 3), ("vavguh", 3), ("vavguw", 3), ("vavgsb", 3), ("vavgsh", 3), ("vavgsw", 3), ("vand", 3), ("vor", 3), ("vxor", 3), ("vandc", 3),
   ("vnor", 3), ("vrlb", 3), ("vrlh", 3), ("vrlw", 3), ("vslb", 3), ("vslh", 3), ("vslw", 3), ("vsl", 3), ("vsrb", 3), ("vsrab", 3), ("vsrh", 3),
   ("vsrah", 3), ("vsrw", 3), ("vsraw", 3), ("vsr", 3), ("vcmpgtub", 3), ("vcmpgtub.", 3), ("vcmpgtsb", 3), ("vcmpgtsb.", 3), ("vcmpgtuh", 3),
   ("vcmpgtuh.", 3), ("vcmpgtsh", 3), ("vcmpgtsh.", 3), ("vcmpgtuw", 3), ("vcmpgtuw.", 3), ("vcmpgtsw", 3), ("vcmpgtsw.", 3), ("vcmpgtfp", 3),
   ("vcmpgtfp.", 3), ("vcmpequb", 3), ("vcmpequb.", 3), ("vcmpequh", 3), ("vcmpequh.", 3), ("vcmpequw", 3), ("vcmpequw.", 3), ("vcmpeqfp", 3),
   ("vcmpeqfp.", 3), ("vcmpgefp", 3), ("vcmpgefp.", 3), ("vcmpbfp", 3), ("vcmpbfp.", 3), ("vsel", 4), ("vpkuhum", 3), ("vpkuhus", 3), ("vpkshus", 3),
   ("vpkshss", 3), ("vpkuwum", 3), ("vpkuwus", 3), ("vpkswus", 3), ("vpkswss", 3), ("vpkpx", 3), ("vupkhsb", 2), ("vupkhsh", 2), ("vupkhpx", 2),
   ("vupklsb", 2), ("vupklsh", 2), ("vupklpx", 2), ("vmrghb", 3), ("vmrghh", 3), ("vmrghw", 3), ("vmrglb", 3), ("vmrglh", 3), ("vmrglw", 3),
   ("vspltb", 3), ("vsplth", 3), ("vspltw", 3), ("vspltisb", 2), ("vspltish", 2), ("vspltisw", 2), ("vperm", 4), ("vsldoi", 4), ("vslo", 3),
   ("vsro", 3), ("vmaxub", 3), ("vmaxsb", 3), ("vmaxuh", 3), ("vmaxsh", 3), ("vmaxuw", 3), ("vmaxsw", 3), ("vmaxfp", 3), ("vminub", 3), ("vminsb", 3),
   ("vminuh", 3), ("vminsh", 3), ("vminuw", 3), ("vminsw", 3), ("vminfp", 3), ("vrefp", 2), ("vrsqrtefp", 2), ("vlogefp", 2), ("vexptefp", 2),
   ("vnmsubfp", 4), ("vrfin", 2), ("vrfiz", 2), ("vrfip", 2), ("vrfim", 2), ("vctuxs", 3), ("vctsxs", 3), ("vcfux", 3), ("vcfsx", 3)]

/-- The bits that have a fixed content. -/
def ppcMask : List (Nat × Nat × Nat) → Nat
  | [] => 0
  | x :: l => (2 ^ (x.1 - x.2.1 + 1) - 1) <<< x.2.1 ||| ppcMask l

/-- That content. -/
def ppcContent : List (Nat × Nat × Nat) → Nat
  | [] => 0
  | x :: l => x.2.2 <<< x.2.1 ||| ppcContent l

theorem ppc_masks : ppcOps.map (fun o => (ppcMask o.fixed, ppcContent o.fixed)) = ppcMasks := by decide +kernel

/-- No two patterns fit the same word. -/
def ppcExclusive : List (Nat × Nat) → Bool
  | [] => true
  | x :: l => (l.all fun y => !Nat.beq (Nat.land x.2 y.1) (Nat.land y.2 x.1)) && ppcExclusive l

set_option maxRecDepth 100000 in
theorem ppc_exclusive : ppcExclusive ppcMasks = true := by decide +kernel

/-- The numbers are different modulo `p`, and not in the set `n`. -/
def ppcFresh (p : Nat) : List Nat → Nat → Bool
  | [], _ => true
  | k :: l, n => !n.testBit (k % p) && ppcFresh p l (n ||| 1 <<< (k % p))

theorem ppc_keys : ppcTable.map (fun g => ppcNum (upper g.1.toList)) = ppcKeys := by decide +kernel
theorem ppc_form_keys : ppcForms.map (fun f => ppcNum (upper f.name.toList) * 8 + f.arity) = ppcFormKeys := by decide +kernel
theorem ppc_op_keys : ppcOps.map (fun o => ppcNum o.name.toList) = ppcOpKeys := by decide +kernel

set_option maxRecDepth 100000 in
theorem ppc_keys_fresh : ppcFresh 30133 ppcKeys 0 = true := by decide +kernel
set_option maxRecDepth 100000 in
theorem ppc_form_keys_fresh : ppcFresh 17233 ppcFormKeys 0 = true := by decide +kernel
set_option maxRecDepth 100000 in
theorem ppc_op_keys_fresh : ppcFresh 8741 ppcOpKeys 0 = true := by decide +kernel

/-- A set of numbers. -/
def ppcMarks : List Nat → Nat
  | [] => 0
  | k :: l => 1 <<< k ||| ppcMarks l

set_option maxRecDepth 100000 in
theorem ppc_all_planned : (ppcMarks (ppcPlan.map Prod.fst) ||| ppcMarks ppcLeft) % 2 ^ ppcForms.length = 2 ^ ppcForms.length - 1 := by decide +kernel

theorem ppc_left : (ppcLeft.all fun i => match ppcForms[i]? with
    | some f => ppcOddLines.contains (f.name, f.arity) || ppcNever.contains (f.name, f.arity)
    | none => false) = true := by decide +kernel

/-- The numbers of operands with which the name is never assembled. -/
def ppcNeverOf (name : String) (rows : List (String × Nat × List (List PpcItem) × List PpcItem)) : List (String × Nat) :=
  ((((rows.filter fun r => ppcDead r.2.2.1 r.2.2.2).map fun r => r.2.2.2.length).eraseDups).filter fun n =>
    rows.all fun r => !Nat.beq r.2.2.2.length n || ppcDead r.2.2.1 r.2.2.2).map fun n => (name, n)

set_option maxRecDepth 100000 in
theorem ppc_never : ppcTable.flatMap (fun g => ppcNeverOf g.1 (ppcSplits g.1 (g.2.headD (0, none)).1 [] g.2)) = ppcNever := by decide +kernel

end Necro
