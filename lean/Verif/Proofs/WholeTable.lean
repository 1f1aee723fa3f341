import Verif.Proofs.WholeClasses
import Verif.Proofs.YyKeeps

/-! Generated by tools/whole.py: the classes of the symbols and the rules that have something to keep. Nothing here is
trusted: the kernel checks the table against the grammar. -/
namespace Sqldef.Sql
open Yy

/-- The symbols of which something is known, by their codes. -/
def classCodes : List (Nat × Class) :=
  [(1999, .stmt), (1989, .stmt), (1988, .stmt), (1986, .stmt), (1987, .stmt), (1985, .stmt), (1983, .stmt), (1982, .stmt), (1981, .stmt), (1979, .stmt), (1978, .stmt), (1977, .stmt), (1980, .stmt), (1990, .stmt), (1994, .stmt),
   (1993, .dml), (1992, .dml), (1991, .dml), (1796, .dml),
   (1797, .body),
   (1998, .sel), (1997, .sel), (1996, .sel), (1995, .sel),
   (1941, .ins),
   (1966, .selExprs), (1965, .selExprs),
   (1964, .selExpr),
   (1962, .tabExprs), (1961, .tabExprs),
   (1960, .tabExpr), (1959, .tabExpr), (1958, .tabExpr),
   (1947, .aliased),
   (1957, .join), (1956, .join), (1955, .join),
   (1963, .expr), (1944, .expr), (1939, .expr), (1940, .expr), (1935, .expr), (1937, .expr), (1936, .expr), (1934, .expr), (1927, .expr), (1938, .expr),
   (1967, .optExpr), (1922, .optExpr), (1921, .optExpr), (1919, .optExpr), (1810, .optExpr), (1809, .optExpr),
   (1945, .clause),
   (1931, .exprs), (1920, .exprs),
   (1929, .tuple), (1928, .tuple),
   (1930, .rows),
   (1932, .colTuple),
   (1926, .subquery),
   (1924, .whens),
   (1923, .when_),
   (1918, .orders), (1917, .orders),
   (1916, .order),
   (1914, .limit),
   (1906, .updates), (1907, .updates),
   (1902, .update),
   (1867, .convert), (1866, .convert),
   (1857, .length),
   (1848, .lengths),
   (1865, .plainType), (1861, .plainType), (1863, .plainType), (1862, .plainType), (1860, .plainType), (1859, .plainType), (1864, .plainType), (1858, .plainType),
   (1845, .colType),
   (1846, .column),
   (1834, .table), (1835, .table),
   (1844, .indexDef), (1843, .indexDef),
   (1825, .option),
   (1824, .options), (1823, .options), (1826, .options),
   (1800, .onOff),
   (1828, .indexCols),
   (1984, .tablePrefix),
   (1806, .behavior),
   (2058, .integral),
   (2298, .word),
   (2312, .rendered), (2012, .rendered), (2121, .rendered), (2133, .rendered), (2150, .rendered),
   (2309, .replication),
   (2051, .using)]

/-- The class of a symbol. -/
def classIn : List (Nat × Class) → Nat → Class
  | [], _ => .any
  | (a, c) :: l, x => bif Nat.beq a x then c else classIn l x

@[inherit_doc classIn] def classOf (x : Nat) : Class := classIn classCodes x

/-- Part of `wholeTable`. -/
def wholeTable0 : List (Nat × Class × List Class) :=
  [(4, .stmt, [.sel]),
   (5, .stmt, [.stmt]),
   (6, .stmt, [.dml]),
   (7, .stmt, [.dml]),
   (8, .stmt, [.dml]),
   (9, .stmt, [.stmt]),
   (10, .stmt, [.stmt]),
   (11, .stmt, [.stmt]),
   (12, .stmt, [.stmt]),
   (13, .stmt, [.stmt]),
   (14, .stmt, [.stmt]),
   (15, .stmt, [.stmt]),
   (16, .stmt, [.stmt]),
   (17, .stmt, [.stmt]),
   (18, .stmt, [.stmt]),
   (19, .stmt, [.stmt]),
   (20, .stmt, [.stmt]),
   (21, .stmt, [.stmt]),
   (22, .sel, [.sel, .orders, .limit]),
   (23, .sel, [.sel, .any, .sel, .orders, .limit]),
   (24, .sel, [.any, .any, .any, .any, .expr]),
   (25, .stmt, [.any, .any, .selExpr]),
   (26, .sel, [.any, .any, .any, .any, .any, .selExprs, .tabExprs, .clause, .exprs, .optExpr]),
   (27, .sel, [.sel]),
   (28, .sel, [.any, .sel]),
   (29, .sel, [.sel]),
   (30, .sel, [.any, .sel]),
   (31, .dml, [.any, .any, .any, .any, .any, .ins, .updates]),
   (32, .dml, [.any, .any, .any, .any, .any, .any, .updates, .updates]),
   (35, .dml, [.any, .any, .tabExprs, .any, .updates, .clause, .orders, .limit]),
   (36, .dml, [.any, .any, .any, .any, .any, .clause, .orders, .limit]),
   (37, .dml, [.any, .any, .any, .any, .using, .tabExprs, .clause]),
   (38, .dml, [.any, .any, .any, .any, .tabExprs, .clause]),
   (45, .stmt, []),
   (46, .stmt, []),
   (47, .stmt, []),
   (48, .stmt, []),
   (60, .stmt, [.tablePrefix, .table]),
   (61, .stmt, [.any, .any, .any, .any, .any, .any, .any, .any, .indexCols, .any, .any, .clause, .options]),
   (62, .stmt, [.any, .any, .any, .any, .any, .using, .any, .any, .any, .any, .indexCols, .any, .options]),
   (63, .stmt, [.any, .any, .any, .any, .any, .any, .any, .using, .any, .any, .indexCols, .any, .clause, .options]),
   (64, .stmt, [.any, .any, .rendered, .any, .any, .sel]),
   (65, .stmt, []),
   (66, .stmt, []),
   (67, .stmt, []),
   (68, .stmt, [.any, .rendered, .any, .any, .any, .any, .any, .any, .any, .optExpr, .optExpr]),
   (69, .stmt, [.any, .rendered, .any, .any, .any, .any, .any, .any, .any, .any, .dml]),
   (70, .stmt, [.any, .rendered, .any, .any, .any, .any, .any, .any, .body]),
   (76, .body, [.dml]),
   (77, .body, [.body, .dml])]

/-- Part of `wholeTable`. -/
def wholeTable1 : List (Nat × Class × List Class) :=
  [(78, .dml, [.dml]),
   (79, .dml, [.dml]),
   (80, .dml, [.dml]),
   (90, .optExpr, []),
   (91, .optExpr, [.using, .expr]),
   (92, .optExpr, []),
   (93, .optExpr, [.any, .rendered, .expr]),
   (106, .tablePrefix, []),
   (107, .table, [.any, .table]),
   (108, .table, [.column]),
   (109, .table, [.table, .any, .column]),
   (110, .table, [.table, .any, .indexDef]),
   (111, .table, [.table]),
   (112, .table, [.table, .any, .indexDef]),
   (113, .column, [.any, .colType]),
   (114, .plainType, [.plainType]),
   (115, .plainType, [.plainType]),
   (116, .plainType, [.plainType]),
   (117, .plainType, [.plainType]),
   (118, .plainType, [.plainType]),
   (119, .colType, [.plainType]),
   (120, .colType, [.colType]),
   (121, .colType, [.colType]),
   (122, .colType, [.colType]),
   (123, .colType, [.colType]),
   (124, .colType, [.colType]),
   (125, .colType, [.colType]),
   (126, .colType, [.colType]),
   (127, .colType, [.colType]),
   (128, .colType, [.colType]),
   (129, .colType, [.colType]),
   (130, .colType, [.colType]),
   (131, .colType, [.colType, .rendered, .any, .any, .expr]),
   (132, .colType, [.colType, .any, .any, .rendered, .any, .any, .expr]),
   (133, .colType, [.colType]),
   (134, .colType, [.colType]),
   (135, .colType, [.colType]),
   (136, .colType, [.colType, .any, .behavior]),
   (137, .colType, [.colType, .any, .behavior]),
   (138, .colType, [.colType, .any, .any, .integral, .any, .integral]),
   (139, .colType, [.colType, .any, .any, .replication]),
   (151, .behavior, [.word]),
   (152, .behavior, []),
   (180, .plainType, [.plainType, .length]),
   (181, .plainType, [.plainType]),
   (182, .plainType, []),
   (183, .plainType, []),
   (184, .plainType, []),
   (185, .plainType, []),
   (186, .plainType, [])]

/-- Part of `wholeTable`. -/
def wholeTable2 : List (Nat × Class × List Class) :=
  [(187, .plainType, []),
   (188, .plainType, []),
   (189, .plainType, []),
   (190, .plainType, []),
   (191, .plainType, []),
   (192, .plainType, []),
   (193, .plainType, []),
   (194, .plainType, []),
   (195, .plainType, []),
   (196, .plainType, [.any, .lengths]),
   (197, .plainType, [.any, .lengths]),
   (198, .plainType, []),
   (199, .plainType, []),
   (200, .plainType, []),
   (201, .plainType, [.any, .length]),
   (202, .plainType, [.any, .length]),
   (203, .plainType, [.any, .length]),
   (204, .plainType, []),
   (205, .plainType, [.any, .length]),
   (206, .plainType, []),
   (207, .plainType, []),
   (208, .plainType, []),
   (209, .plainType, []),
   (210, .plainType, [.any, .length]),
   (211, .plainType, [.any, .length]),
   (212, .plainType, [.any, .length]),
   (213, .plainType, [.any, .length]),
   (214, .plainType, [.any, .length]),
   (215, .plainType, []),
   (216, .plainType, [.any, .any, .length]),
   (217, .plainType, [.any, .length]),
   (218, .plainType, [.any, .length]),
   (219, .plainType, []),
   (220, .plainType, []),
   (221, .plainType, []),
   (222, .plainType, []),
   (223, .plainType, []),
   (224, .plainType, []),
   (225, .plainType, []),
   (226, .plainType, []),
   (227, .plainType, []),
   (228, .plainType, []),
   (229, .plainType, []),
   (230, .plainType, []),
   (231, .plainType, []),
   (232, .plainType, []),
   (233, .plainType, []),
   (234, .plainType, []),
   (235, .plainType, []),
   (236, .plainType, [])]

/-- Part of `wholeTable`. -/
def wholeTable3 : List (Nat × Class × List Class) :=
  [(237, .plainType, []),
   (238, .plainType, []),
   (239, .plainType, []),
   (240, .plainType, []),
   (243, .length, []),
   (244, .length, [.any, .integral]),
   (247, .lengths, []),
   (248, .lengths, [.any, .integral]),
   (249, .lengths, [.any, .integral, .any, .integral]),
   (266, .indexDef, [.any, .any, .indexCols, .any, .options]),
   (267, .options, []),
   (268, .options, [.options]),
   (269, .options, [.any, .any, .options]),
   (270, .options, [.option]),
   (271, .options, [.options, .option]),
   (272, .options, [.option]),
   (273, .options, [.options, .any, .option]),
   (274, .option, [.using]),
   (275, .option, [.any, .any, .integral]),
   (276, .option, []),
   (277, .option, []),
   (278, .option, [.any, .any, .onOff]),
   (279, .option, [.any, .any, .integral]),
   (280, .option, [.any, .any, .onOff]),
   (281, .option, [.any, .any, .onOff]),
   (282, .option, [.any, .any, .onOff]),
   (283, .option, [.any, .any, .onOff]),
   (284, .option, [.any, .any, .onOff]),
   (287, .onOff, []),
   (288, .onOff, []),
   (302, .indexCols, []),
   (303, .indexCols, [.indexCols]),
   (316, .indexDef, [.any, .any, .any, .any, .any, .any, .indexCols, .any, .options]),
   (335, .stmt, []),
   (336, .stmt, [.any, .any, .any, .any, .any, .any, .any, .any, .any, .indexCols]),
   (337, .stmt, [.any, .any, .any, .any, .any, .any, .any, .any, .any, .any, .any, .indexCols]),
   (338, .stmt, []),
   (339, .stmt, []),
   (340, .stmt, []),
   (341, .stmt, []),
   (342, .stmt, []),
   (343, .stmt, []),
   (344, .stmt, []),
   (345, .stmt, [.any, .rendered]),
   (346, .stmt, []),
   (372, .stmt, []),
   (373, .stmt, []),
   (374, .stmt, []),
   (375, .stmt, [.any, .rendered]),
   (376, .stmt, [])]

/-- Part of `wholeTable`. -/
def wholeTable4 : List (Nat × Class × List Class) :=
  [(377, .stmt, []),
   (378, .stmt, []),
   (379, .stmt, []),
   (380, .stmt, []),
   (381, .stmt, []),
   (382, .stmt, []),
   (383, .stmt, []),
   (384, .stmt, []),
   (385, .stmt, []),
   (386, .stmt, []),
   (387, .stmt, [.any, .any, .rendered]),
   (388, .stmt, [.any, .any, .rendered]),
   (389, .stmt, []),
   (390, .stmt, []),
   (391, .stmt, []),
   (392, .stmt, []),
   (393, .stmt, []),
   (394, .stmt, []),
   (395, .stmt, []),
   (396, .stmt, []),
   (397, .stmt, []),
   (398, .stmt, []),
   (399, .stmt, []),
   (400, .stmt, []),
   (401, .stmt, []),
   (402, .stmt, []),
   (403, .stmt, []),
   (419, .stmt, []),
   (420, .stmt, []),
   (421, .stmt, []),
   (422, .stmt, []),
   (423, .stmt, []),
   (424, .stmt, []),
   (425, .stmt, []),
   (426, .stmt, []),
   (427, .stmt, []),
   (428, .stmt, []),
   (429, .stmt, []),
   (444, .selExprs, []),
   (445, .selExprs, [.selExprs]),
   (446, .selExprs, [.selExpr]),
   (447, .selExprs, [.selExprs, .any, .selExpr]),
   (448, .selExpr, []),
   (449, .selExpr, [.expr]),
   (450, .selExpr, []),
   (451, .selExpr, []),
   (457, .tabExprs, []),
   (458, .tabExprs, [.any, .tabExprs]),
   (459, .tabExprs, [.tabExpr]),
   (460, .tabExprs, [.tabExprs, .any, .tabExpr])]

/-- Part of `wholeTable`. -/
def wholeTable5 : List (Nat × Class × List Class) :=
  [(461, .tabExpr, [.tabExpr]),
   (462, .tabExpr, [.tabExpr]),
   (463, .tabExpr, [.aliased]),
   (464, .tabExpr, [.subquery]),
   (465, .tabExpr, [.any, .tabExprs]),
   (466, .aliased, []),
   (467, .aliased, []),
   (473, .tabExpr, [.tabExpr, .any, .tabExpr, .join]),
   (474, .tabExpr, [.tabExpr, .any, .tabExpr, .join]),
   (475, .tabExpr, [.tabExpr, .any, .tabExpr, .join]),
   (476, .tabExpr, [.tabExpr, .any, .tabExpr]),
   (477, .join, [.any, .expr]),
   (478, .join, [.using]),
   (479, .join, []),
   (480, .join, [.join]),
   (481, .join, []),
   (482, .join, [.any, .expr]),
   (508, .clause, []),
   (509, .clause, [.rendered, .expr]),
   (512, .expr, [.expr]),
   (513, .expr, [.expr, .any, .expr]),
   (514, .expr, [.expr, .any, .expr]),
   (515, .expr, [.any, .expr]),
   (516, .expr, [.expr]),
   (517, .expr, [.expr]),
   (518, .expr, []),
   (523, .expr, [.expr, .any, .expr]),
   (524, .expr, [.expr, .any, .colTuple]),
   (525, .expr, [.expr, .any, .any, .colTuple]),
   (526, .expr, [.expr, .any, .expr, .optExpr]),
   (527, .expr, [.expr, .any, .any, .expr, .optExpr]),
   (528, .expr, [.expr, .any, .expr]),
   (529, .expr, [.expr, .any, .any, .expr]),
   (530, .expr, [.expr, .any, .expr, .any, .expr]),
   (531, .expr, [.expr, .any, .any, .expr, .any, .expr]),
   (532, .expr, [.any, .subquery]),
   (546, .optExpr, []),
   (547, .optExpr, [.any, .expr]),
   (548, .colTuple, [.tuple]),
   (549, .colTuple, [.subquery]),
   (550, .colTuple, []),
   (551, .subquery, [.any, .sel]),
   (552, .exprs, [.expr]),
   (553, .exprs, [.exprs, .any, .expr]),
   (554, .expr, [.expr]),
   (555, .expr, []),
   (556, .expr, []),
   (557, .expr, [.expr]),
   (558, .expr, [.subquery]),
   (559, .expr, [.expr, .any, .expr])]

/-- Part of `wholeTable`. -/
def wholeTable6 : List (Nat × Class × List Class) :=
  [(560, .expr, [.expr, .any, .expr]),
   (561, .expr, [.expr, .any, .expr]),
   (562, .expr, [.expr, .any, .expr]),
   (563, .expr, [.expr, .any, .expr]),
   (564, .expr, [.expr, .any, .expr]),
   (565, .expr, [.expr, .any, .expr]),
   (566, .expr, [.expr, .any, .expr]),
   (567, .expr, [.expr, .any, .expr]),
   (568, .expr, [.expr, .any, .expr]),
   (569, .expr, [.expr, .any, .expr]),
   (570, .expr, [.expr, .any, .expr]),
   (571, .expr, [.any, .any, .expr]),
   (572, .expr, [.any, .any, .expr]),
   (573, .expr, [.expr]),
   (574, .expr, [.any, .expr]),
   (575, .expr, [.any, .expr]),
   (576, .expr, [.any, .expr]),
   (577, .expr, [.any, .expr]),
   (578, .expr, [.any, .expr]),
   (579, .expr, [.any, .expr]),
   (580, .expr, [.any, .expr]),
   (581, .expr, [.expr, .any, .convert]),
   (582, .expr, [.expr]),
   (583, .expr, [.expr]),
   (584, .expr, [.expr]),
   (585, .expr, [.expr]),
   (586, .expr, [.any, .any, .selExprs]),
   (587, .expr, [.any, .any, .any, .selExprs]),
   (588, .expr, [.any, .any, .any, .any, .selExprs]),
   (589, .expr, [.any, .any, .selExprs]),
   (590, .expr, [.any, .any, .selExprs]),
   (591, .expr, [.any, .any, .expr, .any, .convert]),
   (592, .expr, [.any, .any, .expr, .any, .convert]),
   (593, .expr, [.any, .any, .expr, .using]),
   (594, .expr, [.any, .any, .any, .any, .expr]),
   (595, .expr, [.any, .any, .any, .any, .expr, .any, .expr]),
   (596, .expr, [.any, .any, .any, .any, .expr, .any, .expr]),
   (597, .expr, [.any, .any, .any, .any, .expr]),
   (598, .expr, [.any, .any, .any, .any, .expr, .any, .expr]),
   (599, .expr, [.any, .any, .any, .any, .expr, .any, .expr]),
   (600, .expr, [.any, .any, .selExprs, .any, .any, .any, .expr]),
   (601, .expr, [.any, .any, .any, .selExprs, .orders]),
   (602, .expr, [.any, .optExpr, .whens, .optExpr]),
   (603, .expr, []),
   (604, .expr, []),
   (605, .expr, []),
   (606, .expr, []),
   (607, .expr, []),
   (608, .expr, []),
   (609, .expr, [])]

/-- Part of `wholeTable`. -/
def wholeTable7 : List (Nat × Class × List Class) :=
  [(610, .expr, []),
   (611, .expr, []),
   (615, .expr, [.any, .any, .selExprs]),
   (616, .expr, [.any, .any, .selExprs]),
   (617, .expr, [.any, .any, .selExprs]),
   (618, .expr, [.any, .any, .selExprs]),
   (626, .convert, [.any, .length]),
   (627, .convert, [.any, .length]),
   (628, .convert, [.any, .length]),
   (629, .convert, []),
   (630, .convert, [.any, .length]),
   (631, .convert, [.any, .lengths]),
   (632, .convert, []),
   (633, .convert, []),
   (634, .convert, [.any, .length]),
   (635, .convert, []),
   (636, .convert, []),
   (637, .convert, [.any, .length]),
   (638, .convert, []),
   (639, .convert, []),
   (640, .convert, []),
   (641, .convert, []),
   (642, .convert, []),
   (643, .convert, []),
   (644, .convert, [.plainType]),
   (645, .convert, [.plainType]),
   (646, .convert, []),
   (647, .optExpr, []),
   (648, .optExpr, [.expr]),
   (651, .whens, [.when_]),
   (652, .whens, [.whens, .when_]),
   (653, .when_, [.any, .expr, .any, .expr]),
   (654, .optExpr, []),
   (655, .optExpr, [.any, .expr]),
   (659, .expr, []),
   (660, .expr, []),
   (661, .expr, []),
   (662, .expr, [.integral]),
   (663, .expr, []),
   (664, .expr, []),
   (665, .expr, []),
   (666, .expr, []),
   (667, .expr, []),
   (668, .expr, [.integral]),
   (669, .expr, []),
   (670, .exprs, []),
   (671, .exprs, [.any, .any, .exprs]),
   (672, .optExpr, []),
   (673, .optExpr, [.any, .expr]),
   (674, .orders, [])]

/-- Part of `wholeTable`. -/
def wholeTable8 : List (Nat × Class × List Class) :=
  [(675, .orders, [.any, .any, .orders]),
   (676, .orders, [.order]),
   (677, .orders, [.orders, .any, .order]),
   (678, .order, [.expr]),
   (682, .limit, []),
   (683, .limit, [.any, .expr]),
   (684, .limit, [.any, .expr, .any, .expr]),
   (685, .limit, [.any, .expr, .any, .expr]),
   (689, .ins, [.any, .rows]),
   (690, .ins, [.sel]),
   (691, .ins, [.any, .sel]),
   (692, .ins, [.any, .any, .any, .any, .rows]),
   (693, .ins, [.any, .any, .any, .sel]),
   (694, .ins, [.any, .any, .any, .any, .sel]),
   (699, .updates, []),
   (700, .updates, [.any, .any, .any, .any, .updates]),
   (701, .rows, [.tuple]),
   (702, .rows, [.rows, .any, .tuple]),
   (703, .tuple, [.tuple]),
   (704, .tuple, []),
   (705, .tuple, [.any, .exprs]),
   (706, .expr, [.tuple]),
   (707, .updates, [.update]),
   (708, .updates, [.updates, .any, .update]),
   (709, .update, [.any, .any, .expr])]

/-- The rules that have something to keep (but 612, a cast of nothing): the classes of the left-hand side and of
the right-hand side (without what nothing is known of at its end). -/
def wholeTable : List (Nat × Class × List Class) :=
  wholeTable0 ++ wholeTable1 ++ wholeTable2 ++ wholeTable3 ++ wholeTable4 ++ wholeTable5 ++ wholeTable6 ++ wholeTable7 ++ wholeTable8

/-- A list of classes without the end of which nothing is known. -/
def cutAny : List Class → List Class
  | [] => []
  | c :: l =>
    match cutAny l with
    | [] => match c with
      | .any => []
      | c => [c]
    | l => c :: l

/-- The entry of a rule. -/
def ruleEntry (r : Nat) : Nat × Class × List Class :=
  (r, classOf (lhsCode r), cutAny ((rhsCodes r).map classOf))

theorem wholeTable_eq :
    ((List.range 999).map ruleEntry).filter (fun e => decide (e.2.1 ≠ .any ∧ e.1 ≠ 612)) = wholeTable := by decide +kernel

end Sqldef.Sql
