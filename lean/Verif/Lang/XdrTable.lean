/-
LALR(1) tables for the grammar of xdr.y.

Generated by tools/mklalr.py; `Verif.Lang.XdrLr` checks them.  The tables that goyacc generates are not in the repository.
-/
import Verif.Lang.Lr

namespace Verif.Lang

/-- The symbols and their numbers. -/
def xdrSyms : List (String × Nat) :=
  [("spec", 1000),
   ("defn", 1001),
   ("decl", 1002),
   ("varlen", 1003),
   ("val", 1004),
   ("typespec", 1005),
   ("maybeunsig", 1006),
   ("enumtypespec", 1007),
   ("enumbody", 1008),
   ("enumitems", 1009),
   ("enumitem", 1010),
   ("structtypespec", 1011),
   ("structbody", 1012),
   ("structdecls", 1013),
   ("uniontypespec", 1014),
   ("unionbody", 1015),
   ("unioncasesdef", 1016),
   ("unioncases", 1017),
   ("unioncase", 1018),
   ("caselist", 1019),
   ("constdef", 1020),
   ("typedef", 1021),
   ("progdef", 1022),
   ("progvers", 1023),
   ("progver", 1024),
   ("progcalls", 1025),
   ("progcall", 1026),
   ("typespecopt", 1027),
   ("'('", 40),
   ("')'", 41),
   ("'*'", 42),
   ("','", 44),
   ("':'", 58),
   ("';'", 59),
   ("'<'", 60),
   ("'='", 61),
   ("'>'", 62),
   ("'['", 91),
   ("']'", 93),
   ("'{'", 123),
   ("'}'", 125),
   ("KWCONST", 57346),
   ("KWTYPEDEF", 57347),
   ("KWENUM", 57348),
   ("KWSTRUCT", 57349),
   ("KWUNION", 57350),
   ("KWSWITCH", 57351),
   ("KWCASE", 57352),
   ("KWDEFAULT", 57353),
   ("KWVOID", 57354),
   ("KWOPAQUE", 57355),
   ("KWSTRING", 57356),
   ("KWUNSIGNED", 57357),
   ("KWINT", 57358),
   ("KWHYPER", 57359),
   ("KWFLOAT", 57360),
   ("KWDOUBLE", 57361),
   ("KWQUADRUPLE", 57362),
   ("KWBOOL", 57363),
   ("KWPROGRAM", 57364),
   ("KWVERSION", 57365),
   ("CONST", 57366),
   ("IDENT", 57367)]

/-- The rules; rule 0 is goyacc's `$accept: spec $end`. -/
def xdrRules : List (Nat × List Nat) :=
  [(999, [1000]),
   (1000, []),
   (1000, [1000, 1001]),
   (1001, [1021]),
   (1001, [1020]),
   (1001, [1022]),
   (1002, [1005, 57367]),
   (1002, [1005, 57367, 91, 1004, 93]),
   (1002, [1005, 57367, 1003]),
   (1002, [57355, 57367, 91, 1004, 93]),
   (1002, [57355, 57367, 1003]),
   (1002, [57356, 57367, 1003]),
   (1002, [1005, 42, 57367]),
   (1002, [57354]),
   (1003, [60, 62]),
   (1003, [60, 1004, 62]),
   (1004, [57366]),
   (1004, [57367]),
   (1005, [1006, 57358]),
   (1005, [1006, 57359]),
   (1005, [57360]),
   (1005, [57361]),
   (1005, [57362]),
   (1005, [57363]),
   (1005, [1007]),
   (1005, [1011]),
   (1005, [1014]),
   (1005, [57367]),
   (1006, []),
   (1006, [57357]),
   (1007, [57348, 1008]),
   (1008, [123, 1009, 125]),
   (1009, [1010]),
   (1009, [1009, 44, 1010]),
   (1010, [57367, 61, 1004]),
   (1011, [57349, 1012]),
   (1012, [123, 1013, 125]),
   (1013, []),
   (1013, [1013, 1002, 59]),
   (1014, [57350, 1015]),
   (1015, [57351, 40, 1002, 41, 123, 1016, 125]),
   (1016, [1017]),
   (1016, [1017, 57353, 58, 1002, 59]),
   (1017, []),
   (1017, [1017, 1018]),
   (1018, [1019, 1002, 59]),
   (1019, [57352, 1004, 58]),
   (1019, [1019, 57352, 1004, 58]),
   (1020, [57346, 57367, 61, 57366, 59]),
   (1021, [57347, 1002, 59]),
   (1021, [57348, 57367, 1008, 59]),
   (1021, [57349, 57367, 1012, 59]),
   (1021, [57350, 57367, 1015, 59]),
   (1022, [57364, 57367, 123, 1023, 125, 61, 57366, 59]),
   (1023, []),
   (1023, [1023, 1024]),
   (1024, [57365, 57367, 123, 1025, 125, 61, 57366, 59]),
   (1025, []),
   (1025, [1025, 1026]),
   (1026, [1027, 57367, 40, 1027, 41, 61, 57366, 59]),
   (1027, [57354]),
   (1027, [1005])]

/-- The states. -/
def xdrStates : List LrState :=
  [⟨[], [(1000, 1)], [], 1, false⟩,
   ⟨[(57346, 7), (57347, 8), (57348, 9), (57349, 10), (57350, 11), (57364, 12)], [(1001, 3), (1020, 5), (1021, 4), (1022, 6)], [], 0, true⟩,
   ⟨[], [], [], 0, false⟩,
   ⟨[], [], [], 2, false⟩,
   ⟨[], [], [], 3, false⟩,
   ⟨[], [], [], 4, false⟩,
   ⟨[], [], [], 5, false⟩,
   ⟨[(57367, 13)], [], [], 0, false⟩,
   ⟨[(57348, 28), (57349, 29), (57350, 30), (57354, 17), (57355, 15), (57356, 16), (57357, 27), (57360, 19), (57361, 20), (57362, 21), (57363, 22), (57367, 26)], [(1002, 31), (1005, 14), (1006, 18), (1007, 23), (1011, 24), (1014, 25)], [], 28, false⟩,
   ⟨[(57367, 32)], [], [], 0, false⟩,
   ⟨[(57367, 33)], [], [], 0, false⟩,
   ⟨[(57367, 34)], [], [], 0, false⟩,
   ⟨[(57367, 35)], [], [], 0, false⟩,
   ⟨[(61, 36)], [], [], 0, false⟩,
   ⟨[(42, 38), (57367, 37)], [], [], 0, false⟩,
   ⟨[(57367, 39)], [], [], 0, false⟩,
   ⟨[(57367, 40)], [], [], 0, false⟩,
   ⟨[], [], [], 13, false⟩,
   ⟨[(57358, 41), (57359, 42)], [], [], 0, false⟩,
   ⟨[], [], [], 20, false⟩,
   ⟨[], [], [], 21, false⟩,
   ⟨[], [], [], 22, false⟩,
   ⟨[], [], [], 23, false⟩,
   ⟨[], [], [], 24, false⟩,
   ⟨[], [], [], 25, false⟩,
   ⟨[], [], [], 26, false⟩,
   ⟨[], [], [], 27, false⟩,
   ⟨[], [], [], 29, false⟩,
   ⟨[(123, 44)], [(1008, 43)], [], 0, false⟩,
   ⟨[(123, 46)], [(1012, 45)], [], 0, false⟩,
   ⟨[(57351, 48)], [(1015, 47)], [], 0, false⟩,
   ⟨[(59, 49)], [], [], 0, false⟩,
   ⟨[(123, 44)], [(1008, 50)], [], 0, false⟩,
   ⟨[(123, 46)], [(1012, 51)], [], 0, false⟩,
   ⟨[(57351, 48)], [(1015, 52)], [], 0, false⟩,
   ⟨[(123, 53)], [], [], 0, false⟩,
   ⟨[(57366, 54)], [], [], 0, false⟩,
   ⟨[(60, 57), (91, 55)], [(1003, 56)], [], 6, false⟩,
   ⟨[(57367, 58)], [], [], 0, false⟩,
   ⟨[(60, 57), (91, 59)], [(1003, 60)], [], 0, false⟩,
   ⟨[(60, 57)], [(1003, 61)], [], 0, false⟩,
   ⟨[], [], [], 18, false⟩,
   ⟨[], [], [], 19, false⟩,
   ⟨[], [], [], 30, false⟩,
   ⟨[(57367, 64)], [(1009, 62), (1010, 63)], [], 0, false⟩,
   ⟨[], [], [], 35, false⟩,
   ⟨[], [(1013, 65)], [], 37, false⟩,
   ⟨[], [], [], 39, false⟩,
   ⟨[(40, 66)], [], [], 0, false⟩,
   ⟨[], [], [], 49, false⟩,
   ⟨[(59, 67)], [], [], 0, false⟩,
   ⟨[(59, 68)], [], [], 0, false⟩,
   ⟨[(59, 69)], [], [], 0, false⟩,
   ⟨[], [(1023, 70)], [], 54, false⟩,
   ⟨[(59, 71)], [], [], 0, false⟩,
   ⟨[(57366, 73), (57367, 74)], [(1004, 72)], [], 0, false⟩,
   ⟨[], [], [], 8, false⟩,
   ⟨[(62, 75), (57366, 73), (57367, 74)], [(1004, 76)], [], 0, false⟩,
   ⟨[], [], [], 12, false⟩,
   ⟨[(57366, 73), (57367, 74)], [(1004, 77)], [], 0, false⟩,
   ⟨[], [], [], 10, false⟩,
   ⟨[], [], [], 11, false⟩,
   ⟨[(44, 79), (125, 78)], [], [], 0, false⟩,
   ⟨[], [], [], 32, false⟩,
   ⟨[(61, 80)], [], [], 0, false⟩,
   ⟨[(125, 81), (57348, 28), (57349, 29), (57350, 30), (57354, 17), (57355, 15), (57356, 16), (57357, 27), (57360, 19), (57361, 20), (57362, 21), (57363, 22), (57367, 26)], [(1002, 82), (1005, 14), (1006, 18), (1007, 23), (1011, 24), (1014, 25)], [], 28, false⟩,
   ⟨[(57348, 28), (57349, 29), (57350, 30), (57354, 17), (57355, 15), (57356, 16), (57357, 27), (57360, 19), (57361, 20), (57362, 21), (57363, 22), (57367, 26)], [(1002, 83), (1005, 14), (1006, 18), (1007, 23), (1011, 24), (1014, 25)], [], 28, false⟩,
   ⟨[], [], [], 50, false⟩,
   ⟨[], [], [], 51, false⟩,
   ⟨[], [], [], 52, false⟩,
   ⟨[(125, 84), (57365, 86)], [(1024, 85)], [], 0, false⟩,
   ⟨[], [], [], 48, false⟩,
   ⟨[(93, 87)], [], [], 0, false⟩,
   ⟨[], [], [], 16, false⟩,
   ⟨[], [], [], 17, false⟩,
   ⟨[], [], [], 14, false⟩,
   ⟨[(62, 88)], [], [], 0, false⟩,
   ⟨[(93, 89)], [], [], 0, false⟩,
   ⟨[], [], [], 31, false⟩,
   ⟨[(57367, 64)], [(1010, 90)], [], 0, false⟩,
   ⟨[(57366, 73), (57367, 74)], [(1004, 91)], [], 0, false⟩,
   ⟨[], [], [], 36, false⟩,
   ⟨[(59, 92)], [], [], 0, false⟩,
   ⟨[(41, 93)], [], [], 0, false⟩,
   ⟨[(61, 94)], [], [], 0, false⟩,
   ⟨[], [], [], 55, false⟩,
   ⟨[(57367, 95)], [], [], 0, false⟩,
   ⟨[], [], [], 7, false⟩,
   ⟨[], [], [], 15, false⟩,
   ⟨[], [], [], 9, false⟩,
   ⟨[], [], [], 33, false⟩,
   ⟨[], [], [], 34, false⟩,
   ⟨[], [], [], 38, false⟩,
   ⟨[(123, 96)], [], [], 0, false⟩,
   ⟨[(57366, 97)], [], [], 0, false⟩,
   ⟨[(123, 98)], [], [], 0, false⟩,
   ⟨[], [(1016, 99), (1017, 100)], [], 43, false⟩,
   ⟨[(59, 101)], [], [], 0, false⟩,
   ⟨[], [(1025, 102)], [], 57, false⟩,
   ⟨[(125, 103)], [], [], 0, false⟩,
   ⟨[(57352, 107), (57353, 104)], [(1018, 105), (1019, 106)], [], 41, false⟩,
   ⟨[], [], [], 53, false⟩,
   ⟨[(125, 108), (57348, 28), (57349, 29), (57350, 30), (57354, 111), (57357, 27), (57360, 19), (57361, 20), (57362, 21), (57363, 22), (57367, 26)], [(1005, 112), (1006, 18), (1007, 23), (1011, 24), (1014, 25), (1026, 109), (1027, 110)], [], 28, false⟩,
   ⟨[], [], [], 40, false⟩,
   ⟨[(58, 113)], [], [], 0, false⟩,
   ⟨[], [], [], 44, false⟩,
   ⟨[(57348, 28), (57349, 29), (57350, 30), (57352, 115), (57354, 17), (57355, 15), (57356, 16), (57357, 27), (57360, 19), (57361, 20), (57362, 21), (57363, 22), (57367, 26)], [(1002, 114), (1005, 14), (1006, 18), (1007, 23), (1011, 24), (1014, 25)], [], 28, false⟩,
   ⟨[(57366, 73), (57367, 74)], [(1004, 116)], [], 0, false⟩,
   ⟨[(61, 117)], [], [], 0, false⟩,
   ⟨[], [], [], 58, false⟩,
   ⟨[(57367, 118)], [], [], 0, false⟩,
   ⟨[], [], [], 60, false⟩,
   ⟨[], [], [], 61, false⟩,
   ⟨[(57348, 28), (57349, 29), (57350, 30), (57354, 17), (57355, 15), (57356, 16), (57357, 27), (57360, 19), (57361, 20), (57362, 21), (57363, 22), (57367, 26)], [(1002, 119), (1005, 14), (1006, 18), (1007, 23), (1011, 24), (1014, 25)], [], 28, false⟩,
   ⟨[(59, 120)], [], [], 0, false⟩,
   ⟨[(57366, 73), (57367, 74)], [(1004, 121)], [], 0, false⟩,
   ⟨[(58, 122)], [], [], 0, false⟩,
   ⟨[(57366, 123)], [], [], 0, false⟩,
   ⟨[(40, 124)], [], [], 0, false⟩,
   ⟨[(59, 125)], [], [], 0, false⟩,
   ⟨[], [], [], 45, false⟩,
   ⟨[(58, 126)], [], [], 0, false⟩,
   ⟨[], [], [], 46, false⟩,
   ⟨[(59, 127)], [], [], 0, false⟩,
   ⟨[(57348, 28), (57349, 29), (57350, 30), (57354, 111), (57357, 27), (57360, 19), (57361, 20), (57362, 21), (57363, 22), (57367, 26)], [(1005, 112), (1006, 18), (1007, 23), (1011, 24), (1014, 25), (1027, 128)], [], 28, false⟩,
   ⟨[], [], [], 42, false⟩,
   ⟨[], [], [], 47, false⟩,
   ⟨[], [], [], 56, false⟩,
   ⟨[(41, 129)], [], [], 0, false⟩,
   ⟨[(61, 130)], [], [], 0, false⟩,
   ⟨[(57366, 131)], [], [], 0, false⟩,
   ⟨[(59, 132)], [], [], 0, false⟩,
   ⟨[], [], [], 59, false⟩]

/-- Their items. -/
def xdrItems : List (List LrItem) :=
  [[⟨0, 0, [0]⟩, ⟨1, 0, [0, 57346, 57347, 57348, 57349, 57350, 57364]⟩, ⟨2, 0, [0, 57346, 57347, 57348, 57349, 57350, 57364]⟩],
   [⟨0, 1, [0]⟩, ⟨2, 1, [0, 57346, 57347, 57348, 57349, 57350, 57364]⟩, ⟨3, 0, [0, 57346, 57347, 57348, 57349, 57350, 57364]⟩, ⟨4, 0, [0, 57346, 57347, 57348, 57349, 57350, 57364]⟩, ⟨5, 0, [0, 57346, 57347, 57348, 57349, 57350, 57364]⟩, ⟨48, 0, [0, 57346, 57347, 57348, 57349, 57350, 57364]⟩, ⟨49, 0, [0, 57346, 57347, 57348, 57349, 57350, 57364]⟩, ⟨50, 0, [0, 57346, 57347, 57348, 57349, 57350, 57364]⟩, ⟨51, 0, [0, 57346, 57347, 57348, 57349, 57350, 57364]⟩, ⟨52, 0, [0, 57346, 57347, 57348, 57349, 57350, 57364]⟩, ⟨53, 0, [0, 57346, 57347, 57348, 57349, 57350, 57364]⟩],
   [],
   [⟨2, 2, [0, 57346, 57347, 57348, 57349, 57350, 57364]⟩],
   [⟨3, 1, [0, 57346, 57347, 57348, 57349, 57350, 57364]⟩],
   [⟨4, 1, [0, 57346, 57347, 57348, 57349, 57350, 57364]⟩],
   [⟨5, 1, [0, 57346, 57347, 57348, 57349, 57350, 57364]⟩],
   [⟨48, 1, [0, 57346, 57347, 57348, 57349, 57350, 57364]⟩],
   [⟨6, 0, [59]⟩, ⟨7, 0, [59]⟩, ⟨8, 0, [59]⟩, ⟨9, 0, [59]⟩, ⟨10, 0, [59]⟩, ⟨11, 0, [59]⟩, ⟨12, 0, [59]⟩, ⟨13, 0, [59]⟩, ⟨18, 0, [42, 57367]⟩, ⟨19, 0, [42, 57367]⟩, ⟨20, 0, [42, 57367]⟩, ⟨21, 0, [42, 57367]⟩, ⟨22, 0, [42, 57367]⟩, ⟨23, 0, [42, 57367]⟩, ⟨24, 0, [42, 57367]⟩, ⟨25, 0, [42, 57367]⟩, ⟨26, 0, [42, 57367]⟩, ⟨27, 0, [42, 57367]⟩, ⟨28, 0, [57358, 57359]⟩, ⟨29, 0, [57358, 57359]⟩, ⟨30, 0, [42, 57367]⟩, ⟨35, 0, [42, 57367]⟩, ⟨39, 0, [42, 57367]⟩, ⟨49, 1, [0, 57346, 57347, 57348, 57349, 57350, 57364]⟩],
   [⟨50, 1, [0, 57346, 57347, 57348, 57349, 57350, 57364]⟩],
   [⟨51, 1, [0, 57346, 57347, 57348, 57349, 57350, 57364]⟩],
   [⟨52, 1, [0, 57346, 57347, 57348, 57349, 57350, 57364]⟩],
   [⟨53, 1, [0, 57346, 57347, 57348, 57349, 57350, 57364]⟩],
   [⟨48, 2, [0, 57346, 57347, 57348, 57349, 57350, 57364]⟩],
   [⟨6, 1, [41, 59]⟩, ⟨7, 1, [41, 59]⟩, ⟨8, 1, [41, 59]⟩, ⟨12, 1, [41, 59]⟩],
   [⟨9, 1, [41, 59]⟩, ⟨10, 1, [41, 59]⟩],
   [⟨11, 1, [41, 59]⟩],
   [⟨13, 1, [41, 59]⟩],
   [⟨18, 1, [41, 42, 57367]⟩, ⟨19, 1, [41, 42, 57367]⟩],
   [⟨20, 1, [41, 42, 57367]⟩],
   [⟨21, 1, [41, 42, 57367]⟩],
   [⟨22, 1, [41, 42, 57367]⟩],
   [⟨23, 1, [41, 42, 57367]⟩],
   [⟨24, 1, [41, 42, 57367]⟩],
   [⟨25, 1, [41, 42, 57367]⟩],
   [⟨26, 1, [41, 42, 57367]⟩],
   [⟨27, 1, [41, 42, 57367]⟩],
   [⟨29, 1, [57358, 57359]⟩],
   [⟨30, 1, [41, 42, 57367]⟩, ⟨31, 0, [41, 42, 57367]⟩],
   [⟨35, 1, [41, 42, 57367]⟩, ⟨36, 0, [41, 42, 57367]⟩],
   [⟨39, 1, [41, 42, 57367]⟩, ⟨40, 0, [41, 42, 57367]⟩],
   [⟨49, 2, [0, 57346, 57347, 57348, 57349, 57350, 57364]⟩],
   [⟨31, 0, [59]⟩, ⟨50, 2, [0, 57346, 57347, 57348, 57349, 57350, 57364]⟩],
   [⟨36, 0, [59]⟩, ⟨51, 2, [0, 57346, 57347, 57348, 57349, 57350, 57364]⟩],
   [⟨40, 0, [59]⟩, ⟨52, 2, [0, 57346, 57347, 57348, 57349, 57350, 57364]⟩],
   [⟨53, 2, [0, 57346, 57347, 57348, 57349, 57350, 57364]⟩],
   [⟨48, 3, [0, 57346, 57347, 57348, 57349, 57350, 57364]⟩],
   [⟨6, 2, [41, 59]⟩, ⟨7, 2, [41, 59]⟩, ⟨8, 2, [41, 59]⟩, ⟨14, 0, [41, 59]⟩, ⟨15, 0, [41, 59]⟩],
   [⟨12, 2, [41, 59]⟩],
   [⟨9, 2, [41, 59]⟩, ⟨10, 2, [41, 59]⟩, ⟨14, 0, [41, 59]⟩, ⟨15, 0, [41, 59]⟩],
   [⟨11, 2, [41, 59]⟩, ⟨14, 0, [41, 59]⟩, ⟨15, 0, [41, 59]⟩],
   [⟨18, 2, [41, 42, 57367]⟩],
   [⟨19, 2, [41, 42, 57367]⟩],
   [⟨30, 2, [41, 42, 57367]⟩],
   [⟨31, 1, [41, 42, 59, 57367]⟩, ⟨32, 0, [44, 125]⟩, ⟨33, 0, [44, 125]⟩, ⟨34, 0, [44, 125]⟩],
   [⟨35, 2, [41, 42, 57367]⟩],
   [⟨36, 1, [41, 42, 59, 57367]⟩, ⟨37, 0, [125, 57348, 57349, 57350, 57354, 57355, 57356, 57357, 57358, 57359, 57360, 57361, 57362, 57363, 57367]⟩, ⟨38, 0, [125, 57348, 57349, 57350, 57354, 57355, 57356, 57357, 57358, 57359, 57360, 57361, 57362, 57363, 57367]⟩],
   [⟨39, 2, [41, 42, 57367]⟩],
   [⟨40, 1, [41, 42, 59, 57367]⟩],
   [⟨49, 3, [0, 57346, 57347, 57348, 57349, 57350, 57364]⟩],
   [⟨50, 3, [0, 57346, 57347, 57348, 57349, 57350, 57364]⟩],
   [⟨51, 3, [0, 57346, 57347, 57348, 57349, 57350, 57364]⟩],
   [⟨52, 3, [0, 57346, 57347, 57348, 57349, 57350, 57364]⟩],
   [⟨53, 3, [0, 57346, 57347, 57348, 57349, 57350, 57364]⟩, ⟨54, 0, [125, 57365]⟩, ⟨55, 0, [125, 57365]⟩],
   [⟨48, 4, [0, 57346, 57347, 57348, 57349, 57350, 57364]⟩],
   [⟨7, 3, [41, 59]⟩, ⟨16, 0, [93]⟩, ⟨17, 0, [93]⟩],
   [⟨8, 3, [41, 59]⟩],
   [⟨14, 1, [41, 59]⟩, ⟨15, 1, [41, 59]⟩, ⟨16, 0, [62]⟩, ⟨17, 0, [62]⟩],
   [⟨12, 3, [41, 59]⟩],
   [⟨9, 3, [41, 59]⟩, ⟨16, 0, [93]⟩, ⟨17, 0, [93]⟩],
   [⟨10, 3, [41, 59]⟩],
   [⟨11, 3, [41, 59]⟩],
   [⟨31, 2, [41, 42, 59, 57367]⟩, ⟨33, 1, [44, 125]⟩],
   [⟨32, 1, [44, 125]⟩],
   [⟨34, 1, [44, 125]⟩],
   [⟨6, 0, [59]⟩, ⟨7, 0, [59]⟩, ⟨8, 0, [59]⟩, ⟨9, 0, [59]⟩, ⟨10, 0, [59]⟩, ⟨11, 0, [59]⟩, ⟨12, 0, [59]⟩, ⟨13, 0, [59]⟩, ⟨18, 0, [42, 57367]⟩, ⟨19, 0, [42, 57367]⟩, ⟨20, 0, [42, 57367]⟩, ⟨21, 0, [42, 57367]⟩, ⟨22, 0, [42, 57367]⟩, ⟨23, 0, [42, 57367]⟩, ⟨24, 0, [42, 57367]⟩, ⟨25, 0, [42, 57367]⟩, ⟨26, 0, [42, 57367]⟩, ⟨27, 0, [42, 57367]⟩, ⟨28, 0, [57358, 57359]⟩, ⟨29, 0, [57358, 57359]⟩, ⟨30, 0, [42, 57367]⟩, ⟨35, 0, [42, 57367]⟩, ⟨36, 2, [41, 42, 59, 57367]⟩, ⟨38, 1, [125, 57348, 57349, 57350, 57354, 57355, 57356, 57357, 57358, 57359, 57360, 57361, 57362, 57363, 57367]⟩, ⟨39, 0, [42, 57367]⟩],
   [⟨6, 0, [41]⟩, ⟨7, 0, [41]⟩, ⟨8, 0, [41]⟩, ⟨9, 0, [41]⟩, ⟨10, 0, [41]⟩, ⟨11, 0, [41]⟩, ⟨12, 0, [41]⟩, ⟨13, 0, [41]⟩, ⟨18, 0, [42, 57367]⟩, ⟨19, 0, [42, 57367]⟩, ⟨20, 0, [42, 57367]⟩, ⟨21, 0, [42, 57367]⟩, ⟨22, 0, [42, 57367]⟩, ⟨23, 0, [42, 57367]⟩, ⟨24, 0, [42, 57367]⟩, ⟨25, 0, [42, 57367]⟩, ⟨26, 0, [42, 57367]⟩, ⟨27, 0, [42, 57367]⟩, ⟨28, 0, [57358, 57359]⟩, ⟨29, 0, [57358, 57359]⟩, ⟨30, 0, [42, 57367]⟩, ⟨35, 0, [42, 57367]⟩, ⟨39, 0, [42, 57367]⟩, ⟨40, 2, [41, 42, 59, 57367]⟩],
   [⟨50, 4, [0, 57346, 57347, 57348, 57349, 57350, 57364]⟩],
   [⟨51, 4, [0, 57346, 57347, 57348, 57349, 57350, 57364]⟩],
   [⟨52, 4, [0, 57346, 57347, 57348, 57349, 57350, 57364]⟩],
   [⟨53, 4, [0, 57346, 57347, 57348, 57349, 57350, 57364]⟩, ⟨55, 1, [125, 57365]⟩, ⟨56, 0, [125, 57365]⟩],
   [⟨48, 5, [0, 57346, 57347, 57348, 57349, 57350, 57364]⟩],
   [⟨7, 4, [41, 59]⟩],
   [⟨16, 1, [44, 58, 62, 93, 125]⟩],
   [⟨17, 1, [44, 58, 62, 93, 125]⟩],
   [⟨14, 2, [41, 59]⟩],
   [⟨15, 2, [41, 59]⟩],
   [⟨9, 4, [41, 59]⟩],
   [⟨31, 3, [41, 42, 59, 57367]⟩],
   [⟨33, 2, [44, 125]⟩, ⟨34, 0, [44, 125]⟩],
   [⟨16, 0, [44, 125]⟩, ⟨17, 0, [44, 125]⟩, ⟨34, 2, [44, 125]⟩],
   [⟨36, 3, [41, 42, 59, 57367]⟩],
   [⟨38, 2, [125, 57348, 57349, 57350, 57354, 57355, 57356, 57357, 57358, 57359, 57360, 57361, 57362, 57363, 57367]⟩],
   [⟨40, 3, [41, 42, 59, 57367]⟩],
   [⟨53, 5, [0, 57346, 57347, 57348, 57349, 57350, 57364]⟩],
   [⟨55, 2, [125, 57365]⟩],
   [⟨56, 1, [125, 57365]⟩],
   [⟨7, 5, [41, 59]⟩],
   [⟨15, 3, [41, 59]⟩],
   [⟨9, 5, [41, 59]⟩],
   [⟨33, 3, [44, 125]⟩],
   [⟨34, 3, [44, 125]⟩],
   [⟨38, 3, [125, 57348, 57349, 57350, 57354, 57355, 57356, 57357, 57358, 57359, 57360, 57361, 57362, 57363, 57367]⟩],
   [⟨40, 4, [41, 42, 59, 57367]⟩],
   [⟨53, 6, [0, 57346, 57347, 57348, 57349, 57350, 57364]⟩],
   [⟨56, 2, [125, 57365]⟩],
   [⟨40, 5, [41, 42, 59, 57367]⟩, ⟨41, 0, [125]⟩, ⟨42, 0, [125]⟩, ⟨43, 0, [125, 57352, 57353]⟩, ⟨44, 0, [125, 57352, 57353]⟩],
   [⟨53, 7, [0, 57346, 57347, 57348, 57349, 57350, 57364]⟩],
   [⟨56, 3, [125, 57365]⟩, ⟨57, 0, [125, 57348, 57349, 57350, 57354, 57357, 57358, 57359, 57360, 57361, 57362, 57363, 57367]⟩, ⟨58, 0, [125, 57348, 57349, 57350, 57354, 57357, 57358, 57359, 57360, 57361, 57362, 57363, 57367]⟩],
   [⟨40, 6, [41, 42, 59, 57367]⟩],
   [⟨41, 1, [125]⟩, ⟨42, 1, [125]⟩, ⟨44, 1, [125, 57352, 57353]⟩, ⟨45, 0, [125, 57352, 57353]⟩, ⟨46, 0, [57348, 57349, 57350, 57352, 57354, 57355, 57356, 57357, 57358, 57359, 57360, 57361, 57362, 57363, 57367]⟩, ⟨47, 0, [57348, 57349, 57350, 57352, 57354, 57355, 57356, 57357, 57358, 57359, 57360, 57361, 57362, 57363, 57367]⟩],
   [⟨53, 8, [0, 57346, 57347, 57348, 57349, 57350, 57364]⟩],
   [⟨18, 0, [57367]⟩, ⟨19, 0, [57367]⟩, ⟨20, 0, [57367]⟩, ⟨21, 0, [57367]⟩, ⟨22, 0, [57367]⟩, ⟨23, 0, [57367]⟩, ⟨24, 0, [57367]⟩, ⟨25, 0, [57367]⟩, ⟨26, 0, [57367]⟩, ⟨27, 0, [57367]⟩, ⟨28, 0, [57358, 57359]⟩, ⟨29, 0, [57358, 57359]⟩, ⟨30, 0, [57367]⟩, ⟨35, 0, [57367]⟩, ⟨39, 0, [57367]⟩, ⟨56, 4, [125, 57365]⟩, ⟨58, 1, [125, 57348, 57349, 57350, 57354, 57357, 57358, 57359, 57360, 57361, 57362, 57363, 57367]⟩, ⟨59, 0, [125, 57348, 57349, 57350, 57354, 57357, 57358, 57359, 57360, 57361, 57362, 57363, 57367]⟩, ⟨60, 0, [57367]⟩, ⟨61, 0, [57367]⟩],
   [⟨40, 7, [41, 42, 59, 57367]⟩],
   [⟨42, 2, [125]⟩],
   [⟨44, 2, [125, 57352, 57353]⟩],
   [⟨6, 0, [59]⟩, ⟨7, 0, [59]⟩, ⟨8, 0, [59]⟩, ⟨9, 0, [59]⟩, ⟨10, 0, [59]⟩, ⟨11, 0, [59]⟩, ⟨12, 0, [59]⟩, ⟨13, 0, [59]⟩, ⟨18, 0, [42, 57367]⟩, ⟨19, 0, [42, 57367]⟩, ⟨20, 0, [42, 57367]⟩, ⟨21, 0, [42, 57367]⟩, ⟨22, 0, [42, 57367]⟩, ⟨23, 0, [42, 57367]⟩, ⟨24, 0, [42, 57367]⟩, ⟨25, 0, [42, 57367]⟩, ⟨26, 0, [42, 57367]⟩, ⟨27, 0, [42, 57367]⟩, ⟨28, 0, [57358, 57359]⟩, ⟨29, 0, [57358, 57359]⟩, ⟨30, 0, [42, 57367]⟩, ⟨35, 0, [42, 57367]⟩, ⟨39, 0, [42, 57367]⟩, ⟨45, 1, [125, 57352, 57353]⟩, ⟨47, 1, [57348, 57349, 57350, 57352, 57354, 57355, 57356, 57357, 57358, 57359, 57360, 57361, 57362, 57363, 57367]⟩],
   [⟨16, 0, [58]⟩, ⟨17, 0, [58]⟩, ⟨46, 1, [57348, 57349, 57350, 57352, 57354, 57355, 57356, 57357, 57358, 57359, 57360, 57361, 57362, 57363, 57367]⟩],
   [⟨56, 5, [125, 57365]⟩],
   [⟨58, 2, [125, 57348, 57349, 57350, 57354, 57357, 57358, 57359, 57360, 57361, 57362, 57363, 57367]⟩],
   [⟨59, 1, [125, 57348, 57349, 57350, 57354, 57357, 57358, 57359, 57360, 57361, 57362, 57363, 57367]⟩],
   [⟨60, 1, [41, 57367]⟩],
   [⟨61, 1, [41, 57367]⟩],
   [⟨6, 0, [59]⟩, ⟨7, 0, [59]⟩, ⟨8, 0, [59]⟩, ⟨9, 0, [59]⟩, ⟨10, 0, [59]⟩, ⟨11, 0, [59]⟩, ⟨12, 0, [59]⟩, ⟨13, 0, [59]⟩, ⟨18, 0, [42, 57367]⟩, ⟨19, 0, [42, 57367]⟩, ⟨20, 0, [42, 57367]⟩, ⟨21, 0, [42, 57367]⟩, ⟨22, 0, [42, 57367]⟩, ⟨23, 0, [42, 57367]⟩, ⟨24, 0, [42, 57367]⟩, ⟨25, 0, [42, 57367]⟩, ⟨26, 0, [42, 57367]⟩, ⟨27, 0, [42, 57367]⟩, ⟨28, 0, [57358, 57359]⟩, ⟨29, 0, [57358, 57359]⟩, ⟨30, 0, [42, 57367]⟩, ⟨35, 0, [42, 57367]⟩, ⟨39, 0, [42, 57367]⟩, ⟨42, 3, [125]⟩],
   [⟨45, 2, [125, 57352, 57353]⟩],
   [⟨16, 0, [58]⟩, ⟨17, 0, [58]⟩, ⟨47, 2, [57348, 57349, 57350, 57352, 57354, 57355, 57356, 57357, 57358, 57359, 57360, 57361, 57362, 57363, 57367]⟩],
   [⟨46, 2, [57348, 57349, 57350, 57352, 57354, 57355, 57356, 57357, 57358, 57359, 57360, 57361, 57362, 57363, 57367]⟩],
   [⟨56, 6, [125, 57365]⟩],
   [⟨59, 2, [125, 57348, 57349, 57350, 57354, 57357, 57358, 57359, 57360, 57361, 57362, 57363, 57367]⟩],
   [⟨42, 4, [125]⟩],
   [⟨45, 3, [125, 57352, 57353]⟩],
   [⟨47, 3, [57348, 57349, 57350, 57352, 57354, 57355, 57356, 57357, 57358, 57359, 57360, 57361, 57362, 57363, 57367]⟩],
   [⟨46, 3, [57348, 57349, 57350, 57352, 57354, 57355, 57356, 57357, 57358, 57359, 57360, 57361, 57362, 57363, 57367]⟩],
   [⟨56, 7, [125, 57365]⟩],
   [⟨18, 0, [41]⟩, ⟨19, 0, [41]⟩, ⟨20, 0, [41]⟩, ⟨21, 0, [41]⟩, ⟨22, 0, [41]⟩, ⟨23, 0, [41]⟩, ⟨24, 0, [41]⟩, ⟨25, 0, [41]⟩, ⟨26, 0, [41]⟩, ⟨27, 0, [41]⟩, ⟨28, 0, [57358, 57359]⟩, ⟨29, 0, [57358, 57359]⟩, ⟨30, 0, [41]⟩, ⟨35, 0, [41]⟩, ⟨39, 0, [41]⟩, ⟨59, 3, [125, 57348, 57349, 57350, 57354, 57357, 57358, 57359, 57360, 57361, 57362, 57363, 57367]⟩, ⟨60, 0, [41]⟩, ⟨61, 0, [41]⟩],
   [⟨42, 5, [125]⟩],
   [⟨47, 4, [57348, 57349, 57350, 57352, 57354, 57355, 57356, 57357, 57358, 57359, 57360, 57361, 57362, 57363, 57367]⟩],
   [⟨56, 8, [125, 57365]⟩],
   [⟨59, 4, [125, 57348, 57349, 57350, 57354, 57357, 57358, 57359, 57360, 57361, 57362, 57363, 57367]⟩],
   [⟨59, 5, [125, 57348, 57349, 57350, 57354, 57357, 57358, 57359, 57360, 57361, 57362, 57363, 57367]⟩],
   [⟨59, 6, [125, 57348, 57349, 57350, 57354, 57357, 57358, 57359, 57360, 57361, 57362, 57363, 57367]⟩],
   [⟨59, 7, [125, 57348, 57349, 57350, 57354, 57357, 57358, 57359, 57360, 57361, 57362, 57363, 57367]⟩],
   [⟨59, 8, [125, 57348, 57349, 57350, 57354, 57357, 57358, 57359, 57360, 57361, 57362, 57363, 57367]⟩]]

def xdrPot : List Nat :=
  [2, 0, 0, 0, 1, 1, 1, 0, 2, 0, 0, 0, 0, 0, 0, 0, 0, 1, 0, 2, 2, 2, 2, 2, 2, 2, 2, 1, 0, 0, 0, 0, 0, 0, 0, 0, 0, 0, 0, 0, 0, 1, 1, 2, 0, 2, 4, 2, 0, 0, 0, 0, 0, 2, 0, 0, 0, 0, 0, 0, 0, 0, 0, 1, 0, 2, 2, 0, 0, 0, 0, 0, 0, 1, 1, 0, 0, 0, 1, 0, 0, 1, 0, 0, 0, 0, 0, 0, 0, 0, 0, 0, 1, 0, 0, 0, 3, 0, 4, 0, 1, 0, 2, 0, 0, 1, 2, 0, 0, 2, 0, 1, 1, 2, 0, 0, 0, 0, 0, 0, 0, 0, 1, 0, 2, 0, 0, 0, 0, 0, 0, 0, 0]

def xdrBound : List Nat :=
  [0, 0, 0, 0, 0, 0, 0, 0, 0, 0, 0, 0, 0, 0, 0, 0, 0, 0, 1, 1, 1, 1, 1, 1, 1, 1, 1, 1, 0, 0, 2, 2, 0, 0, 1, 2, 2, 2, 2, 2, 2, 0, 0, 1, 1, 1, 2, 2, 1, 1, 1, 1, 1, 1, 0, 0, 0, 2, 2, 2, 0, 0]

def xdrNulls : List Nat := [999, 1000, 1006, 1013, 1016, 1017, 1023, 1025]

def xdrFirsts : List (Nat × List Nat) :=
  [(999, [0, 57346, 57347, 57348, 57349, 57350, 57364]),
   (1000, [57346, 57347, 57348, 57349, 57350, 57364]),
   (1001, [57346, 57347, 57348, 57349, 57350, 57364]),
   (1002, [57348, 57349, 57350, 57354, 57355, 57356, 57357, 57358, 57359, 57360, 57361, 57362, 57363, 57367]),
   (1003, [60]),
   (1004, [57366, 57367]),
   (1005, [57348, 57349, 57350, 57357, 57358, 57359, 57360, 57361, 57362, 57363, 57367]),
   (1006, [57357]),
   (1007, [57348]),
   (1008, [123]),
   (1009, [57367]),
   (1010, [57367]),
   (1011, [57349]),
   (1012, [123]),
   (1013, [57348, 57349, 57350, 57354, 57355, 57356, 57357, 57358, 57359, 57360, 57361, 57362, 57363, 57367]),
   (1014, [57350]),
   (1015, [57351]),
   (1016, [57352, 57353]),
   (1017, [57352]),
   (1018, [57352]),
   (1019, [57352]),
   (1020, [57346]),
   (1021, [57347, 57348, 57349, 57350]),
   (1022, [57364]),
   (1023, [57365]),
   (1024, [57365]),
   (1025, [57348, 57349, 57350, 57354, 57357, 57358, 57359, 57360, 57361, 57362, 57363, 57367]),
   (1026, [57348, 57349, 57350, 57354, 57357, 57358, 57359, 57360, 57361, 57362, 57363, 57367]),
   (1027, [57348, 57349, 57350, 57354, 57357, 57358, 57359, 57360, 57361, 57362, 57363, 57367])]

def xdrLr : Lr := ⟨xdrRules, xdrStates, xdrItems, xdrPot, xdrBound, xdrNulls, xdrFirsts⟩

end Verif.Lang
