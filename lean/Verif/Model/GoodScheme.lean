import Mathlib.Data.Int.Notation
import Mathlib.Data.List.Basic

/-!
# Model of `get_good_scheme` of the different domains

A table entry is a degree, the name of a scheme and the degree the scheme claims.  The claimed degree is
`none` for schemes whose data is in a JSON file: those files are not part of the sources we have.
-/

namespace Quadpy.Good

/-- What `get_good_scheme(degree)` does. -/
inductive Result
  | keyError
  | none
  | found (name : String) (claimed : Option ℕ)
  deriving DecidableEq

abbrev Table := List (ℤ × String × Option ℕ)

/-- `if degree <= limit: return {...}[degree]()`, then `return None`. -/
def lookup (limit : ℤ) (table : Table) (degree : ℤ) : Result :=
  if degree ≤ limit then
    match table.find? fun e => e.1 = degree with
    | some e => .found e.2.1 e.2.2
    | none => .keyError
  else .none

/-- The domains with a `get_good_scheme`. -/
inductive Domain
  | c2 | c3 | s2 | s3 | t2 | t3 | u3 | e2r | e2r2 | e3r | e3r2
  deriving DecidableEq

/-- c2/_helpers.py:92-119 -/
def c2Table : Table :=
  [(0, "dunavant_00", some 1),
   (1, "dunavant_00", some 1),
   (2, "hammer_stroud_1_2", some 3),
   (3, "hammer_stroud_1_2", some 3),
   (4, "burnside", some 5),
   (5, "burnside", some 5),
   (6, "tyler_2", some 7),
   (7, "tyler_2", some 7),
   (8, "rabinowitz_richter_1", .none),
   (9, "rabinowitz_richter_1", .none),
   (10, "witherden_vincent_11", .none),
   (11, "witherden_vincent_11", .none),
   (12, "witherden_vincent_13", .none),
   (13, "witherden_vincent_13", .none),
   (14, "rabinowitz_richter_6", .none),
   (15, "rabinowitz_richter_6", .none),
   (16, "witherden_vincent_17", .none),
   (17, "witherden_vincent_17", .none),
   (18, "witherden_vincent_19", .none),
   (19, "witherden_vincent_19", .none),
   (20, "witherden_vincent_21", .none),
   (21, "witherden_vincent_21", .none)]

/-- c3/_helpers.py:55-72 -/
def c3Table : Table :=
  [(0, "midpoint", some 1),
   (1, "midpoint", some 1),
   (2, "face_midpoint", some 3),
   (3, "face_midpoint", some 3),
   (4, "hammer_stroud_4_3", some 5),
   (5, "hammer_stroud_4_3", some 5),
   (6, "hammer_wymore", some 7),
   (7, "hammer_wymore", some 7),
   (8, "witherden_vincent_09", some 9),
   (9, "witherden_vincent_09", some 9),
   (10, "witherden_vincent_11", some 11),
   (11, "witherden_vincent_11", some 11)]

/-- s2/_helpers.py:103-128 -/
def s2Table : Table :=
  [(0, "midpoint", some 1),
   (1, "midpoint", some 1),
   (2, "albrecht_collatz", some 3),
   (3, "albrecht_collatz", some 3),
   (4, "mysovskih_1", some 4),
   (5, "radon", some 5),
   (6, "kim_song_6", .none),
   (7, "kim_song_6", .none),
   (8, "luo_meng_2", .none),
   (9, "luo_meng_2", .none),
   (10, "mysovskih_2", some 11),
   (11, "mysovskih_2", some 11),
   (12, "cools_haegemans_13_1", .none),
   (13, "cools_haegemans_13_1", .none),
   (14, "kim_song_11", .none),
   (15, "kim_song_11", .none),
   (16, "cools_kim_1", .none),
   (17, "cools_kim_1", .none),
   (18, "kim_song_15", .none),
   (19, "kim_song_15", .none)]

/-- s3/_helpers.py:49-68 -/
def s3Table : Table :=
  [(0, "midpoint", some 1),
   (1, "midpoint", some 1),
   (2, "hammer_stroud_11_3", some 3),
   (3, "hammer_stroud_11_3", some 3),
   (4, "hammer_stroud_12_3", some 5),
   (5, "hammer_stroud_12_3", some 5),
   (6, "mysovskih", some 7),
   (7, "mysovskih", some 7),
   (8, "stroud_14_1", some 14),
   (9, "stroud_14_1", some 14),
   (10, "stroud_14_1", some 14),
   (11, "stroud_14_1", some 14),
   (12, "stroud_14_1", some 14),
   (13, "stroud_14_1", some 14),
   (14, "stroud_14_1", some 14)]

/-- t2/_helpers.py:93-150 -/
def t2Table : Table :=
  [(0, "centroid", some 1),
   (1, "centroid", some 1),
   (2, "hammer_marlowe_stroud_3", some 2),
   (3, "strang_fix_cowper_04", some 3),
   (4, "williams_shunn_jameson_3", .none),
   (5, "hammer_marlowe_stroud_5", some 5),
   (6, "strang_fix_cowper_09", .none),
   (7, "laursen_gellert_11", .none),
   (8, "lyness_jespersen_15", some 8),
   (9, "lyness_jespersen_18", some 9),
   (10, "witherden_vincent_10", .none),
   (11, "xiao_gimbutas_11", .none),
   (12, "xiao_gimbutas_12", .none),
   (13, "xiao_gimbutas_13", .none),
   (14, "xiao_gimbutas_14", .none),
   (15, "witherden_vincent_15", .none),
   (16, "xiao_gimbutas_16", .none),
   (17, "xiao_gimbutas_17", .none),
   (18, "witherden_vincent_18", .none),
   (19, "dunavant_19", .none),
   (20, "xiao_gimbutas_20", .none),
   (21, "xiao_gimbutas_21", .none),
   (22, "xiao_gimbutas_22", .none),
   (23, "xiao_gimbutas_23", .none),
   (24, "xiao_gimbutas_24", .none),
   (25, "xiao_gimbutas_25", .none),
   (26, "xiao_gimbutas_26", .none),
   (27, "xiao_gimbutas_27", .none),
   (28, "xiao_gimbutas_28", .none),
   (29, "xiao_gimbutas_29", .none),
   (30, "xiao_gimbutas_30", .none),
   (31, "xiao_gimbutas_31", .none),
   (32, "xiao_gimbutas_32", .none),
   (33, "xiao_gimbutas_33", .none),
   (34, "xiao_gimbutas_34", .none),
   (35, "xiao_gimbutas_35", .none),
   (36, "xiao_gimbutas_36", .none),
   (37, "xiao_gimbutas_37", .none),
   (38, "xiao_gimbutas_38", .none),
   (39, "xiao_gimbutas_39", .none),
   (40, "xiao_gimbutas_40", .none),
   (41, "xiao_gimbutas_41", .none),
   (42, "xiao_gimbutas_42", .none),
   (43, "xiao_gimbutas_43", .none),
   (44, "xiao_gimbutas_44", .none),
   (45, "xiao_gimbutas_45", .none),
   (46, "xiao_gimbutas_46", .none),
   (47, "xiao_gimbutas_47", .none),
   (48, "xiao_gimbutas_48", .none),
   (49, "xiao_gimbutas_49", .none),
   (50, "xiao_gimbutas_50", .none)]

/-- t3/_get_good_scheme.py:1-23 -/
def t3Table : Table :=
  [(0, "keast_0", some 1),
   (1, "keast_0", some 1),
   (2, "hammer_marlowe_stroud_1", some 2),
   (3, "witherden_vincent_03", .none),
   (4, "liu_vinokur_12", some 5),
   (5, "liu_vinokur_12", some 5),
   (6, "keast_7", .none),
   (7, "witherden_vincent_07", .none),
   (8, "witherden_vincent_08", .none),
   (9, "witherden_vincent_09", .none),
   (10, "witherden_vincent_10", .none),
   (11, "vioreanu_rokhlin_8", .none),
   (12, "vioreanu_rokhlin_9", .none),
   (13, "vioreanu_rokhlin_9", .none),
   (14, "zhang_cui_liu_2", .none)]

/-- u3/_helpers.py:590-643 -/
def u3Table : Table :=
  [(0, "lebedev_003a", .none),
   (1, "lebedev_003a", .none),
   (2, "lebedev_003a", .none),
   (3, "lebedev_003a", .none),
   (4, "albrecht_collatz_1", some 5),
   (5, "albrecht_collatz_1", some 5),
   (6, "albrecht_collatz_5", some 7),
   (7, "albrecht_collatz_5", some 7),
   (8, "mclaren_05", some 9),
   (9, "mclaren_05", some 9),
   (10, "mclaren_08", some 11),
   (11, "mclaren_08", some 11),
   (12, "lebedev_015", .none),
   (13, "lebedev_015", .none),
   (14, "lebedev_015", .none),
   (15, "lebedev_015", .none),
   (16, "lebedev_017", .none),
   (17, "lebedev_017", .none),
   (18, "lebedev_019", .none),
   (19, "lebedev_019", .none),
   (20, "lebedev_021", .none),
   (21, "lebedev_021", .none),
   (22, "lebedev_023", .none),
   (23, "lebedev_023", .none),
   (24, "heo_xu_25b", .none),
   (25, "heo_xu_25b", .none),
   (26, "lebedev_029", .none),
   (27, "lebedev_029", .none),
   (28, "lebedev_029", .none),
   (29, "lebedev_029", .none),
   (30, "lebedev_031", .none),
   (31, "lebedev_031", .none),
   (32, "lebedev_035", .none),
   (33, "lebedev_035", .none),
   (34, "lebedev_035", .none),
   (35, "lebedev_035", .none),
   (36, "lebedev_041", .none),
   (37, "lebedev_041", .none),
   (38, "lebedev_041", .none),
   (39, "lebedev_041", .none),
   (40, "lebedev_041", .none),
   (41, "lebedev_041", .none),
   (42, "lebedev_047", .none),
   (43, "lebedev_047", .none),
   (44, "lebedev_047", .none),
   (45, "lebedev_047", .none),
   (46, "lebedev_047", .none),
   (47, "lebedev_047", .none)]

/-- e2r/_helpers.py:61-82 -/
def e2rTable : Table :=
  [(0, "stroud_4_1", some 4),
   (1, "stroud_4_1", some 4),
   (2, "stroud_4_1", some 4),
   (3, "stroud_4_1", some 4),
   (4, "stroud_4_1", some 4),
   (5, "stroud_secrest_5", some 5),
   (6, "stroud_secrest_6", some 7),
   (7, "stroud_secrest_6", some 7),
   (8, "haegemans_piessens_b", .none),
   (9, "haegemans_piessens_b", .none),
   (10, "rabinowitz_richter_2", .none),
   (11, "rabinowitz_richter_2", .none),
   (12, "rabinowitz_richter_5", .none),
   (13, "rabinowitz_richter_5", .none),
   (14, "rabinowitz_richter_5", .none),
   (15, "rabinowitz_richter_5", .none)]

/-- e2r2/_helpers.py:60-81 -/
def e2r2Table : Table :=
  [(0, "stroud_4_1", some 4),
   (1, "stroud_4_1", some 4),
   (2, "stroud_4_1", some 4),
   (3, "stroud_4_1", some 4),
   (4, "stroud_4_1", some 4),
   (5, "stroud_secrest_5", some 5),
   (6, "stroud_secrest_6", some 7),
   (7, "stroud_secrest_6", some 7),
   (8, "haegemans_piessens_a", .none),
   (9, "haegemans_piessens_a", .none),
   (10, "rabinowitz_richter_2", .none),
   (11, "rabinowitz_richter_2", .none),
   (12, "rabinowitz_richter_5", .none),
   (13, "rabinowitz_richter_5", .none),
   (14, "rabinowitz_richter_5", .none),
   (15, "rabinowitz_richter_5", .none)]

/-- e3r/_helpers.py:34-46 -/
def e3rTable : Table :=
  [(0, "stroud_secrest_08", some 5),
   (1, "stroud_secrest_08", some 5),
   (2, "stroud_secrest_08", some 5),
   (3, "stroud_secrest_08", some 5),
   (4, "stroud_secrest_08", some 5),
   (5, "stroud_secrest_08", some 5),
   (6, "stroud_secrest_10", some 7),
   (7, "stroud_secrest_10", some 7)]

/-- e3r2/_helpers.py:34-46 -/
def e3r2Table : Table :=
  [(0, "stroud_secrest_08a", some 5),
   (1, "stroud_secrest_08a", some 5),
   (2, "stroud_secrest_08a", some 5),
   (3, "stroud_secrest_08a", some 5),
   (4, "stroud_secrest_08a", some 5),
   (5, "stroud_secrest_08a", some 5),
   (6, "stroud_secrest_10b", some 7),
   (7, "stroud_secrest_10b", some 7)]

/-- The guards, same lines. -/
def limit : Domain → ℤ
  | .c2 => 22
  | .c3 => 11
  | .s2 => 19
  | .s3 => 7
  | .t2 => 50
  | .t3 => 14
  | .u3 => 47
  | .e2r => 15
  | .e2r2 => 15
  | .e3r => 7
  | .e3r2 => 7

/-- The tables. -/
def table : Domain → Table
  | .c2 => c2Table
  | .c3 => c3Table
  | .s2 => s2Table
  | .s3 => s3Table
  | .t2 => t2Table
  | .t3 => t3Table
  | .u3 => u3Table
  | .e2r => e2rTable
  | .e2r2 => e2r2Table
  | .e3r => e3rTable
  | .e3r2 => e3r2Table

/-- `get_good_scheme(degree)` of the domain. -/
def getGoodScheme (d : Domain) (degree : ℤ) : Result := lookup (limit d) (table d) degree

end Quadpy.Good
