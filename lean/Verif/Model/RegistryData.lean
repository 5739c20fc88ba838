import Verif.Model.Registry

/-!
# What the modules of quadpy register

For each domain the functions, as pairs of the file and of `__name__`, and the calls of `register`, in the order in
which Python runs them on `import quadpy`: the name under which the module knows the function, and the number of
the function.  `from ._miller import miller as stroud_c2_1_2` makes `stroud_c2_1_2` such a name of the function `miller`.
Generated from the sources.
-/

namespace Quadpy.Registry

/-- The functions which are registered in c2. -/
def c2Fns : List Function :=
  [⟨"c2/_albrecht_collatz.py", "albrecht_collatz_1"⟩, ⟨"c2/_albrecht_collatz.py", "albrecht_collatz_2"⟩,
   ⟨"c2/_albrecht_collatz.py", "albrecht_collatz_3"⟩, ⟨"c2/_albrecht_collatz.py", "albrecht_collatz_4"⟩,
   ⟨"c2/_burnside.py", "burnside"⟩, ⟨"c2/_cohen_gismalla.py", "cohen_gismalla_1"⟩,
   ⟨"c2/_cohen_gismalla.py", "cohen_gismalla_2"⟩,
   ⟨"c2/_cools_haegemans_1985/__init__.py", "cools_haegemans_1985_9_1"⟩,
   ⟨"c2/_cools_haegemans_1985/__init__.py", "cools_haegemans_1985_13_1"⟩,
   ⟨"c2/_cools_haegemans_1985/__init__.py", "cools_haegemans_1985_13_2"⟩,
   ⟨"c2/_cools_haegemans_1985/__init__.py", "cools_haegemans_1985_13_3"⟩,
   ⟨"c2/_cools_haegemans_1985/__init__.py", "cools_haegemans_1985_17_1"⟩,
   ⟨"c2/_cools_haegemans_1985/__init__.py", "cools_haegemans_1985_17_2"⟩,
   ⟨"c2/_cools_haegemans_1988/__init__.py", "cools_haegemans_1988_1"⟩,
   ⟨"c2/_cools_haegemans_1988/__init__.py", "cools_haegemans_1988_2"⟩, ⟨"c2/_tyler.py", "tyler_1"⟩,
   ⟨"c2/_tyler.py", "tyler_2"⟩, ⟨"c2/_tyler.py", "tyler_3"⟩, ⟨"c2/_dunavant/__init__.py", "dunavant_00"⟩,
   ⟨"c2/_dunavant/__init__.py", "dunavant_01"⟩, ⟨"c2/_dunavant/__init__.py", "dunavant_02"⟩,
   ⟨"c2/_dunavant/__init__.py", "dunavant_04"⟩, ⟨"c2/_dunavant/__init__.py", "dunavant_05"⟩,
   ⟨"c2/_dunavant/__init__.py", "dunavant_06"⟩, ⟨"c2/_dunavant/__init__.py", "dunavant_07"⟩,
   ⟨"c2/_dunavant/__init__.py", "dunavant_08"⟩, ⟨"c2/_dunavant/__init__.py", "dunavant_09"⟩,
   ⟨"c2/_dunavant/__init__.py", "dunavant_10"⟩, ⟨"c2/_rabinowitz_richter/__init__.py", "rabinowitz_richter_1"⟩,
   ⟨"c2/_rabinowitz_richter/__init__.py", "rabinowitz_richter_2"⟩,
   ⟨"c2/_rabinowitz_richter/__init__.py", "rabinowitz_richter_3"⟩,
   ⟨"c2/_rabinowitz_richter/__init__.py", "rabinowitz_richter_4"⟩,
   ⟨"c2/_rabinowitz_richter/__init__.py", "rabinowitz_richter_5"⟩,
   ⟨"c2/_rabinowitz_richter/__init__.py", "rabinowitz_richter_6"⟩, ⟨"c2/_franke.py", "franke_1"⟩,
   ⟨"c2/_franke.py", "franke_2a"⟩, ⟨"c2/_franke.py", "franke_2b"⟩, ⟨"c2/_franke.py", "franke_3a"⟩,
   ⟨"c2/_franke.py", "franke_3b"⟩, ⟨"c2/_franke.py", "franke_3c"⟩, ⟨"c2/_franke.py", "franke_5"⟩,
   ⟨"c2/_franke.py", "franke_6"⟩, ⟨"c2/_franke.py", "franke_7"⟩, ⟨"c2/_franke.py", "franke_8"⟩,
   ⟨"c2/_haegemans_piessens/__init__.py", "haegemans_piessens"⟩, ⟨"c2/_hammer_stroud.py", "hammer_stroud_1_2"⟩,
   ⟨"c2/_hammer_stroud.py", "hammer_stroud_2_2"⟩, ⟨"c2/_hammer_stroud.py", "hammer_stroud_3_2"⟩,
   ⟨"c2/_irwin.py", "irwin_1"⟩, ⟨"c2/_irwin.py", "irwin_2"⟩, ⟨"c2/_maxwell.py", "maxwell"⟩,
   ⟨"c2/_meister.py", "meister"⟩, ⟨"c2/_miller.py", "miller"⟩,
   ⟨"c2/_morrow_patterson/__init__.py", "morrow_patterson_1"⟩,
   ⟨"c2/_morrow_patterson/__init__.py", "morrow_patterson_2"⟩, ⟨"c2/_phillips.py", "phillips"⟩,
   ⟨"c2/_piessens_haegemans/__init__.py", "piessens_haegemans_1"⟩,
   ⟨"c2/_piessens_haegemans/__init__.py", "piessens_haegemans_2"⟩, ⟨"c2/_schmid/__init__.py", "schmid_2"⟩,
   ⟨"c2/_schmid/__init__.py", "schmid_4"⟩, ⟨"c2/_schmid/__init__.py", "schmid_6"⟩,
   ⟨"c2/_sommariva/__init__.py", "sommariva_01"⟩, ⟨"c2/_sommariva/__init__.py", "sommariva_02"⟩,
   ⟨"c2/_sommariva/__init__.py", "sommariva_03"⟩, ⟨"c2/_sommariva/__init__.py", "sommariva_04"⟩,
   ⟨"c2/_sommariva/__init__.py", "sommariva_05"⟩, ⟨"c2/_sommariva/__init__.py", "sommariva_06"⟩,
   ⟨"c2/_sommariva/__init__.py", "sommariva_07"⟩, ⟨"c2/_sommariva/__init__.py", "sommariva_08"⟩,
   ⟨"c2/_sommariva/__init__.py", "sommariva_09"⟩, ⟨"c2/_sommariva/__init__.py", "sommariva_10"⟩,
   ⟨"c2/_sommariva/__init__.py", "sommariva_11"⟩, ⟨"c2/_sommariva/__init__.py", "sommariva_12"⟩,
   ⟨"c2/_sommariva/__init__.py", "sommariva_13"⟩, ⟨"c2/_sommariva/__init__.py", "sommariva_14"⟩,
   ⟨"c2/_sommariva/__init__.py", "sommariva_15"⟩, ⟨"c2/_sommariva/__init__.py", "sommariva_16"⟩,
   ⟨"c2/_sommariva/__init__.py", "sommariva_17"⟩, ⟨"c2/_sommariva/__init__.py", "sommariva_18"⟩,
   ⟨"c2/_sommariva/__init__.py", "sommariva_19"⟩, ⟨"c2/_sommariva/__init__.py", "sommariva_20"⟩,
   ⟨"c2/_sommariva/__init__.py", "sommariva_21"⟩, ⟨"c2/_sommariva/__init__.py", "sommariva_22"⟩,
   ⟨"c2/_sommariva/__init__.py", "sommariva_23"⟩, ⟨"c2/_sommariva/__init__.py", "sommariva_24"⟩,
   ⟨"c2/_sommariva/__init__.py", "sommariva_25"⟩, ⟨"c2/_sommariva/__init__.py", "sommariva_26"⟩,
   ⟨"c2/_sommariva/__init__.py", "sommariva_27"⟩, ⟨"c2/_sommariva/__init__.py", "sommariva_28"⟩,
   ⟨"c2/_sommariva/__init__.py", "sommariva_29"⟩, ⟨"c2/_sommariva/__init__.py", "sommariva_30"⟩,
   ⟨"c2/_sommariva/__init__.py", "sommariva_31"⟩, ⟨"c2/_sommariva/__init__.py", "sommariva_32"⟩,
   ⟨"c2/_sommariva/__init__.py", "sommariva_33"⟩, ⟨"c2/_sommariva/__init__.py", "sommariva_34"⟩,
   ⟨"c2/_sommariva/__init__.py", "sommariva_35"⟩, ⟨"c2/_sommariva/__init__.py", "sommariva_36"⟩,
   ⟨"c2/_sommariva/__init__.py", "sommariva_37"⟩, ⟨"c2/_sommariva/__init__.py", "sommariva_38"⟩,
   ⟨"c2/_sommariva/__init__.py", "sommariva_39"⟩, ⟨"c2/_sommariva/__init__.py", "sommariva_40"⟩,
   ⟨"c2/_sommariva/__init__.py", "sommariva_41"⟩, ⟨"c2/_sommariva/__init__.py", "sommariva_42"⟩,
   ⟨"c2/_sommariva/__init__.py", "sommariva_43"⟩, ⟨"c2/_sommariva/__init__.py", "sommariva_44"⟩,
   ⟨"c2/_sommariva/__init__.py", "sommariva_45"⟩, ⟨"c2/_sommariva/__init__.py", "sommariva_46"⟩,
   ⟨"c2/_sommariva/__init__.py", "sommariva_47"⟩, ⟨"c2/_sommariva/__init__.py", "sommariva_48"⟩,
   ⟨"c2/_sommariva/__init__.py", "sommariva_49"⟩, ⟨"c2/_sommariva/__init__.py", "sommariva_50"⟩,
   ⟨"c2/_sommariva/__init__.py", "sommariva_51"⟩, ⟨"c2/_sommariva/__init__.py", "sommariva_52"⟩,
   ⟨"c2/_sommariva/__init__.py", "sommariva_53"⟩, ⟨"c2/_sommariva/__init__.py", "sommariva_54"⟩,
   ⟨"c2/_sommariva/__init__.py", "sommariva_55"⟩, ⟨"c2/_stroud.py", "stroud_c2_1_1"⟩,
   ⟨"c2/_stroud.py", "stroud_c2_3_1"⟩, ⟨"c2/_stroud.py", "stroud_c2_3_2"⟩, ⟨"c2/_stroud.py", "stroud_c2_3_3"⟩,
   ⟨"c2/_stroud.py", "stroud_c2_5_4"⟩, ⟨"c2/_stroud.py", "stroud_c2_7_4"⟩, ⟨"c2/_waldron.py", "waldron"⟩,
   ⟨"c2/_wissmann_becker/__init__.py", "wissmann_becker_4_1"⟩,
   ⟨"c2/_wissmann_becker/__init__.py", "wissmann_becker_4_2"⟩,
   ⟨"c2/_wissmann_becker/__init__.py", "wissmann_becker_6_1"⟩,
   ⟨"c2/_wissmann_becker/__init__.py", "wissmann_becker_6_2"⟩,
   ⟨"c2/_wissmann_becker/__init__.py", "wissmann_becker_8_1"⟩,
   ⟨"c2/_wissmann_becker/__init__.py", "wissmann_becker_8_2"⟩,
   ⟨"c2/_witherden_vincent/__init__.py", "witherden_vincent_01"⟩,
   ⟨"c2/_witherden_vincent/__init__.py", "witherden_vincent_03"⟩,
   ⟨"c2/_witherden_vincent/__init__.py", "witherden_vincent_05"⟩,
   ⟨"c2/_witherden_vincent/__init__.py", "witherden_vincent_07"⟩,
   ⟨"c2/_witherden_vincent/__init__.py", "witherden_vincent_09"⟩,
   ⟨"c2/_witherden_vincent/__init__.py", "witherden_vincent_11"⟩,
   ⟨"c2/_witherden_vincent/__init__.py", "witherden_vincent_13"⟩,
   ⟨"c2/_witherden_vincent/__init__.py", "witherden_vincent_15"⟩,
   ⟨"c2/_witherden_vincent/__init__.py", "witherden_vincent_17"⟩,
   ⟨"c2/_witherden_vincent/__init__.py", "witherden_vincent_19"⟩,
   ⟨"c2/_witherden_vincent/__init__.py", "witherden_vincent_21"⟩]

/-- quadpy/c2/_albrecht_collatz.py:59-61, quadpy/c2/_burnside.py:25-25, quadpy/c2/_cohen_gismalla.py:57-57,
quadpy/c2/_cools_haegemans_1985/__init__.py:42-51, quadpy/c2/_cools_haegemans_1988/__init__.py:27-27,
quadpy/c2/_tyler.py:48-48, quadpy/c2/_dunavant/__init__.py:72-86, quadpy/c2/_rabinowitz_richter/__init__.py:45-54,
quadpy/c2/_franke.py:199-212, quadpy/c2/_haegemans_piessens/__init__.py:25-25, quadpy/c2/_hammer_stroud.py:43-43,
quadpy/c2/_irwin.py:28-28, quadpy/c2/_maxwell.py:31-31, quadpy/c2/_meister.py:31-31, quadpy/c2/_miller.py:29-29,
quadpy/c2/_morrow_patterson/__init__.py:28-28, quadpy/c2/_phillips.py:35-35,
quadpy/c2/_piessens_haegemans/__init__.py:29-29, quadpy/c2/_schmid/__init__.py:64-64,
quadpy/c2/_sommariva/__init__.py:235-293, quadpy/c2/_stroud.py:84-113, quadpy/c2/_waldron.py:39-39,
quadpy/c2/_wissmann_becker/__init__.py:43-52, quadpy/c2/_witherden_vincent/__init__.py:65-79 -/
def c2Regs : List (String × ℕ) :=
  [("albrecht_collatz_1", 0), ("albrecht_collatz_2", 1), ("albrecht_collatz_3", 2), ("albrecht_collatz_4", 3),
   ("burnside", 4), ("cohen_gismalla_1", 5), ("cohen_gismalla_2", 6), ("cools_haegemans_1985_9_1", 7),
   ("cools_haegemans_1985_13_1", 8), ("cools_haegemans_1985_13_2", 9), ("cools_haegemans_1985_13_3", 10),
   ("cools_haegemans_1985_17_1", 11), ("cools_haegemans_1985_17_2", 12), ("cools_haegemans_1988_1", 13),
   ("cools_haegemans_1988_2", 14), ("tyler_1", 15), ("tyler_2", 16), ("tyler_3", 17), ("dunavant_00", 18),
   ("dunavant_01", 19), ("dunavant_02", 20), ("dunavant_03", 16), ("dunavant_04", 21), ("dunavant_05", 22),
   ("dunavant_06", 23), ("dunavant_07", 24), ("dunavant_08", 25), ("dunavant_09", 26), ("dunavant_10", 27),
   ("rabinowitz_richter_1", 28), ("rabinowitz_richter_2", 29), ("rabinowitz_richter_3", 30),
   ("rabinowitz_richter_4", 31), ("rabinowitz_richter_5", 32), ("rabinowitz_richter_6", 33), ("franke_1", 34),
   ("franke_2a", 35), ("franke_2b", 36), ("franke_3a", 37), ("franke_3b", 38), ("franke_3c", 39), ("franke_5", 40),
   ("franke_6", 41), ("franke_7", 42), ("franke_8", 43), ("haegemans_piessens", 44), ("hammer_stroud_1_2", 45),
   ("hammer_stroud_2_2", 46), ("hammer_stroud_3_2", 47), ("irwin_1", 48), ("irwin_2", 49), ("maxwell", 50),
   ("meister", 51), ("miller", 52), ("morrow_patterson_1", 53), ("morrow_patterson_2", 54), ("phillips", 55),
   ("piessens_haegemans_1", 56), ("piessens_haegemans_2", 57), ("schmid_2", 58), ("schmid_4", 59), ("schmid_6", 60),
   ("sommariva_01", 61), ("sommariva_02", 62), ("sommariva_03", 63), ("sommariva_04", 64), ("sommariva_05", 65),
   ("sommariva_06", 66), ("sommariva_07", 67), ("sommariva_08", 68), ("sommariva_09", 69), ("sommariva_10", 70),
   ("sommariva_11", 71), ("sommariva_12", 72), ("sommariva_13", 73), ("sommariva_14", 74), ("sommariva_15", 75),
   ("sommariva_16", 76), ("sommariva_17", 77), ("sommariva_18", 78), ("sommariva_19", 79), ("sommariva_20", 80),
   ("sommariva_21", 81), ("sommariva_22", 82), ("sommariva_23", 83), ("sommariva_24", 84), ("sommariva_25", 85),
   ("sommariva_26", 86), ("sommariva_27", 87), ("sommariva_28", 88), ("sommariva_29", 89), ("sommariva_30", 90),
   ("sommariva_31", 91), ("sommariva_32", 92), ("sommariva_33", 93), ("sommariva_34", 94), ("sommariva_35", 95),
   ("sommariva_36", 96), ("sommariva_37", 97), ("sommariva_38", 98), ("sommariva_39", 99), ("sommariva_40", 100),
   ("sommariva_41", 101), ("sommariva_42", 102), ("sommariva_43", 103), ("sommariva_44", 104), ("sommariva_45", 105),
   ("sommariva_46", 106), ("sommariva_47", 107), ("sommariva_48", 108), ("sommariva_49", 109), ("sommariva_50", 110),
   ("sommariva_51", 111), ("sommariva_52", 112), ("sommariva_53", 113), ("sommariva_54", 114), ("sommariva_55", 115),
   ("stroud_c2_1_1", 116), ("stroud_c2_1_2", 52), ("stroud_c2_3_1", 117), ("stroud_c2_3_2", 118),
   ("stroud_c2_3_3", 119), ("stroud_c2_3_4", 0), ("stroud_c2_3_5", 48), ("stroud_c2_5_1", 1), ("stroud_c2_5_2", 2),
   ("stroud_c2_5_3", 4), ("stroud_c2_5_4", 120), ("stroud_c2_5_5", 15), ("stroud_c2_5_6", 3), ("stroud_c2_5_7", 49),
   ("stroud_c2_7_1", 16), ("stroud_c2_7_2", 55), ("stroud_c2_7_3", 50), ("stroud_c2_7_4", 121), ("stroud_c2_7_5", 17),
   ("stroud_c2_7_6", 51), ("stroud_c2_9_1", 28), ("stroud_c2_11_1", 29), ("stroud_c2_11_2", 30),
   ("stroud_c2_13_1", 31), ("stroud_c2_15_1", 32), ("stroud_c2_15_2", 33), ("waldron", 122),
   ("wissmann_becker_4_1", 123), ("wissmann_becker_4_2", 124), ("wissmann_becker_6_1", 125),
   ("wissmann_becker_6_2", 126), ("wissmann_becker_8_1", 127), ("wissmann_becker_8_2", 128),
   ("witherden_vincent_01", 129), ("witherden_vincent_03", 130), ("witherden_vincent_05", 131),
   ("witherden_vincent_07", 132), ("witherden_vincent_09", 133), ("witherden_vincent_11", 134),
   ("witherden_vincent_13", 135), ("witherden_vincent_15", 136), ("witherden_vincent_17", 137),
   ("witherden_vincent_19", 138), ("witherden_vincent_21", 139)]

/-- The functions which are registered in c3. -/
def c3Fns : List Function :=
  [⟨"c3/_classical.py", "midpoint"⟩, ⟨"c3/_classical.py", "face_midpoint"⟩, ⟨"c3/_classical.py", "vertex"⟩,
   ⟨"c3/_hammer_stroud.py", "hammer_stroud_1_3"⟩, ⟨"c3/_hammer_stroud.py", "hammer_stroud_2_3"⟩,
   ⟨"c3/_hammer_stroud.py", "hammer_stroud_4_3"⟩, ⟨"c3/_hammer_stroud.py", "hammer_stroud_6_3"⟩,
   ⟨"c3/_hammer_stroud.py", "hammer_stroud_5_3a"⟩, ⟨"c3/_hammer_stroud.py", "hammer_stroud_5_3b"⟩,
   ⟨"c3/_hammer_wymore.py", "hammer_wymore"⟩, ⟨"c3/_mustard_lyness_blatt.py", "mustard_lyness_blatt_1"⟩,
   ⟨"c3/_mustard_lyness_blatt.py", "mustard_lyness_blatt_2"⟩,
   ⟨"c3/_mustard_lyness_blatt.py", "mustard_lyness_blatt_3"⟩,
   ⟨"c3/_mustard_lyness_blatt.py", "mustard_lyness_blatt_4"⟩,
   ⟨"c3/_mustard_lyness_blatt.py", "mustard_lyness_blatt_5"⟩,
   ⟨"c3/_mustard_lyness_blatt.py", "mustard_lyness_blatt_6"⟩,
   ⟨"c3/_mustard_lyness_blatt.py", "mustard_lyness_blatt_7"⟩, ⟨"c3/_sadowsky.py", "sadowsky"⟩,
   ⟨"c3/_albrecht_collatz.py", "albrecht_collatz"⟩, ⟨"c3/_sarma_stroud.py", "sarma_stroud"⟩,
   ⟨"c3/_stroud_1967.py", "stroud_1967"⟩, ⟨"c3/_tyler.py", "tyler_1"⟩, ⟨"c3/_tyler.py", "tyler_2"⟩,
   ⟨"c3/_stroud.py", "stroud_c3_3_2"⟩, ⟨"c3/_stroud.py", "stroud_c3_3_3"⟩,
   ⟨"c3/_witherden_vincent/__init__.py", "witherden_vincent_07"⟩,
   ⟨"c3/_witherden_vincent/__init__.py", "witherden_vincent_09"⟩,
   ⟨"c3/_witherden_vincent/__init__.py", "witherden_vincent_11"⟩]

/-- quadpy/c3/_classical.py:21-21, quadpy/c3/_hammer_stroud.py:88-97, quadpy/c3/_hammer_wymore.py:67-67,
quadpy/c3/_mustard_lyness_blatt.py:77-87, quadpy/c3/_sadowsky.py:29-29, quadpy/c3/_albrecht_collatz.py:27-27,
quadpy/c3/_sarma_stroud.py:27-27, quadpy/c3/_stroud_1967.py:46-46, quadpy/c3/_tyler.py:31-31,
quadpy/c3/_stroud.py:43-65, quadpy/c3/_witherden_vincent/__init__.py:117-126 -/
def c3Regs : List (String × ℕ) :=
  [("midpoint", 0), ("face_midpoint", 1), ("vertex", 2), ("hammer_stroud_1_3", 3), ("hammer_stroud_2_3", 4),
   ("hammer_stroud_4_3", 5), ("hammer_stroud_6_3", 6), ("hammer_stroud_5_3a", 7), ("hammer_stroud_5_3b", 8),
   ("hammer_wymore", 9), ("mustard_lyness_blatt_1", 10), ("mustard_lyness_blatt_2", 11),
   ("mustard_lyness_blatt_3", 12), ("mustard_lyness_blatt_4", 13), ("mustard_lyness_blatt_5", 14),
   ("mustard_lyness_blatt_6", 15), ("mustard_lyness_blatt_7", 16), ("sadowsky", 17), ("albrecht_collatz", 18),
   ("sarma_stroud", 19), ("stroud_1967", 20), ("tyler_1", 21), ("tyler_2", 22), ("stroud_c3_3_1", 21),
   ("stroud_c3_3_2", 23), ("stroud_c3_3_3", 24), ("stroud_c3_3_4", 10), ("stroud_c3_3_5", 11), ("stroud_c3_3_6", 18),
   ("stroud_c3_3_7", 12), ("stroud_c3_5_1", 20), ("stroud_c3_5_2", 4), ("stroud_c3_5_3", 22), ("stroud_c3_5_4", 13),
   ("stroud_c3_5_5", 14), ("stroud_c3_5_6", 15), ("stroud_c3_5_7", 16), ("stroud_c3_5_8", 17), ("stroud_c3_7_1a", 7),
   ("stroud_c3_7_1b", 8), ("stroud_c3_7_2", 9), ("stroud_c3_7_3", 19), ("witherden_vincent_01", 0),
   ("witherden_vincent_03", 1), ("witherden_vincent_05", 5), ("witherden_vincent_07", 25),
   ("witherden_vincent_09", 26), ("witherden_vincent_11", 27)]

/-- The functions which are registered in e2r. -/
def e2rFns : List Function :=
  [⟨"e2r/_cools_haegemans/__init__.py", "cools_haegemans_9_1"⟩,
   ⟨"e2r/_cools_haegemans/__init__.py", "cools_haegemans_9_2"⟩,
   ⟨"e2r/_cools_haegemans/__init__.py", "cools_haegemans_13_1"⟩,
   ⟨"e2r/_haegemans_piessens/__init__.py", "haegemans_piessens_a"⟩,
   ⟨"e2r/_haegemans_piessens/__init__.py", "haegemans_piessens_b"⟩,
   ⟨"e2r/_rabinowitz_richter/__init__.py", "rabinowitz_richter_1"⟩,
   ⟨"e2r/_rabinowitz_richter/__init__.py", "rabinowitz_richter_2"⟩,
   ⟨"e2r/_rabinowitz_richter/__init__.py", "rabinowitz_richter_3"⟩,
   ⟨"e2r/_rabinowitz_richter/__init__.py", "rabinowitz_richter_5"⟩, ⟨"e2r/_stroud_secrest.py", "stroud_secrest_5"⟩,
   ⟨"e2r/_stroud_secrest.py", "stroud_secrest_6"⟩, ⟨"e2r/_stroud.py", "stroud_4_1"⟩]

/-- quadpy/e2r/_cools_haegemans/__init__.py:30-30, quadpy/e2r/_haegemans_piessens/__init__.py:29-29,
quadpy/e2r/_rabinowitz_richter/__init__.py:47-55, quadpy/e2r/_stroud_secrest.py:46-46, quadpy/e2r/_stroud.py:31-41 -/
def e2rRegs : List (String × ℕ) :=
  [("cools_haegemans_9_1", 0), ("cools_haegemans_9_2", 1), ("cools_haegemans_13_1", 2), ("haegemans_piessens_a", 3),
   ("haegemans_piessens_b", 4), ("rabinowitz_richter_1", 5), ("rabinowitz_richter_2", 6), ("rabinowitz_richter_3", 7),
   ("rabinowitz_richter_5", 8), ("stroud_secrest_5", 9), ("stroud_secrest_6", 10), ("stroud_4_1", 11),
   ("stroud_5_1", 9), ("stroud_7_1", 10), ("stroud_9_1", 5), ("stroud_11_1", 6), ("stroud_11_2", 7),
   ("stroud_15_1", 8)]

/-- The functions which are registered in e2r2. -/
def e2r2Fns : List Function :=
  [⟨"e2r2/_cools_haegemans/__init__.py", "cools_haegemans_9_1"⟩,
   ⟨"e2r2/_cools_haegemans/__init__.py", "cools_haegemans_9_2"⟩,
   ⟨"e2r2/_cools_haegemans/__init__.py", "cools_haegemans_13_1"⟩,
   ⟨"e2r2/_haegemans_piessens/__init__.py", "haegemans_piessens_a"⟩,
   ⟨"e2r2/_haegemans_piessens/__init__.py", "haegemans_piessens_b"⟩,
   ⟨"e2r2/_rabinowitz_richter/__init__.py", "rabinowitz_richter_1"⟩,
   ⟨"e2r2/_rabinowitz_richter/__init__.py", "rabinowitz_richter_2"⟩,
   ⟨"e2r2/_rabinowitz_richter/__init__.py", "rabinowitz_richter_3"⟩,
   ⟨"e2r2/_rabinowitz_richter/__init__.py", "rabinowitz_richter_4"⟩,
   ⟨"e2r2/_rabinowitz_richter/__init__.py", "rabinowitz_richter_5"⟩, ⟨"e2r2/_stroud_secrest.py", "stroud_secrest_5"⟩,
   ⟨"e2r2/_stroud_secrest.py", "stroud_secrest_6"⟩, ⟨"e2r2/_stroud.py", "stroud_4_1"⟩,
   ⟨"e2r2/_stroud.py", "stroud_5_2"⟩, ⟨"e2r2/_stroud.py", "stroud_7_2"⟩]

/-- quadpy/e2r2/_cools_haegemans/__init__.py:30-30, quadpy/e2r2/_haegemans_piessens/__init__.py:29-29,
quadpy/e2r2/_rabinowitz_richter/__init__.py:41-49, quadpy/e2r2/_stroud_secrest.py:40-40, quadpy/e2r2/_stroud.py:57-70
-/
def e2r2Regs : List (String × ℕ) :=
  [("cools_haegemans_9_1", 0), ("cools_haegemans_9_2", 1), ("cools_haegemans_13_1", 2), ("haegemans_piessens_a", 3),
   ("haegemans_piessens_b", 4), ("rabinowitz_richter_1", 5), ("rabinowitz_richter_2", 6), ("rabinowitz_richter_3", 7),
   ("rabinowitz_richter_4", 8), ("rabinowitz_richter_5", 9), ("stroud_secrest_5", 10), ("stroud_secrest_6", 11),
   ("stroud_4_1", 12), ("stroud_5_1", 10), ("stroud_5_2", 13), ("stroud_7_1", 11), ("stroud_7_2", 14),
   ("stroud_9_1", 5), ("stroud_11_1", 6), ("stroud_11_2", 7), ("stroud_13_1", 8), ("stroud_15_1", 9)]

/-- The functions which are registered in e3r. -/
def e3rFns : List Function :=
  [⟨"e3r/_stroud_secrest.py", "stroud_secrest_07"⟩, ⟨"e3r/_stroud_secrest.py", "stroud_secrest_08"⟩,
   ⟨"e3r/_stroud_secrest.py", "stroud_secrest_09"⟩, ⟨"e3r/_stroud_secrest.py", "stroud_secrest_10"⟩,
   ⟨"e3r/_stroud_secrest.py", "stroud_secrest_11"⟩]

/-- quadpy/e3r/_stroud_secrest.py:105-113 -/
def e3rRegs : List (String × ℕ) :=
  [("stroud_secrest_07", 0), ("stroud_secrest_08", 1), ("stroud_secrest_09", 2), ("stroud_secrest_10", 3),
   ("stroud_secrest_11", 4)]

/-- The functions which are registered in e3r2. -/
def e3r2Fns : List Function :=
  [⟨"e3r2/_stroud_secrest.py", "stroud_secrest_07"⟩, ⟨"e3r2/_stroud_secrest.py", "stroud_secrest_09"⟩,
   ⟨"e3r2/_stroud_secrest.py", "stroud_secrest_08a"⟩, ⟨"e3r2/_stroud_secrest.py", "stroud_secrest_08b"⟩,
   ⟨"e3r2/_stroud_secrest.py", "stroud_secrest_10a"⟩, ⟨"e3r2/_stroud_secrest.py", "stroud_secrest_10b"⟩,
   ⟨"e3r2/_stroud_secrest.py", "stroud_secrest_11a"⟩, ⟨"e3r2/_stroud_secrest.py", "stroud_secrest_11b"⟩,
   ⟨"e3r2/_stroud.py", "stroud_e3r2_14_1"⟩]

/-- quadpy/e3r2/_stroud_secrest.py:130-141, quadpy/e3r2/_stroud.py:77-89 -/
def e3r2Regs : List (String × ℕ) :=
  [("stroud_secrest_07", 0), ("stroud_secrest_09", 1), ("stroud_secrest_08a", 2), ("stroud_secrest_08b", 3),
   ("stroud_secrest_10a", 4), ("stroud_secrest_10b", 5), ("stroud_secrest_11a", 6), ("stroud_secrest_11b", 7),
   ("stroud_e3r2_5_1", 0), ("stroud_e3r2_5_2a", 2), ("stroud_e3r2_5_2b", 3), ("stroud_e3r2_5_3", 1),
   ("stroud_e3r2_7_1a", 4), ("stroud_e3r2_7_1b", 5), ("stroud_e3r2_7_2a", 6), ("stroud_e3r2_7_2b", 7),
   ("stroud_e3r2_14_1", 8)]

/-- The functions which are registered in s2. -/
def s2Fns : List Function :=
  [⟨"s2/_albrecht.py", "albrecht_1"⟩, ⟨"s2/_albrecht.py", "albrecht_2"⟩, ⟨"s2/_albrecht.py", "albrecht_3"⟩,
   ⟨"s2/_albrecht.py", "albrecht_4"⟩, ⟨"s2/_albrecht.py", "albrecht_5"⟩, ⟨"s2/_albrecht.py", "albrecht_6"⟩,
   ⟨"s2/_albrecht.py", "albrecht_7"⟩, ⟨"s2/_albrecht.py", "albrecht_8"⟩,
   ⟨"s2/_albrecht_collatz.py", "albrecht_collatz"⟩, ⟨"s2/_classical.py", "midpoint"⟩,
   ⟨"s2/_cools_haegemans/__init__.py", "cools_haegemans_5_1"⟩,
   ⟨"s2/_cools_haegemans/__init__.py", "cools_haegemans_9_1"⟩,
   ⟨"s2/_cools_haegemans/__init__.py", "cools_haegemans_9_2"⟩,
   ⟨"s2/_cools_haegemans/__init__.py", "cools_haegemans_13_1"⟩, ⟨"s2/_cools_kim/__init__.py", "cools_kim_1"⟩,
   ⟨"s2/_cools_kim/__init__.py", "cools_kim_2"⟩, ⟨"s2/_cools_kim/__init__.py", "cools_kim_3"⟩,
   ⟨"s2/_haegemans_piessens/__init__.py", "haegemans_piessens"⟩, ⟨"s2/_peirce_1956.py", "peirce_1956_1"⟩,
   ⟨"s2/_peirce_1956.py", "peirce_1956_2"⟩, ⟨"s2/_peirce_1956.py", "peirce_1956_3"⟩, ⟨"s2/_radon.py", "radon"⟩,
   ⟨"s2/_hammer_stroud.py", "hammer_stroud_12_2"⟩, ⟨"s2/_hammer_stroud.py", "hammer_stroud_13_2"⟩,
   ⟨"s2/_hammer_stroud.py", "hammer_stroud_17"⟩, ⟨"s2/_hammer_stroud.py", "hammer_stroud_18"⟩,
   ⟨"s2/_hammer_stroud.py", "hammer_stroud_19"⟩, ⟨"s2/_hammer_stroud.py", "hammer_stroud_20"⟩,
   ⟨"s2/_hammer_stroud.py", "hammer_stroud_21"⟩, ⟨"s2/_kim_song/__init__.py", "kim_song_1"⟩,
   ⟨"s2/_kim_song/__init__.py", "kim_song_2"⟩, ⟨"s2/_kim_song/__init__.py", "kim_song_3"⟩,
   ⟨"s2/_kim_song/__init__.py", "kim_song_4"⟩, ⟨"s2/_kim_song/__init__.py", "kim_song_5"⟩,
   ⟨"s2/_kim_song/__init__.py", "kim_song_6"⟩, ⟨"s2/_kim_song/__init__.py", "kim_song_7"⟩,
   ⟨"s2/_kim_song/__init__.py", "kim_song_8"⟩, ⟨"s2/_kim_song/__init__.py", "kim_song_9"⟩,
   ⟨"s2/_kim_song/__init__.py", "kim_song_10"⟩, ⟨"s2/_kim_song/__init__.py", "kim_song_11"⟩,
   ⟨"s2/_kim_song/__init__.py", "kim_song_12"⟩, ⟨"s2/_kim_song/__init__.py", "kim_song_13"⟩,
   ⟨"s2/_kim_song/__init__.py", "kim_song_14"⟩, ⟨"s2/_kim_song/__init__.py", "kim_song_15"⟩,
   ⟨"s2/_lether.py", "lether"⟩, ⟨"s2/_luo_meng/__init__.py", "luo_meng_1"⟩,
   ⟨"s2/_luo_meng/__init__.py", "luo_meng_2"⟩, ⟨"s2/_luo_meng/__init__.py", "luo_meng_3"⟩,
   ⟨"s2/_luo_meng/__init__.py", "luo_meng_4"⟩, ⟨"s2/_luo_meng/__init__.py", "luo_meng_5"⟩,
   ⟨"s2/_luo_meng/__init__.py", "luo_meng_6"⟩, ⟨"s2/_mysovskih.py", "mysovskih_1"⟩,
   ⟨"s2/_mysovskih.py", "mysovskih_2"⟩, ⟨"s2/_mysovskih.py", "mysovskih_3"⟩, ⟨"s2/_peirce_1957.py", "peirce_1957"⟩,
   ⟨"s2/_piessens_haegemans/__init__.py", "piessens_haegemans"⟩,
   ⟨"s2/_rabinowitz_richter/__init__.py", "rabinowitz_richter_1"⟩,
   ⟨"s2/_rabinowitz_richter/__init__.py", "rabinowitz_richter_2"⟩,
   ⟨"s2/_rabinowitz_richter/__init__.py", "rabinowitz_richter_3"⟩,
   ⟨"s2/_rabinowitz_richter/__init__.py", "rabinowitz_richter_4"⟩,
   ⟨"s2/_rabinowitz_richter/__init__.py", "rabinowitz_richter_5"⟩,
   ⟨"s2/_rabinowitz_richter/__init__.py", "rabinowitz_richter_6"⟩, ⟨"s2/_stroud.py", "stroud_s2_5_1"⟩,
   ⟨"s2/_stroud.py", "stroud_s2_9_3"⟩, ⟨"s2/_wissmann_becker.py", "wissmann_becker_6_1"⟩,
   ⟨"s2/_wissmann_becker.py", "wissmann_becker_6_2"⟩, ⟨"s2/_wissmann_becker.py", "wissmann_becker_8_1"⟩]

/-- quadpy/s2/_albrecht.py:163-174, quadpy/s2/_albrecht_collatz.py:27-27, quadpy/s2/_classical.py:9-9,
quadpy/s2/_cools_haegemans/__init__.py:34-41, quadpy/s2/_cools_kim/__init__.py:33-33,
quadpy/s2/_haegemans_piessens/__init__.py:25-25, quadpy/s2/_peirce_1956.py:85-85, quadpy/s2/_radon.py:40-40,
quadpy/s2/_hammer_stroud.py:120-131, quadpy/s2/_kim_song/__init__.py:81-99, quadpy/s2/_lether.py:35-35,
quadpy/s2/_luo_meng/__init__.py:48-48, quadpy/s2/_mysovskih.py:89-89, quadpy/s2/_peirce_1957.py:36-36,
quadpy/s2/_piessens_haegemans/__init__.py:25-25, quadpy/s2/_rabinowitz_richter/__init__.py:48-57,
quadpy/s2/_stroud.py:63-87, quadpy/s2/_wissmann_becker.py:81-81 -/
def s2Regs : List (String × ℕ) :=
  [("albrecht_1", 0), ("albrecht_2", 1), ("albrecht_3", 2), ("albrecht_4", 3), ("albrecht_5", 4), ("albrecht_6", 5),
   ("albrecht_7", 6), ("albrecht_8", 7), ("albrecht_collatz", 8), ("midpoint", 9), ("cools_haegemans_5_1", 10),
   ("cools_haegemans_9_1", 11), ("cools_haegemans_9_2", 12), ("cools_haegemans_13_1", 13), ("cools_kim_1", 14),
   ("cools_kim_2", 15), ("cools_kim_3", 16), ("haegemans_piessens", 17), ("peirce_1956_1", 18), ("peirce_1956_2", 19),
   ("peirce_1956_3", 20), ("radon", 21), ("hammer_stroud_11_2", 8), ("hammer_stroud_12_2", 22),
   ("hammer_stroud_13_2", 23), ("hammer_stroud_17", 24), ("hammer_stroud_18", 25), ("hammer_stroud_19", 26),
   ("hammer_stroud_20", 27), ("hammer_stroud_21", 28), ("kim_song_1", 29), ("kim_song_2", 30), ("kim_song_3", 31),
   ("kim_song_4", 32), ("kim_song_5", 33), ("kim_song_6", 34), ("kim_song_7", 35), ("kim_song_8", 36),
   ("kim_song_9", 37), ("kim_song_10", 38), ("kim_song_11", 39), ("kim_song_12", 40), ("kim_song_13", 41),
   ("kim_song_14", 42), ("kim_song_15", 43), ("lether", 44), ("luo_meng_1", 45), ("luo_meng_2", 46),
   ("luo_meng_3", 47), ("luo_meng_4", 48), ("luo_meng_5", 49), ("luo_meng_6", 50), ("mysovskih_1", 51),
   ("mysovskih_2", 52), ("mysovskih_3", 53), ("peirce_1957", 54), ("piessens_haegemans", 55),
   ("rabinowitz_richter_1", 56), ("rabinowitz_richter_2", 57), ("rabinowitz_richter_3", 58),
   ("rabinowitz_richter_4", 59), ("rabinowitz_richter_5", 60), ("rabinowitz_richter_6", 61), ("stroud_s2_3_1", 8),
   ("stroud_s2_3_2", 8), ("stroud_s2_4_1", 51), ("stroud_s2_5_1", 62), ("stroud_s2_5_2", 22), ("stroud_s2_7_1", 18),
   ("stroud_s2_7_2", 25), ("stroud_s2_9_1", 3), ("stroud_s2_9_2", 56), ("stroud_s2_9_3", 63), ("stroud_s2_9_4", 57),
   ("stroud_s2_9_5", 19), ("stroud_s2_11_1", 52), ("stroud_s2_11_2", 4), ("stroud_s2_11_3", 59),
   ("stroud_s2_11_4", 20), ("stroud_s2_13_1", 60), ("stroud_s2_13_2", 5), ("stroud_s2_15_1", 53),
   ("stroud_s2_15_2", 6), ("stroud_s2_17_1", 7), ("wissmann_becker_6_1", 64), ("wissmann_becker_6_2", 65),
   ("wissmann_becker_8_1", 66)]

/-- The functions which are registered in s3. -/
def s3Fns : List Function :=
  [⟨"s3/_classical.py", "midpoint"⟩, ⟨"s3/_ditkin.py", "ditkin_1"⟩, ⟨"s3/_ditkin.py", "ditkin_2"⟩,
   ⟨"s3/_ditkin.py", "ditkin_3"⟩, ⟨"s3/_hammer_stroud.py", "hammer_stroud_11_3"⟩,
   ⟨"s3/_hammer_stroud.py", "hammer_stroud_12_3"⟩, ⟨"s3/_hammer_stroud.py", "hammer_stroud_14_3"⟩,
   ⟨"s3/_hammer_stroud.py", "hammer_stroud_15_3a"⟩, ⟨"s3/_hammer_stroud.py", "hammer_stroud_15_3b"⟩,
   ⟨"s3/_mysovskih.py", "mysovskih"⟩, ⟨"s3/_stroud.py", "stroud_7_4"⟩, ⟨"s3/_stroud.py", "stroud_14_1"⟩]

/-- quadpy/s3/_classical.py:9-9, quadpy/s3/_ditkin.py:64-64, quadpy/s3/_hammer_stroud.py:85-93,
quadpy/s3/_mysovskih.py:40-40, quadpy/s3/_stroud.py:146-158 -/
def s3Regs : List (String × ℕ) :=
  [("midpoint", 0), ("ditkin_1", 1), ("ditkin_2", 2), ("ditkin_3", 3), ("hammer_stroud_11_3", 4),
   ("hammer_stroud_12_3", 5), ("hammer_stroud_14_3", 6), ("hammer_stroud_15_3a", 7), ("hammer_stroud_15_3b", 8),
   ("mysovskih", 9), ("stroud_3_1", 4), ("stroud_5_1", 1), ("stroud_5_2", 2), ("stroud_7_1a", 7), ("stroud_7_1b", 8),
   ("stroud_7_2", 9), ("stroud_7_3", 3), ("stroud_7_4", 10), ("stroud_14_1", 11)]

/-- The functions which are registered in t2. -/
def t2Fns : List Function :=
  [⟨"t2/_albrecht_collatz.py", "albrecht_collatz"⟩, ⟨"t2/_berntsen_espelid/__init__.py", "dcutri"⟩,
   ⟨"t2/_berntsen_espelid/__init__.py", "berntsen_espelid_1"⟩,
   ⟨"t2/_berntsen_espelid/__init__.py", "berntsen_espelid_2"⟩,
   ⟨"t2/_berntsen_espelid/__init__.py", "berntsen_espelid_3"⟩,
   ⟨"t2/_berntsen_espelid/__init__.py", "berntsen_espelid_4"⟩, ⟨"t2/_classical.py", "centroid"⟩,
   ⟨"t2/_classical.py", "vertex"⟩, ⟨"t2/_classical.py", "seven_point"⟩,
   ⟨"t2/_cools_haegemans/__init__.py", "cools_haegemans_1"⟩, ⟨"t2/_cubtri/__init__.py", "cubtri"⟩,
   ⟨"t2/_dunavant/__init__.py", "dunavant_01"⟩, ⟨"t2/_dunavant/__init__.py", "dunavant_02"⟩,
   ⟨"t2/_dunavant/__init__.py", "dunavant_03"⟩, ⟨"t2/_dunavant/__init__.py", "dunavant_04"⟩,
   ⟨"t2/_dunavant/__init__.py", "dunavant_05"⟩, ⟨"t2/_dunavant/__init__.py", "dunavant_06"⟩,
   ⟨"t2/_dunavant/__init__.py", "dunavant_07"⟩, ⟨"t2/_dunavant/__init__.py", "dunavant_08"⟩,
   ⟨"t2/_dunavant/__init__.py", "dunavant_09"⟩, ⟨"t2/_dunavant/__init__.py", "dunavant_10"⟩,
   ⟨"t2/_dunavant/__init__.py", "dunavant_11"⟩, ⟨"t2/_dunavant/__init__.py", "dunavant_12"⟩,
   ⟨"t2/_dunavant/__init__.py", "dunavant_13"⟩, ⟨"t2/_dunavant/__init__.py", "dunavant_14"⟩,
   ⟨"t2/_dunavant/__init__.py", "dunavant_15"⟩, ⟨"t2/_dunavant/__init__.py", "dunavant_16"⟩,
   ⟨"t2/_dunavant/__init__.py", "dunavant_17"⟩, ⟨"t2/_dunavant/__init__.py", "dunavant_18"⟩,
   ⟨"t2/_dunavant/__init__.py", "dunavant_19"⟩, ⟨"t2/_dunavant/__init__.py", "dunavant_20"⟩,
   ⟨"t2/_franke.py", "franke_09"⟩, ⟨"t2/_franke.py", "franke_10"⟩, ⟨"t2/_gatermann/__init__.py", "gatermann"⟩,
   ⟨"t2/_griener_schmid/__init__.py", "griener_schmid_1"⟩, ⟨"t2/_griener_schmid/__init__.py", "griener_schmid_2"⟩,
   ⟨"t2/_hammer_marlowe_stroud.py", "hammer_marlowe_stroud_1"⟩,
   ⟨"t2/_hammer_marlowe_stroud.py", "hammer_marlowe_stroud_2"⟩,
   ⟨"t2/_hammer_marlowe_stroud.py", "hammer_marlowe_stroud_3"⟩,
   ⟨"t2/_hammer_marlowe_stroud.py", "hammer_marlowe_stroud_4"⟩,
   ⟨"t2/_hammer_marlowe_stroud.py", "hammer_marlowe_stroud_5"⟩, ⟨"t2/_hillion.py", "hillion_01"⟩,
   ⟨"t2/_hillion.py", "hillion_02"⟩, ⟨"t2/_hillion.py", "hillion_03"⟩, ⟨"t2/_hillion.py", "hillion_04"⟩,
   ⟨"t2/_hillion.py", "hillion_05"⟩, ⟨"t2/_hillion.py", "hillion_06"⟩, ⟨"t2/_hillion.py", "hillion_07"⟩,
   ⟨"t2/_hillion.py", "hillion_08"⟩, ⟨"t2/_hillion.py", "hillion_09"⟩, ⟨"t2/_hillion.py", "hillion_10"⟩,
   ⟨"t2/_strang_fix_cowper/__init__.py", "strang_fix_cowper_01"⟩,
   ⟨"t2/_strang_fix_cowper/__init__.py", "strang_fix_cowper_03"⟩,
   ⟨"t2/_strang_fix_cowper/__init__.py", "strang_fix_cowper_04"⟩,
   ⟨"t2/_strang_fix_cowper/__init__.py", "strang_fix_cowper_05"⟩,
   ⟨"t2/_strang_fix_cowper/__init__.py", "strang_fix_cowper_06"⟩,
   ⟨"t2/_strang_fix_cowper/__init__.py", "strang_fix_cowper_07"⟩,
   ⟨"t2/_strang_fix_cowper/__init__.py", "strang_fix_cowper_08"⟩,
   ⟨"t2/_strang_fix_cowper/__init__.py", "strang_fix_cowper_09"⟩,
   ⟨"t2/_strang_fix_cowper/__init__.py", "strang_fix_cowper_10"⟩,
   ⟨"t2/_laursen_gellert/__init__.py", "laursen_gellert_02a"⟩,
   ⟨"t2/_laursen_gellert/__init__.py", "laursen_gellert_02b"⟩,
   ⟨"t2/_laursen_gellert/__init__.py", "laursen_gellert_06"⟩,
   ⟨"t2/_laursen_gellert/__init__.py", "laursen_gellert_07"⟩,
   ⟨"t2/_laursen_gellert/__init__.py", "laursen_gellert_08"⟩,
   ⟨"t2/_laursen_gellert/__init__.py", "laursen_gellert_09"⟩,
   ⟨"t2/_laursen_gellert/__init__.py", "laursen_gellert_10"⟩,
   ⟨"t2/_laursen_gellert/__init__.py", "laursen_gellert_11"⟩,
   ⟨"t2/_laursen_gellert/__init__.py", "laursen_gellert_12"⟩,
   ⟨"t2/_laursen_gellert/__init__.py", "laursen_gellert_13"⟩,
   ⟨"t2/_laursen_gellert/__init__.py", "laursen_gellert_14"⟩,
   ⟨"t2/_laursen_gellert/__init__.py", "laursen_gellert_15a"⟩,
   ⟨"t2/_laursen_gellert/__init__.py", "laursen_gellert_15b"⟩, ⟨"t2/_lether.py", "lether"⟩,
   ⟨"t2/_liu_vinokur.py", "liu_vinokur_03"⟩, ⟨"t2/_liu_vinokur.py", "liu_vinokur_04"⟩,
   ⟨"t2/_liu_vinokur.py", "liu_vinokur_05"⟩, ⟨"t2/_liu_vinokur.py", "liu_vinokur_06"⟩,
   ⟨"t2/_liu_vinokur.py", "liu_vinokur_08"⟩, ⟨"t2/_liu_vinokur.py", "liu_vinokur_09"⟩,
   ⟨"t2/_liu_vinokur.py", "liu_vinokur_10"⟩, ⟨"t2/_liu_vinokur.py", "liu_vinokur_11"⟩,
   ⟨"t2/_liu_vinokur.py", "liu_vinokur_12"⟩, ⟨"t2/_liu_vinokur.py", "liu_vinokur_13"⟩,
   ⟨"t2/_lyness_jespersen.py", "lyness_jespersen_01"⟩, ⟨"t2/_lyness_jespersen.py", "lyness_jespersen_02"⟩,
   ⟨"t2/_lyness_jespersen.py", "lyness_jespersen_03"⟩, ⟨"t2/_lyness_jespersen.py", "lyness_jespersen_05"⟩,
   ⟨"t2/_lyness_jespersen.py", "lyness_jespersen_06"⟩, ⟨"t2/_lyness_jespersen.py", "lyness_jespersen_07"⟩,
   ⟨"t2/_lyness_jespersen.py", "lyness_jespersen_08"⟩, ⟨"t2/_lyness_jespersen.py", "lyness_jespersen_09"⟩,
   ⟨"t2/_lyness_jespersen.py", "lyness_jespersen_11"⟩, ⟨"t2/_lyness_jespersen.py", "lyness_jespersen_12"⟩,
   ⟨"t2/_lyness_jespersen.py", "lyness_jespersen_13"⟩, ⟨"t2/_lyness_jespersen.py", "lyness_jespersen_14"⟩,
   ⟨"t2/_lyness_jespersen.py", "lyness_jespersen_15"⟩, ⟨"t2/_lyness_jespersen.py", "lyness_jespersen_16"⟩,
   ⟨"t2/_lyness_jespersen.py", "lyness_jespersen_17"⟩, ⟨"t2/_lyness_jespersen.py", "lyness_jespersen_18"⟩,
   ⟨"t2/_lyness_jespersen.py", "lyness_jespersen_19"⟩, ⟨"t2/_lyness_jespersen.py", "lyness_jespersen_20"⟩,
   ⟨"t2/_lyness_jespersen.py", "lyness_jespersen_21"⟩, ⟨"t2/_papanicolopulos/__init__.py", "papanicolopulos_sym_0"⟩,
   ⟨"t2/_papanicolopulos/__init__.py", "papanicolopulos_sym_1"⟩,
   ⟨"t2/_papanicolopulos/__init__.py", "papanicolopulos_sym_2"⟩,
   ⟨"t2/_papanicolopulos/__init__.py", "papanicolopulos_sym_3"⟩,
   ⟨"t2/_papanicolopulos/__init__.py", "papanicolopulos_sym_4"⟩,
   ⟨"t2/_papanicolopulos/__init__.py", "papanicolopulos_sym_5"⟩,
   ⟨"t2/_papanicolopulos/__init__.py", "papanicolopulos_sym_6"⟩,
   ⟨"t2/_papanicolopulos/__init__.py", "papanicolopulos_sym_7"⟩,
   ⟨"t2/_papanicolopulos/__init__.py", "papanicolopulos_sym_8"⟩,
   ⟨"t2/_papanicolopulos/__init__.py", "papanicolopulos_rot_08"⟩,
   ⟨"t2/_papanicolopulos/__init__.py", "papanicolopulos_rot_09"⟩,
   ⟨"t2/_papanicolopulos/__init__.py", "papanicolopulos_rot_10"⟩,
   ⟨"t2/_papanicolopulos/__init__.py", "papanicolopulos_rot_11"⟩,
   ⟨"t2/_papanicolopulos/__init__.py", "papanicolopulos_rot_12"⟩,
   ⟨"t2/_papanicolopulos/__init__.py", "papanicolopulos_rot_13"⟩,
   ⟨"t2/_papanicolopulos/__init__.py", "papanicolopulos_rot_14"⟩,
   ⟨"t2/_papanicolopulos/__init__.py", "papanicolopulos_rot_15"⟩,
   ⟨"t2/_papanicolopulos/__init__.py", "papanicolopulos_rot_16"⟩,
   ⟨"t2/_papanicolopulos/__init__.py", "papanicolopulos_rot_17"⟩, ⟨"t2/_stroud.py", "stroud_t2_7_1"⟩,
   ⟨"t2/_taylor_wingate_bos/__init__.py", "taylor_wingate_bos_1"⟩,
   ⟨"t2/_taylor_wingate_bos/__init__.py", "taylor_wingate_bos_2"⟩,
   ⟨"t2/_taylor_wingate_bos/__init__.py", "taylor_wingate_bos_4"⟩,
   ⟨"t2/_taylor_wingate_bos/__init__.py", "taylor_wingate_bos_5"⟩,
   ⟨"t2/_taylor_wingate_bos/__init__.py", "taylor_wingate_bos_8"⟩,
   ⟨"t2/_vioreanu_rokhlin/__init__.py", "vioreanu_rokhlin_00"⟩,
   ⟨"t2/_vioreanu_rokhlin/__init__.py", "vioreanu_rokhlin_01"⟩,
   ⟨"t2/_vioreanu_rokhlin/__init__.py", "vioreanu_rokhlin_02"⟩,
   ⟨"t2/_vioreanu_rokhlin/__init__.py", "vioreanu_rokhlin_03"⟩,
   ⟨"t2/_vioreanu_rokhlin/__init__.py", "vioreanu_rokhlin_04"⟩,
   ⟨"t2/_vioreanu_rokhlin/__init__.py", "vioreanu_rokhlin_05"⟩,
   ⟨"t2/_vioreanu_rokhlin/__init__.py", "vioreanu_rokhlin_06"⟩,
   ⟨"t2/_vioreanu_rokhlin/__init__.py", "vioreanu_rokhlin_07"⟩,
   ⟨"t2/_vioreanu_rokhlin/__init__.py", "vioreanu_rokhlin_08"⟩,
   ⟨"t2/_vioreanu_rokhlin/__init__.py", "vioreanu_rokhlin_09"⟩,
   ⟨"t2/_vioreanu_rokhlin/__init__.py", "vioreanu_rokhlin_10"⟩,
   ⟨"t2/_vioreanu_rokhlin/__init__.py", "vioreanu_rokhlin_11"⟩,
   ⟨"t2/_vioreanu_rokhlin/__init__.py", "vioreanu_rokhlin_12"⟩,
   ⟨"t2/_vioreanu_rokhlin/__init__.py", "vioreanu_rokhlin_13"⟩,
   ⟨"t2/_vioreanu_rokhlin/__init__.py", "vioreanu_rokhlin_14"⟩,
   ⟨"t2/_vioreanu_rokhlin/__init__.py", "vioreanu_rokhlin_15"⟩,
   ⟨"t2/_vioreanu_rokhlin/__init__.py", "vioreanu_rokhlin_16"⟩,
   ⟨"t2/_vioreanu_rokhlin/__init__.py", "vioreanu_rokhlin_17"⟩,
   ⟨"t2/_vioreanu_rokhlin/__init__.py", "vioreanu_rokhlin_18"⟩,
   ⟨"t2/_vioreanu_rokhlin/__init__.py", "vioreanu_rokhlin_19"⟩, ⟨"t2/_walkington.py", "walkington_p5"⟩,
   ⟨"t2/_wandzura_xiao/__init__.py", "wandzura_xiao_1"⟩, ⟨"t2/_wandzura_xiao/__init__.py", "wandzura_xiao_2"⟩,
   ⟨"t2/_wandzura_xiao/__init__.py", "wandzura_xiao_3"⟩, ⟨"t2/_wandzura_xiao/__init__.py", "wandzura_xiao_4"⟩,
   ⟨"t2/_wandzura_xiao/__init__.py", "wandzura_xiao_5"⟩, ⟨"t2/_wandzura_xiao/__init__.py", "wandzura_xiao_6"⟩,
   ⟨"t2/_williams_shunn_jameson/__init__.py", "williams_shunn_jameson_1"⟩,
   ⟨"t2/_williams_shunn_jameson/__init__.py", "williams_shunn_jameson_2"⟩,
   ⟨"t2/_williams_shunn_jameson/__init__.py", "williams_shunn_jameson_3"⟩,
   ⟨"t2/_williams_shunn_jameson/__init__.py", "williams_shunn_jameson_4"⟩,
   ⟨"t2/_williams_shunn_jameson/__init__.py", "williams_shunn_jameson_5"⟩,
   ⟨"t2/_williams_shunn_jameson/__init__.py", "williams_shunn_jameson_6"⟩,
   ⟨"t2/_williams_shunn_jameson/__init__.py", "williams_shunn_jameson_7"⟩,
   ⟨"t2/_williams_shunn_jameson/__init__.py", "williams_shunn_jameson_8"⟩,
   ⟨"t2/_witherden_vincent/__init__.py", "witherden_vincent_01"⟩,
   ⟨"t2/_witherden_vincent/__init__.py", "witherden_vincent_02"⟩,
   ⟨"t2/_witherden_vincent/__init__.py", "witherden_vincent_04"⟩,
   ⟨"t2/_witherden_vincent/__init__.py", "witherden_vincent_05"⟩,
   ⟨"t2/_witherden_vincent/__init__.py", "witherden_vincent_06"⟩,
   ⟨"t2/_witherden_vincent/__init__.py", "witherden_vincent_07"⟩,
   ⟨"t2/_witherden_vincent/__init__.py", "witherden_vincent_08"⟩,
   ⟨"t2/_witherden_vincent/__init__.py", "witherden_vincent_09"⟩,
   ⟨"t2/_witherden_vincent/__init__.py", "witherden_vincent_10"⟩,
   ⟨"t2/_witherden_vincent/__init__.py", "witherden_vincent_11"⟩,
   ⟨"t2/_witherden_vincent/__init__.py", "witherden_vincent_12"⟩,
   ⟨"t2/_witherden_vincent/__init__.py", "witherden_vincent_13"⟩,
   ⟨"t2/_witherden_vincent/__init__.py", "witherden_vincent_14"⟩,
   ⟨"t2/_witherden_vincent/__init__.py", "witherden_vincent_15"⟩,
   ⟨"t2/_witherden_vincent/__init__.py", "witherden_vincent_16"⟩,
   ⟨"t2/_witherden_vincent/__init__.py", "witherden_vincent_17"⟩,
   ⟨"t2/_witherden_vincent/__init__.py", "witherden_vincent_18"⟩,
   ⟨"t2/_witherden_vincent/__init__.py", "witherden_vincent_19"⟩,
   ⟨"t2/_witherden_vincent/__init__.py", "witherden_vincent_20"⟩,
   ⟨"t2/_xiao_gimbutas/__init__.py", "xiao_gimbutas_01"⟩, ⟨"t2/_xiao_gimbutas/__init__.py", "xiao_gimbutas_02"⟩,
   ⟨"t2/_xiao_gimbutas/__init__.py", "xiao_gimbutas_03"⟩, ⟨"t2/_xiao_gimbutas/__init__.py", "xiao_gimbutas_04"⟩,
   ⟨"t2/_xiao_gimbutas/__init__.py", "xiao_gimbutas_05"⟩, ⟨"t2/_xiao_gimbutas/__init__.py", "xiao_gimbutas_06"⟩,
   ⟨"t2/_xiao_gimbutas/__init__.py", "xiao_gimbutas_07"⟩, ⟨"t2/_xiao_gimbutas/__init__.py", "xiao_gimbutas_08"⟩,
   ⟨"t2/_xiao_gimbutas/__init__.py", "xiao_gimbutas_09"⟩, ⟨"t2/_xiao_gimbutas/__init__.py", "xiao_gimbutas_10"⟩,
   ⟨"t2/_xiao_gimbutas/__init__.py", "xiao_gimbutas_11"⟩, ⟨"t2/_xiao_gimbutas/__init__.py", "xiao_gimbutas_12"⟩,
   ⟨"t2/_xiao_gimbutas/__init__.py", "xiao_gimbutas_13"⟩, ⟨"t2/_xiao_gimbutas/__init__.py", "xiao_gimbutas_14"⟩,
   ⟨"t2/_xiao_gimbutas/__init__.py", "xiao_gimbutas_15"⟩, ⟨"t2/_xiao_gimbutas/__init__.py", "xiao_gimbutas_16"⟩,
   ⟨"t2/_xiao_gimbutas/__init__.py", "xiao_gimbutas_17"⟩, ⟨"t2/_xiao_gimbutas/__init__.py", "xiao_gimbutas_18"⟩,
   ⟨"t2/_xiao_gimbutas/__init__.py", "xiao_gimbutas_19"⟩, ⟨"t2/_xiao_gimbutas/__init__.py", "xiao_gimbutas_20"⟩,
   ⟨"t2/_xiao_gimbutas/__init__.py", "xiao_gimbutas_21"⟩, ⟨"t2/_xiao_gimbutas/__init__.py", "xiao_gimbutas_22"⟩,
   ⟨"t2/_xiao_gimbutas/__init__.py", "xiao_gimbutas_23"⟩, ⟨"t2/_xiao_gimbutas/__init__.py", "xiao_gimbutas_24"⟩,
   ⟨"t2/_xiao_gimbutas/__init__.py", "xiao_gimbutas_25"⟩, ⟨"t2/_xiao_gimbutas/__init__.py", "xiao_gimbutas_26"⟩,
   ⟨"t2/_xiao_gimbutas/__init__.py", "xiao_gimbutas_27"⟩, ⟨"t2/_xiao_gimbutas/__init__.py", "xiao_gimbutas_28"⟩,
   ⟨"t2/_xiao_gimbutas/__init__.py", "xiao_gimbutas_29"⟩, ⟨"t2/_xiao_gimbutas/__init__.py", "xiao_gimbutas_30"⟩,
   ⟨"t2/_xiao_gimbutas/__init__.py", "xiao_gimbutas_31"⟩, ⟨"t2/_xiao_gimbutas/__init__.py", "xiao_gimbutas_32"⟩,
   ⟨"t2/_xiao_gimbutas/__init__.py", "xiao_gimbutas_33"⟩, ⟨"t2/_xiao_gimbutas/__init__.py", "xiao_gimbutas_34"⟩,
   ⟨"t2/_xiao_gimbutas/__init__.py", "xiao_gimbutas_35"⟩, ⟨"t2/_xiao_gimbutas/__init__.py", "xiao_gimbutas_36"⟩,
   ⟨"t2/_xiao_gimbutas/__init__.py", "xiao_gimbutas_37"⟩, ⟨"t2/_xiao_gimbutas/__init__.py", "xiao_gimbutas_38"⟩,
   ⟨"t2/_xiao_gimbutas/__init__.py", "xiao_gimbutas_39"⟩, ⟨"t2/_xiao_gimbutas/__init__.py", "xiao_gimbutas_40"⟩,
   ⟨"t2/_xiao_gimbutas/__init__.py", "xiao_gimbutas_41"⟩, ⟨"t2/_xiao_gimbutas/__init__.py", "xiao_gimbutas_42"⟩,
   ⟨"t2/_xiao_gimbutas/__init__.py", "xiao_gimbutas_43"⟩, ⟨"t2/_xiao_gimbutas/__init__.py", "xiao_gimbutas_44"⟩,
   ⟨"t2/_xiao_gimbutas/__init__.py", "xiao_gimbutas_45"⟩, ⟨"t2/_xiao_gimbutas/__init__.py", "xiao_gimbutas_46"⟩,
   ⟨"t2/_xiao_gimbutas/__init__.py", "xiao_gimbutas_47"⟩, ⟨"t2/_xiao_gimbutas/__init__.py", "xiao_gimbutas_48"⟩,
   ⟨"t2/_xiao_gimbutas/__init__.py", "xiao_gimbutas_49"⟩, ⟨"t2/_xiao_gimbutas/__init__.py", "xiao_gimbutas_50"⟩,
   ⟨"t2/_zhang_cui_liu/__init__.py", "zhang_cui_liu_1"⟩, ⟨"t2/_zhang_cui_liu/__init__.py", "zhang_cui_liu_2"⟩,
   ⟨"t2/_zhang_cui_liu/__init__.py", "zhang_cui_liu_3"⟩]

/-- quadpy/t2/_albrecht_collatz.py:23-23, quadpy/t2/_berntsen_espelid/__init__.py:49-57,
quadpy/t2/_classical.py:25-25, quadpy/t2/_cools_haegemans/__init__.py:65-65, quadpy/t2/_cubtri/__init__.py:26-26,
quadpy/t2/_dunavant/__init__.py:107-130, quadpy/t2/_franke.py:107-107, quadpy/t2/_gatermann/__init__.py:25-25,
quadpy/t2/_griener_schmid/__init__.py:38-38, quadpy/t2/_hammer_marlowe_stroud.py:58-66, quadpy/t2/_hillion.py:102-115,
quadpy/t2/_strang_fix_cowper/__init__.py:86-99, quadpy/t2/_laursen_gellert/__init__.py:91-111,
quadpy/t2/_lether.py:49-49, quadpy/t2/_liu_vinokur.py:140-156, quadpy/t2/_lyness_jespersen.py:309-333,
quadpy/t2/_papanicolopulos/__init__.py:130-153, quadpy/t2/_stroud.py:61-61,
quadpy/t2/_taylor_wingate_bos/__init__.py:44-52, quadpy/t2/_vioreanu_rokhlin/__init__.py:103-127,
quadpy/t2/_walkington.py:23-23, quadpy/t2/_wandzura_xiao/__init__.py:48-57,
quadpy/t2/_williams_shunn_jameson/__init__.py:55-66, quadpy/t2/_witherden_vincent/__init__.py:97-119,
quadpy/t2/_xiao_gimbutas/__init__.py:223-276, quadpy/t2/_zhang_cui_liu/__init__.py:33-33 -/
def t2Regs : List (String × ℕ) :=
  [("albrecht_collatz", 0), ("dcutri", 1), ("berntsen_espelid_1", 2), ("berntsen_espelid_2", 3),
   ("berntsen_espelid_3", 4), ("berntsen_espelid_4", 5), ("centroid", 6), ("vertex", 7), ("seven_point", 8),
   ("cools_haegemans_1", 9), ("cubtri", 10), ("dunavant_01", 11), ("dunavant_02", 12), ("dunavant_03", 13),
   ("dunavant_04", 14), ("dunavant_05", 15), ("dunavant_06", 16), ("dunavant_07", 17), ("dunavant_08", 18),
   ("dunavant_09", 19), ("dunavant_10", 20), ("dunavant_11", 21), ("dunavant_12", 22), ("dunavant_13", 23),
   ("dunavant_14", 24), ("dunavant_15", 25), ("dunavant_16", 26), ("dunavant_17", 27), ("dunavant_18", 28),
   ("dunavant_19", 29), ("dunavant_20", 30), ("franke_09", 31), ("franke_10", 32), ("gatermann", 33),
   ("griener_schmid_1", 34), ("griener_schmid_2", 35), ("hammer_marlowe_stroud_1", 36),
   ("hammer_marlowe_stroud_2", 37), ("hammer_marlowe_stroud_3", 38), ("hammer_marlowe_stroud_4", 39),
   ("hammer_marlowe_stroud_5", 40), ("hillion_01", 41), ("hillion_02", 42), ("hillion_03", 43), ("hillion_04", 44),
   ("hillion_05", 45), ("hillion_06", 46), ("hillion_07", 47), ("hillion_08", 48), ("hillion_09", 49),
   ("hillion_10", 50), ("strang_fix_cowper_01", 51), ("strang_fix_cowper_02", 38), ("strang_fix_cowper_03", 52),
   ("strang_fix_cowper_04", 53), ("strang_fix_cowper_05", 54), ("strang_fix_cowper_06", 55),
   ("strang_fix_cowper_07", 56), ("strang_fix_cowper_08", 57), ("strang_fix_cowper_09", 58),
   ("strang_fix_cowper_10", 59), ("laursen_gellert_01", 6), ("laursen_gellert_02a", 60), ("laursen_gellert_02b", 61),
   ("laursen_gellert_03", 52), ("laursen_gellert_04", 53), ("laursen_gellert_05", 54), ("laursen_gellert_06", 62),
   ("laursen_gellert_07", 63), ("laursen_gellert_08", 64), ("laursen_gellert_09", 65), ("laursen_gellert_10", 66),
   ("laursen_gellert_11", 67), ("laursen_gellert_12", 68), ("laursen_gellert_13", 69), ("laursen_gellert_14", 70),
   ("laursen_gellert_15a", 71), ("laursen_gellert_15b", 72), ("lether", 73), ("liu_vinokur_01", 6),
   ("liu_vinokur_02", 7), ("liu_vinokur_03", 74), ("liu_vinokur_04", 75), ("liu_vinokur_05", 76),
   ("liu_vinokur_06", 77), ("liu_vinokur_07", 8), ("liu_vinokur_08", 78), ("liu_vinokur_09", 79),
   ("liu_vinokur_10", 80), ("liu_vinokur_11", 81), ("liu_vinokur_12", 82), ("liu_vinokur_13", 83),
   ("lyness_jespersen_01", 84), ("lyness_jespersen_02", 85), ("lyness_jespersen_03", 86), ("lyness_jespersen_04", 8),
   ("lyness_jespersen_05", 87), ("lyness_jespersen_06", 88), ("lyness_jespersen_07", 89), ("lyness_jespersen_08", 90),
   ("lyness_jespersen_09", 91), ("lyness_jespersen_10", 58), ("lyness_jespersen_11", 92), ("lyness_jespersen_12", 93),
   ("lyness_jespersen_13", 94), ("lyness_jespersen_14", 95), ("lyness_jespersen_15", 96), ("lyness_jespersen_16", 97),
   ("lyness_jespersen_17", 98), ("lyness_jespersen_18", 99), ("lyness_jespersen_19", 100),
   ("lyness_jespersen_20", 101), ("lyness_jespersen_21", 102), ("papanicolopulos_sym_0", 103),
   ("papanicolopulos_sym_1", 104), ("papanicolopulos_sym_2", 105), ("papanicolopulos_sym_3", 106),
   ("papanicolopulos_sym_4", 107), ("papanicolopulos_sym_5", 108), ("papanicolopulos_sym_6", 109),
   ("papanicolopulos_sym_7", 110), ("papanicolopulos_sym_8", 111), ("papanicolopulos_rot_08", 112),
   ("papanicolopulos_rot_09", 113), ("papanicolopulos_rot_10", 114), ("papanicolopulos_rot_11", 115),
   ("papanicolopulos_rot_12", 116), ("papanicolopulos_rot_13", 117), ("papanicolopulos_rot_14", 118),
   ("papanicolopulos_rot_15", 119), ("papanicolopulos_rot_16", 120), ("papanicolopulos_rot_17", 121),
   ("stroud_t2_3_1", 0), ("stroud_t2_5_1", 40), ("stroud_t2_7_1", 122), ("taylor_wingate_bos_1", 123),
   ("taylor_wingate_bos_2", 124), ("taylor_wingate_bos_4", 125), ("taylor_wingate_bos_5", 126),
   ("taylor_wingate_bos_8", 127), ("vioreanu_rokhlin_00", 128), ("vioreanu_rokhlin_01", 129),
   ("vioreanu_rokhlin_02", 130), ("vioreanu_rokhlin_03", 131), ("vioreanu_rokhlin_04", 132),
   ("vioreanu_rokhlin_05", 133), ("vioreanu_rokhlin_06", 134), ("vioreanu_rokhlin_07", 135),
   ("vioreanu_rokhlin_08", 136), ("vioreanu_rokhlin_09", 137), ("vioreanu_rokhlin_10", 138),
   ("vioreanu_rokhlin_10", 138), ("vioreanu_rokhlin_11", 139), ("vioreanu_rokhlin_12", 140),
   ("vioreanu_rokhlin_13", 141), ("vioreanu_rokhlin_14", 142), ("vioreanu_rokhlin_15", 143),
   ("vioreanu_rokhlin_16", 144), ("vioreanu_rokhlin_17", 145), ("vioreanu_rokhlin_18", 146),
   ("vioreanu_rokhlin_19", 147), ("walkington_p5", 148), ("wandzura_xiao_1", 149), ("wandzura_xiao_2", 150),
   ("wandzura_xiao_3", 151), ("wandzura_xiao_4", 152), ("wandzura_xiao_5", 153), ("wandzura_xiao_6", 154),
   ("williams_shunn_jameson_1", 155), ("williams_shunn_jameson_2", 156), ("williams_shunn_jameson_3", 157),
   ("williams_shunn_jameson_4", 158), ("williams_shunn_jameson_5", 159), ("williams_shunn_jameson_6", 160),
   ("williams_shunn_jameson_7", 161), ("williams_shunn_jameson_8", 162), ("witherden_vincent_01", 163),
   ("witherden_vincent_02", 164), ("witherden_vincent_04", 165), ("witherden_vincent_05", 166),
   ("witherden_vincent_06", 167), ("witherden_vincent_07", 168), ("witherden_vincent_08", 169),
   ("witherden_vincent_09", 170), ("witherden_vincent_10", 171), ("witherden_vincent_11", 172),
   ("witherden_vincent_12", 173), ("witherden_vincent_13", 174), ("witherden_vincent_14", 175),
   ("witherden_vincent_15", 176), ("witherden_vincent_16", 177), ("witherden_vincent_17", 178),
   ("witherden_vincent_18", 179), ("witherden_vincent_19", 180), ("witherden_vincent_20", 181),
   ("xiao_gimbutas_01", 182), ("xiao_gimbutas_02", 183), ("xiao_gimbutas_03", 184), ("xiao_gimbutas_04", 185),
   ("xiao_gimbutas_05", 186), ("xiao_gimbutas_06", 187), ("xiao_gimbutas_07", 188), ("xiao_gimbutas_08", 189),
   ("xiao_gimbutas_09", 190), ("xiao_gimbutas_10", 191), ("xiao_gimbutas_11", 192), ("xiao_gimbutas_12", 193),
   ("xiao_gimbutas_13", 194), ("xiao_gimbutas_14", 195), ("xiao_gimbutas_15", 196), ("xiao_gimbutas_16", 197),
   ("xiao_gimbutas_17", 198), ("xiao_gimbutas_18", 199), ("xiao_gimbutas_19", 200), ("xiao_gimbutas_20", 201),
   ("xiao_gimbutas_21", 202), ("xiao_gimbutas_22", 203), ("xiao_gimbutas_23", 204), ("xiao_gimbutas_24", 205),
   ("xiao_gimbutas_25", 206), ("xiao_gimbutas_26", 207), ("xiao_gimbutas_27", 208), ("xiao_gimbutas_28", 209),
   ("xiao_gimbutas_29", 210), ("xiao_gimbutas_30", 211), ("xiao_gimbutas_31", 212), ("xiao_gimbutas_32", 213),
   ("xiao_gimbutas_33", 214), ("xiao_gimbutas_34", 215), ("xiao_gimbutas_35", 216), ("xiao_gimbutas_36", 217),
   ("xiao_gimbutas_37", 218), ("xiao_gimbutas_38", 219), ("xiao_gimbutas_39", 220), ("xiao_gimbutas_40", 221),
   ("xiao_gimbutas_41", 222), ("xiao_gimbutas_42", 223), ("xiao_gimbutas_43", 224), ("xiao_gimbutas_44", 225),
   ("xiao_gimbutas_45", 226), ("xiao_gimbutas_46", 227), ("xiao_gimbutas_47", 228), ("xiao_gimbutas_48", 229),
   ("xiao_gimbutas_49", 230), ("xiao_gimbutas_50", 231), ("zhang_cui_liu_1", 232), ("zhang_cui_liu_2", 233),
   ("zhang_cui_liu_3", 234)]

/-- The functions which are registered in t3. -/
def t3Fns : List Function :=
  [⟨"t3/_beckers_haegemans/__init__.py", "beckers_haegemans_8"⟩,
   ⟨"t3/_beckers_haegemans/__init__.py", "beckers_haegemans_9"⟩, ⟨"t3/_gatermann/__init__.py", "gatermann"⟩,
   ⟨"t3/_hammer_marlowe_stroud.py", "hammer_marlowe_stroud_1"⟩,
   ⟨"t3/_hammer_marlowe_stroud.py", "hammer_marlowe_stroud_2"⟩,
   ⟨"t3/_hammer_marlowe_stroud.py", "hammer_marlowe_stroud_3"⟩,
   ⟨"t3/_jaskowiec_sukumar/__init__.py", "jaskowiec_sukumar_02"⟩,
   ⟨"t3/_jaskowiec_sukumar/__init__.py", "jaskowiec_sukumar_03"⟩,
   ⟨"t3/_jaskowiec_sukumar/__init__.py", "jaskowiec_sukumar_04"⟩,
   ⟨"t3/_jaskowiec_sukumar/__init__.py", "jaskowiec_sukumar_05"⟩,
   ⟨"t3/_jaskowiec_sukumar/__init__.py", "jaskowiec_sukumar_06"⟩,
   ⟨"t3/_jaskowiec_sukumar/__init__.py", "jaskowiec_sukumar_07"⟩,
   ⟨"t3/_jaskowiec_sukumar/__init__.py", "jaskowiec_sukumar_08"⟩,
   ⟨"t3/_jaskowiec_sukumar/__init__.py", "jaskowiec_sukumar_09"⟩,
   ⟨"t3/_jaskowiec_sukumar/__init__.py", "jaskowiec_sukumar_10"⟩,
   ⟨"t3/_jaskowiec_sukumar/__init__.py", "jaskowiec_sukumar_11"⟩,
   ⟨"t3/_jaskowiec_sukumar/__init__.py", "jaskowiec_sukumar_12"⟩,
   ⟨"t3/_jaskowiec_sukumar/__init__.py", "jaskowiec_sukumar_13"⟩,
   ⟨"t3/_jaskowiec_sukumar/__init__.py", "jaskowiec_sukumar_14"⟩,
   ⟨"t3/_jaskowiec_sukumar/__init__.py", "jaskowiec_sukumar_15"⟩,
   ⟨"t3/_jaskowiec_sukumar/__init__.py", "jaskowiec_sukumar_16"⟩,
   ⟨"t3/_jaskowiec_sukumar/__init__.py", "jaskowiec_sukumar_17"⟩,
   ⟨"t3/_jaskowiec_sukumar/__init__.py", "jaskowiec_sukumar_18"⟩,
   ⟨"t3/_jaskowiec_sukumar/__init__.py", "jaskowiec_sukumar_19a"⟩,
   ⟨"t3/_jaskowiec_sukumar/__init__.py", "jaskowiec_sukumar_19b"⟩,
   ⟨"t3/_jaskowiec_sukumar/__init__.py", "jaskowiec_sukumar_20"⟩, ⟨"t3/_keast/__init__.py", "keast_0"⟩,
   ⟨"t3/_keast/__init__.py", "keast_1"⟩, ⟨"t3/_keast/__init__.py", "keast_2"⟩, ⟨"t3/_keast/__init__.py", "keast_3"⟩,
   ⟨"t3/_keast/__init__.py", "keast_4"⟩, ⟨"t3/_keast/__init__.py", "keast_5"⟩, ⟨"t3/_keast/__init__.py", "keast_6"⟩,
   ⟨"t3/_keast/__init__.py", "keast_7"⟩, ⟨"t3/_keast/__init__.py", "keast_8"⟩, ⟨"t3/_keast/__init__.py", "keast_9"⟩,
   ⟨"t3/_liu_vinokur.py", "liu_vinokur_01"⟩, ⟨"t3/_liu_vinokur.py", "liu_vinokur_02"⟩,
   ⟨"t3/_liu_vinokur.py", "liu_vinokur_03"⟩, ⟨"t3/_liu_vinokur.py", "liu_vinokur_04"⟩,
   ⟨"t3/_liu_vinokur.py", "liu_vinokur_05"⟩, ⟨"t3/_liu_vinokur.py", "liu_vinokur_06"⟩,
   ⟨"t3/_liu_vinokur.py", "liu_vinokur_07"⟩, ⟨"t3/_liu_vinokur.py", "liu_vinokur_08"⟩,
   ⟨"t3/_liu_vinokur.py", "liu_vinokur_09"⟩, ⟨"t3/_liu_vinokur.py", "liu_vinokur_10"⟩,
   ⟨"t3/_liu_vinokur.py", "liu_vinokur_11"⟩, ⟨"t3/_liu_vinokur.py", "liu_vinokur_12"⟩,
   ⟨"t3/_liu_vinokur.py", "liu_vinokur_13"⟩, ⟨"t3/_liu_vinokur.py", "liu_vinokur_14"⟩,
   ⟨"t3/_maeztu_sainz/__init__.py", "maeztu_sainz"⟩, ⟨"t3/_shunn_ham/__init__.py", "shunn_ham_1"⟩,
   ⟨"t3/_shunn_ham/__init__.py", "shunn_ham_2"⟩, ⟨"t3/_shunn_ham/__init__.py", "shunn_ham_3"⟩,
   ⟨"t3/_shunn_ham/__init__.py", "shunn_ham_4"⟩, ⟨"t3/_shunn_ham/__init__.py", "shunn_ham_5"⟩,
   ⟨"t3/_shunn_ham/__init__.py", "shunn_ham_6"⟩, ⟨"t3/_stroud.py", "stroud_t3_5_1"⟩,
   ⟨"t3/_stroud.py", "stroud_t3_7_1"⟩, ⟨"t3/_vioreanu_rokhlin/__init__.py", "vioreanu_rokhlin_0"⟩,
   ⟨"t3/_vioreanu_rokhlin/__init__.py", "vioreanu_rokhlin_1"⟩,
   ⟨"t3/_vioreanu_rokhlin/__init__.py", "vioreanu_rokhlin_2"⟩,
   ⟨"t3/_vioreanu_rokhlin/__init__.py", "vioreanu_rokhlin_3"⟩,
   ⟨"t3/_vioreanu_rokhlin/__init__.py", "vioreanu_rokhlin_4"⟩,
   ⟨"t3/_vioreanu_rokhlin/__init__.py", "vioreanu_rokhlin_5"⟩,
   ⟨"t3/_vioreanu_rokhlin/__init__.py", "vioreanu_rokhlin_6"⟩,
   ⟨"t3/_vioreanu_rokhlin/__init__.py", "vioreanu_rokhlin_7"⟩,
   ⟨"t3/_vioreanu_rokhlin/__init__.py", "vioreanu_rokhlin_8"⟩,
   ⟨"t3/_vioreanu_rokhlin/__init__.py", "vioreanu_rokhlin_9"⟩, ⟨"t3/_walkington/__init__.py", "walkington_p5"⟩,
   ⟨"t3/_williams_shunn_jameson/__init__.py", "williams_shunn_jameson"⟩,
   ⟨"t3/_witherden_vincent/__init__.py", "witherden_vincent_01"⟩,
   ⟨"t3/_witherden_vincent/__init__.py", "witherden_vincent_02"⟩,
   ⟨"t3/_witherden_vincent/__init__.py", "witherden_vincent_03"⟩,
   ⟨"t3/_witherden_vincent/__init__.py", "witherden_vincent_05"⟩,
   ⟨"t3/_witherden_vincent/__init__.py", "witherden_vincent_06"⟩,
   ⟨"t3/_witherden_vincent/__init__.py", "witherden_vincent_07"⟩,
   ⟨"t3/_witherden_vincent/__init__.py", "witherden_vincent_08"⟩,
   ⟨"t3/_witherden_vincent/__init__.py", "witherden_vincent_09"⟩,
   ⟨"t3/_witherden_vincent/__init__.py", "witherden_vincent_10"⟩,
   ⟨"t3/_xiao_gimbutas/__init__.py", "xiao_gimbutas_01"⟩, ⟨"t3/_xiao_gimbutas/__init__.py", "xiao_gimbutas_02"⟩,
   ⟨"t3/_xiao_gimbutas/__init__.py", "xiao_gimbutas_03"⟩, ⟨"t3/_xiao_gimbutas/__init__.py", "xiao_gimbutas_04"⟩,
   ⟨"t3/_xiao_gimbutas/__init__.py", "xiao_gimbutas_05"⟩, ⟨"t3/_xiao_gimbutas/__init__.py", "xiao_gimbutas_06"⟩,
   ⟨"t3/_xiao_gimbutas/__init__.py", "xiao_gimbutas_07"⟩, ⟨"t3/_xiao_gimbutas/__init__.py", "xiao_gimbutas_08"⟩,
   ⟨"t3/_xiao_gimbutas/__init__.py", "xiao_gimbutas_09"⟩, ⟨"t3/_xiao_gimbutas/__init__.py", "xiao_gimbutas_10"⟩,
   ⟨"t3/_xiao_gimbutas/__init__.py", "xiao_gimbutas_11"⟩, ⟨"t3/_xiao_gimbutas/__init__.py", "xiao_gimbutas_12"⟩,
   ⟨"t3/_xiao_gimbutas/__init__.py", "xiao_gimbutas_13"⟩, ⟨"t3/_xiao_gimbutas/__init__.py", "xiao_gimbutas_14"⟩,
   ⟨"t3/_xiao_gimbutas/__init__.py", "xiao_gimbutas_15"⟩, ⟨"t3/_yu/__init__.py", "yu_2"⟩,
   ⟨"t3/_yu/__init__.py", "yu_3"⟩, ⟨"t3/_yu/__init__.py", "yu_4"⟩, ⟨"t3/_yu/__init__.py", "yu_5"⟩,
   ⟨"t3/_yu/__init__.py", "yu_6"⟩, ⟨"t3/_zhang_cui_liu/__init__.py", "zhang_cui_liu_1"⟩,
   ⟨"t3/_zhang_cui_liu/__init__.py", "zhang_cui_liu_2"⟩]

/-- quadpy/t3/_beckers_haegemans/__init__.py:26-26, quadpy/t3/_gatermann/__init__.py:21-21,
quadpy/t3/_hammer_marlowe_stroud.py:63-63, quadpy/t3/_jaskowiec_sukumar/__init__.py:121-144,
quadpy/t3/_keast/__init__.py:100-113, quadpy/t3/_liu_vinokur.py:169-186, quadpy/t3/_maeztu_sainz/__init__.py:24-24,
quadpy/t3/_shunn_ham/__init__.py:46-46, quadpy/t3/_stroud.py:97-97, quadpy/t3/_vioreanu_rokhlin/__init__.py:63-76,
quadpy/t3/_walkington/__init__.py:21-21, quadpy/t3/_williams_shunn_jameson/__init__.py:23-23,
quadpy/t3/_witherden_vincent/__init__.py:64-76, quadpy/t3/_xiao_gimbutas/__init__.py:84-102,
quadpy/t3/_yu/__init__.py:46-46, quadpy/t3/_zhang_cui_liu/__init__.py:29-29 -/
def t3Regs : List (String × ℕ) :=
  [("beckers_haegemans_8", 0), ("beckers_haegemans_9", 1), ("gatermann", 2), ("hammer_marlowe_stroud_1", 3),
   ("hammer_marlowe_stroud_2", 4), ("hammer_marlowe_stroud_3", 5), ("jaskowiec_sukumar_02", 6),
   ("jaskowiec_sukumar_03", 7), ("jaskowiec_sukumar_04", 8), ("jaskowiec_sukumar_05", 9),
   ("jaskowiec_sukumar_06", 10), ("jaskowiec_sukumar_07", 11), ("jaskowiec_sukumar_08", 12),
   ("jaskowiec_sukumar_09", 13), ("jaskowiec_sukumar_10", 14), ("jaskowiec_sukumar_11", 15),
   ("jaskowiec_sukumar_12", 16), ("jaskowiec_sukumar_13", 17), ("jaskowiec_sukumar_14", 18),
   ("jaskowiec_sukumar_15", 19), ("jaskowiec_sukumar_16", 20), ("jaskowiec_sukumar_17", 21),
   ("jaskowiec_sukumar_18", 22), ("jaskowiec_sukumar_19a", 23), ("jaskowiec_sukumar_19b", 24),
   ("jaskowiec_sukumar_20", 25), ("keast_0", 26), ("keast_1", 27), ("keast_2", 28), ("keast_3", 29), ("keast_4", 30),
   ("keast_5", 31), ("keast_6", 32), ("keast_7", 33), ("keast_8", 34), ("keast_9", 35), ("liu_vinokur_01", 36),
   ("liu_vinokur_02", 37), ("liu_vinokur_03", 38), ("liu_vinokur_04", 39), ("liu_vinokur_05", 40),
   ("liu_vinokur_06", 41), ("liu_vinokur_07", 42), ("liu_vinokur_08", 43), ("liu_vinokur_09", 44),
   ("liu_vinokur_10", 45), ("liu_vinokur_11", 46), ("liu_vinokur_12", 47), ("liu_vinokur_13", 48),
   ("liu_vinokur_14", 49), ("maeztu_sainz", 50), ("shunn_ham_1", 51), ("shunn_ham_2", 52), ("shunn_ham_3", 53),
   ("shunn_ham_4", 54), ("shunn_ham_5", 55), ("shunn_ham_6", 56), ("stroud_t3_5_1", 57), ("stroud_t3_7_1", 58),
   ("vioreanu_rokhlin_0", 59), ("vioreanu_rokhlin_1", 60), ("vioreanu_rokhlin_2", 61), ("vioreanu_rokhlin_3", 62),
   ("vioreanu_rokhlin_4", 63), ("vioreanu_rokhlin_5", 64), ("vioreanu_rokhlin_6", 65), ("vioreanu_rokhlin_7", 66),
   ("vioreanu_rokhlin_8", 67), ("vioreanu_rokhlin_9", 68), ("walkington_p5", 69), ("williams_shunn_jameson", 70),
   ("witherden_vincent_01", 71), ("witherden_vincent_02", 72), ("witherden_vincent_03", 73),
   ("witherden_vincent_05", 74), ("witherden_vincent_06", 75), ("witherden_vincent_07", 76),
   ("witherden_vincent_08", 77), ("witherden_vincent_09", 78), ("witherden_vincent_10", 79), ("xiao_gimbutas_01", 80),
   ("xiao_gimbutas_02", 81), ("xiao_gimbutas_03", 82), ("xiao_gimbutas_04", 83), ("xiao_gimbutas_05", 84),
   ("xiao_gimbutas_06", 85), ("xiao_gimbutas_07", 86), ("xiao_gimbutas_08", 87), ("xiao_gimbutas_09", 88),
   ("xiao_gimbutas_10", 89), ("xiao_gimbutas_11", 90), ("xiao_gimbutas_12", 91), ("xiao_gimbutas_13", 92),
   ("xiao_gimbutas_14", 93), ("xiao_gimbutas_15", 94), ("yu_2", 95), ("yu_3", 96), ("yu_4", 97), ("yu_5", 98),
   ("yu_6", 99), ("zhang_cui_liu_1", 100), ("zhang_cui_liu_2", 101)]

/-- The functions which are registered in u2. -/
def u2Fns : List Function :=
  [⟨"u2/_krylov.py", "krylov"⟩]

/-- quadpy/u2/_krylov.py:30-30 -/
def u2Regs : List (String × ℕ) :=
  [("krylov", 0)]

/-- The functions which are registered in u3. -/
def u3Fns : List Function :=
  [⟨"u3/_albrecht_collatz.py", "albrecht_collatz_1"⟩, ⟨"u3/_albrecht_collatz.py", "albrecht_collatz_2"⟩,
   ⟨"u3/_albrecht_collatz.py", "albrecht_collatz_3"⟩, ⟨"u3/_albrecht_collatz.py", "albrecht_collatz_4"⟩,
   ⟨"u3/_albrecht_collatz.py", "albrecht_collatz_5"⟩, ⟨"u3/_bazant_oh/__init__.py", "bazant_oh_09"⟩,
   ⟨"u3/_bazant_oh/__init__.py", "bazant_oh_11"⟩, ⟨"u3/_bazant_oh/__init__.py", "bazant_oh_13"⟩,
   ⟨"u3/_fliege_maier/__init__.py", "fliege_maier_04"⟩, ⟨"u3/_fliege_maier/__init__.py", "fliege_maier_09"⟩,
   ⟨"u3/_fliege_maier/__init__.py", "fliege_maier_16"⟩, ⟨"u3/_fliege_maier/__init__.py", "fliege_maier_25"⟩,
   ⟨"u3/_heo_xu/__init__.py", "heo_xu_13"⟩, ⟨"u3/_heo_xu/__init__.py", "heo_xu_15"⟩,
   ⟨"u3/_heo_xu/__init__.py", "heo_xu_17"⟩, ⟨"u3/_heo_xu/__init__.py", "heo_xu_19a"⟩,
   ⟨"u3/_heo_xu/__init__.py", "heo_xu_19b"⟩, ⟨"u3/_heo_xu/__init__.py", "heo_xu_21a"⟩,
   ⟨"u3/_heo_xu/__init__.py", "heo_xu_21b"⟩, ⟨"u3/_heo_xu/__init__.py", "heo_xu_21c"⟩,
   ⟨"u3/_heo_xu/__init__.py", "heo_xu_21d"⟩, ⟨"u3/_heo_xu/__init__.py", "heo_xu_21e"⟩,
   ⟨"u3/_heo_xu/__init__.py", "heo_xu_21f"⟩, ⟨"u3/_heo_xu/__init__.py", "heo_xu_23a"⟩,
   ⟨"u3/_heo_xu/__init__.py", "heo_xu_23b"⟩, ⟨"u3/_heo_xu/__init__.py", "heo_xu_23c"⟩,
   ⟨"u3/_heo_xu/__init__.py", "heo_xu_25a"⟩, ⟨"u3/_heo_xu/__init__.py", "heo_xu_25b"⟩,
   ⟨"u3/_heo_xu/__init__.py", "heo_xu_27a"⟩, ⟨"u3/_heo_xu/__init__.py", "heo_xu_27b"⟩,
   ⟨"u3/_heo_xu/__init__.py", "heo_xu_27c"⟩, ⟨"u3/_heo_xu/__init__.py", "heo_xu_29"⟩,
   ⟨"u3/_heo_xu/__init__.py", "heo_xu_31"⟩, ⟨"u3/_heo_xu/__init__.py", "heo_xu_33"⟩,
   ⟨"u3/_heo_xu/__init__.py", "heo_xu_35"⟩, ⟨"u3/_heo_xu/__init__.py", "heo_xu_37"⟩,
   ⟨"u3/_heo_xu/__init__.py", "heo_xu_39a"⟩, ⟨"u3/_heo_xu/__init__.py", "heo_xu_39b"⟩,
   ⟨"u3/_lebedev/__init__.py", "lebedev_003a"⟩, ⟨"u3/_lebedev/__init__.py", "lebedev_003b"⟩,
   ⟨"u3/_lebedev/__init__.py", "lebedev_003c"⟩, ⟨"u3/_lebedev/__init__.py", "lebedev_005"⟩,
   ⟨"u3/_lebedev/__init__.py", "lebedev_007"⟩, ⟨"u3/_lebedev/__init__.py", "lebedev_009"⟩,
   ⟨"u3/_lebedev/__init__.py", "lebedev_011"⟩, ⟨"u3/_lebedev/__init__.py", "lebedev_013"⟩,
   ⟨"u3/_lebedev/__init__.py", "lebedev_015"⟩, ⟨"u3/_lebedev/__init__.py", "lebedev_017"⟩,
   ⟨"u3/_lebedev/__init__.py", "lebedev_019"⟩, ⟨"u3/_lebedev/__init__.py", "lebedev_021"⟩,
   ⟨"u3/_lebedev/__init__.py", "lebedev_023"⟩, ⟨"u3/_lebedev/__init__.py", "lebedev_025"⟩,
   ⟨"u3/_lebedev/__init__.py", "lebedev_027"⟩, ⟨"u3/_lebedev/__init__.py", "lebedev_029"⟩,
   ⟨"u3/_lebedev/__init__.py", "lebedev_031"⟩, ⟨"u3/_lebedev/__init__.py", "lebedev_035"⟩,
   ⟨"u3/_lebedev/__init__.py", "lebedev_041"⟩, ⟨"u3/_lebedev/__init__.py", "lebedev_047"⟩,
   ⟨"u3/_lebedev/__init__.py", "lebedev_053"⟩, ⟨"u3/_lebedev/__init__.py", "lebedev_059"⟩,
   ⟨"u3/_lebedev/__init__.py", "lebedev_065"⟩, ⟨"u3/_lebedev/__init__.py", "lebedev_071"⟩,
   ⟨"u3/_lebedev/__init__.py", "lebedev_077"⟩, ⟨"u3/_lebedev/__init__.py", "lebedev_083"⟩,
   ⟨"u3/_lebedev/__init__.py", "lebedev_089"⟩, ⟨"u3/_lebedev/__init__.py", "lebedev_095"⟩,
   ⟨"u3/_lebedev/__init__.py", "lebedev_101"⟩, ⟨"u3/_lebedev/__init__.py", "lebedev_107"⟩,
   ⟨"u3/_lebedev/__init__.py", "lebedev_113"⟩, ⟨"u3/_lebedev/__init__.py", "lebedev_119"⟩,
   ⟨"u3/_lebedev/__init__.py", "lebedev_125"⟩, ⟨"u3/_lebedev/__init__.py", "lebedev_131"⟩,
   ⟨"u3/_mclaren.py", "mclaren_01"⟩, ⟨"u3/_mclaren.py", "mclaren_02"⟩, ⟨"u3/_mclaren.py", "mclaren_03"⟩,
   ⟨"u3/_mclaren.py", "mclaren_04"⟩, ⟨"u3/_mclaren.py", "mclaren_05"⟩, ⟨"u3/_mclaren.py", "mclaren_06"⟩,
   ⟨"u3/_mclaren.py", "mclaren_07"⟩, ⟨"u3/_mclaren.py", "mclaren_08"⟩, ⟨"u3/_mclaren.py", "mclaren_09"⟩,
   ⟨"u3/_mclaren.py", "mclaren_10"⟩, ⟨"u3/_stroud.py", "stroud_u3_11_2"⟩]

/-- quadpy/u3/_albrecht_collatz.py:50-58, quadpy/u3/_bazant_oh/__init__.py:32-32,
quadpy/u3/_fliege_maier/__init__.py:31-31, quadpy/u3/_heo_xu/__init__.py:125-154,
quadpy/u3/_lebedev/__init__.py:204-241, quadpy/u3/_mclaren.py:210-223, quadpy/u3/_stroud.py:42-61 -/
def u3Regs : List (String × ℕ) :=
  [("albrecht_collatz_1", 0), ("albrecht_collatz_2", 1), ("albrecht_collatz_3", 2), ("albrecht_collatz_4", 3),
   ("albrecht_collatz_5", 4), ("bazant_oh_09", 5), ("bazant_oh_11", 6), ("bazant_oh_13", 7), ("fliege_maier_04", 8),
   ("fliege_maier_09", 9), ("fliege_maier_16", 10), ("fliege_maier_25", 11), ("heo_xu_13", 12), ("heo_xu_15", 13),
   ("heo_xu_17", 14), ("heo_xu_19a", 15), ("heo_xu_19b", 16), ("heo_xu_21a", 17), ("heo_xu_21b", 18),
   ("heo_xu_21c", 19), ("heo_xu_21d", 20), ("heo_xu_21e", 21), ("heo_xu_21f", 22), ("heo_xu_23a", 23),
   ("heo_xu_23b", 24), ("heo_xu_23c", 25), ("heo_xu_25a", 26), ("heo_xu_25b", 27), ("heo_xu_27a", 28),
   ("heo_xu_27b", 29), ("heo_xu_27c", 30), ("heo_xu_29", 31), ("heo_xu_31", 32), ("heo_xu_33", 33), ("heo_xu_35", 34),
   ("heo_xu_37", 35), ("heo_xu_39a", 36), ("heo_xu_39b", 37), ("lebedev_003a", 38), ("lebedev_003b", 39),
   ("lebedev_003c", 40), ("lebedev_005", 41), ("lebedev_007", 42), ("lebedev_009", 43), ("lebedev_011", 44),
   ("lebedev_013", 45), ("lebedev_015", 46), ("lebedev_017", 47), ("lebedev_019", 48), ("lebedev_021", 49),
   ("lebedev_023", 50), ("lebedev_025", 51), ("lebedev_027", 52), ("lebedev_029", 53), ("lebedev_031", 54),
   ("lebedev_035", 55), ("lebedev_041", 56), ("lebedev_047", 57), ("lebedev_053", 58), ("lebedev_059", 59),
   ("lebedev_065", 60), ("lebedev_071", 61), ("lebedev_077", 62), ("lebedev_083", 63), ("lebedev_089", 64),
   ("lebedev_095", 65), ("lebedev_101", 66), ("lebedev_107", 67), ("lebedev_113", 68), ("lebedev_119", 69),
   ("lebedev_125", 70), ("lebedev_131", 71), ("mclaren_01", 72), ("mclaren_02", 73), ("mclaren_03", 74),
   ("mclaren_04", 75), ("mclaren_05", 76), ("mclaren_06", 77), ("mclaren_07", 78), ("mclaren_08", 79),
   ("mclaren_09", 80), ("mclaren_10", 81), ("stroud_u3_3_1", 72), ("stroud_u3_5_1", 0), ("stroud_u3_5_2", 1),
   ("stroud_u3_5_3", 2), ("stroud_u3_5_4", 3), ("stroud_u3_5_5", 73), ("stroud_u3_7_2", 4), ("stroud_u3_7_1", 74),
   ("stroud_u3_8_1", 75), ("stroud_u3_9_1", 76), ("stroud_u3_9_2", 77), ("stroud_u3_9_3", 78), ("stroud_u3_11_1", 79),
   ("stroud_u3_11_2", 82), ("stroud_u3_11_3", 80), ("stroud_u3_14_1", 81)]

/-- The domains with a dictionary `schemes`. -/
inductive Domain
  | c2 | c3 | e2r | e2r2 | e3r | e3r2 | s2 | s3 | t2 | t3 | u2 | u3
  deriving DecidableEq

/-- The functions of a domain. -/
def fns : Domain → List Function
  | .c2 => c2Fns
  | .c3 => c3Fns
  | .e2r => e2rFns
  | .e2r2 => e2r2Fns
  | .e3r => e3rFns
  | .e3r2 => e3r2Fns
  | .s2 => s2Fns
  | .s3 => s3Fns
  | .t2 => t2Fns
  | .t3 => t3Fns
  | .u2 => u2Fns
  | .u3 => u3Fns

/-- The calls of `register` of a domain. -/
def regs : Domain → List (String × ℕ)
  | .c2 => c2Regs
  | .c3 => c3Regs
  | .e2r => e2rRegs
  | .e2r2 => e2r2Regs
  | .e3r => e3rRegs
  | .e3r2 => e3r2Regs
  | .s2 => s2Regs
  | .s3 => s3Regs
  | .t2 => t2Regs
  | .t3 => t3Regs
  | .u2 => u2Regs
  | .u3 => u3Regs

end Quadpy.Registry
