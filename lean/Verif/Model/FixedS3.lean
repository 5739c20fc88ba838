import Verif.Model.Cn
import Verif.Model.Symmetries

/-!
# Model of the closed-form rules on the ball, s3, and on the sphere, u3

`frac` and `sqrt` are exact here; in the code they are sympy's.  A list comprehension over
`[+1, -1]` is written out.
-/

namespace Quadpy.FixedS3
open Real

/-- s3/_classical.py:4-6 -/
noncomputable def midpoint : Scheme := schemeOfSym 3 [⟨.zero, [1], [[]]⟩] 1

/-- s3/_hammer_stroud.py:21-23 (stroud_3_1) -/
noncomputable def hammer_stroud_11_3 : Scheme := schemeOfSym 3 [⟨.symm_r00, [1 / 6], [[√(3 / 5)]]⟩] 3

/-- s3/_hammer_stroud.py:26-33 -/
noncomputable def hammer_stroud_12_3 : Scheme :=
  let alpha := √(3 / 7)
  schemeOfSym 3
    [⟨.zero, [1 / 15], [[]]⟩, ⟨.symm_r00, [7 / 90], [[alpha]]⟩, ⟨.symm_rr0, [7 / 180], [[alpha]]⟩] 5

/-- s3/_hammer_stroud.py:36-50 -/
noncomputable def hammer_stroud_14_3 (variant_a : Bool) : Scheme :=
  let t : ℝ := if variant_a then 1 else -1
  let a1 := 1 / 125 * (9 + t * 2 * √14)
  let c1 := (71 - t * 12 * √14) / 1000
  let nu := √((7 - t * √14) / 7)
  let eta1 := √(5 / (21 - t * 2 * √14))
  schemeOfSym 3 [⟨.symm_r00, [a1], [[nu]]⟩, ⟨.symm_rrr, [c1], [[eta1]]⟩] 5

/-- s3/_hammer_stroud.py:53-74; 15_3a and 15_3b (lines 77-82) -/
noncomputable def hammer_stroud_15_3 (variant_a : Bool) : Scheme :=
  let t : ℝ := if variant_a then 1 else -1
  let nu2 := (45 - t * √30) / 57
  let xi2 := (18 + t * √30) / 42
  let eta2 := 7 / (27 + t * 2 * √30)
  let a1 := 1 / nu2 ^ 3 / 63
  let b1 := 1 / xi2 ^ 3 / 630
  let c1 := 1 / eta2 ^ 3 / 2520
  let a0 := 1 - 6 * a1 - 12 * b1 - 8 * c1
  schemeOfSym 3
    [⟨.zero, [a0], [[]]⟩, ⟨.symm_r00, [a1], [[√nu2]]⟩, ⟨.symm_rr0, [b1], [[√xi2]]⟩,
     ⟨.symm_rrr, [c1], [[√eta2]]⟩] 7

/-- s3/_ditkin.py:31-43 -/
noncomputable def ditkin_2 : Scheme :=
  let B0 := 4 / 25
  let B1 := 21 / 500
  let r := √((15 + 5 * √5) / 42)
  let s := √((15 - 5 * √5) / 42)
  let t := √(5 / 21)
  schemeOfSym 3
    [⟨.zero, [B0], [[]]⟩, ⟨.symm_rs0_roll, [B1], [[r, s]]⟩, ⟨.symm_rrr, [B1], [[t]]⟩] 5

/-- s3/_ditkin.py:46-62 -/
noncomputable def ditkin_3 : Scheme :=
  let B0 := 16 / 175
  let B1 := 81 / 1400
  let B2 := 3 / 280
  let r := √((5 + √5) / 18)
  let s := √((5 - √5) / 18)
  let t := √(1 / 3)
  let u := √((3 - √5) / 6)
  let v := √((3 + √5) / 6)
  schemeOfSym 3
    [⟨.zero, [B0], [[]]⟩, ⟨.symm_rs0_roll, [B1, B2], [[r, s], [u, v]]⟩, ⟨.symm_rrr, [B2], [[t]]⟩] 7

/-- s3/_mysovskih.py:22-37 -/
noncomputable def mysovskih : Scheme :=
  let r := √((1715 - 7 * √17770) / 2817)
  let s := √((1715 + 7 * √17770) / 2817)
  let t := √(7 / 18)
  let u := √(7 / 27)
  let B1 := (2965 * √17770 + 227816) / 72030 / √17770
  let B2 := (2965 * √17770 - 227816) / 72030 / √17770
  let B3 := 324 / 12005
  let B4 := 2187 / 96040
  schemeOfSym 3
    [⟨.symm_r00, [B1, B2], [[r], [s]]⟩, ⟨.symm_rr0, [B3], [[t]]⟩, ⟨.symm_rrr, [B4], [[u]]⟩] 7

end Quadpy.FixedS3

namespace Quadpy.FixedU3
open Real

/-- u3/_albrecht_collatz.py:19-22 -/
noncomputable def albrecht_collatz_1 : Scheme :=
  let r := √((5 + √5) / 10)
  let s := √((5 - √5) / 10)
  schemeOfSym 3 [⟨.rs0, [1 / 12], [[r, s]]⟩] 5

/-- u3/_albrecht_collatz.py:25-27 -/
noncomputable def albrecht_collatz_2 : Scheme := schemeOfSym 3
  [⟨.a1, [8 / 120], [[]]⟩, ⟨.a3, [9 / 120], [[]]⟩] 5

/-- u3/_albrecht_collatz.py:30-32 -/
noncomputable def albrecht_collatz_3 : Scheme := schemeOfSym 3
  [⟨.a1, [1 / 30], [[]]⟩, ⟨.a2, [2 / 30], [[]]⟩] 5

/-- u3/_albrecht_collatz.py:35-38 -/
noncomputable def albrecht_collatz_4 : Scheme :=
  let r := √((3 + √5) / 6)
  let s := √((3 - √5) / 6)
  schemeOfSym 3 [⟨.rs0, [1 / 20], [[r, s]]⟩, ⟨.a3, [1 / 20], [[]]⟩] 5

/-- u3/_albrecht_collatz.py:41-47 -/
noncomputable def albrecht_collatz_5 : Scheme := schemeOfSym 3
  [⟨.a1, [40 / 840], [[]]⟩, ⟨.a2, [32 / 840], [[]]⟩, ⟨.a3, [27 / 840], [[]]⟩] 7

/-- u3/_mclaren.py:22-25 -/
noncomputable def mclaren_01 : Scheme := schemeOfSym 3 [⟨.a2, [1 / 12], [[]]⟩] 3

/-- u3/_mclaren.py:28-33 -/
noncomputable def mclaren_02 : Scheme :=
  let r := 1 / 2
  let s := (√5 + 1) / 4
  let t := (√5 - 1) / 4
  schemeOfSym 3 [⟨.a1, [1 / 30], [[]]⟩, ⟨.rst, [1 / 30], [[r, s, t]]⟩] 5

/-- u3/_mclaren.py:36-49; `z` is what `mp.polyroots` returned -/
noncomputable def mclaren_03 (z : Fin 3 → ℝ) : Scheme :=
  let r := √(z 0)
  let s := √(z 1)
  let t := √(z 2)
  schemeOfSym 3 [⟨.rst_weird, [1 / 24], [[r, s, t]]⟩] 7

/-- u3/_mclaren.py:52-65; `z` is what `mp.polyroots` returned -/
noncomputable def mclaren_04 (z : Fin 3 → ℝ) : Scheme :=
  let r := √(z 0)
  let s := √(z 1)
  let t := √(z 2)
  schemeOfSym 3 [⟨.a1, [16 / 600], [[]]⟩, ⟨.rst_weird, [21 / 600], [[r, s, t]]⟩] 8

/-- u3/_mclaren.py:68-78 -/
noncomputable def mclaren_05 : Scheme :=
  let r := √((5 + √5) / 10)
  let s := √((5 - √5) / 10)
  let u := √((3 - √5) / 6)
  let v := √((3 + √5) / 6)
  let B1 := 25 / 840
  let B2 := 27 / 840
  schemeOfSym 3 [⟨.rs0, [B1, B2], [[r, s], [u, v]]⟩, ⟨.a3, [B2], [[]]⟩] 9

/-- u3/_mclaren.py:81-93 -/
noncomputable def mclaren_06 : Scheme :=
  let r := √((5 + √5) / 10)
  let s := √((5 - √5) / 10)
  let u := 1 / 2
  let v := (√5 + 1) / 4
  let w := (√5 - 1) / 4
  let B := 25 / 1260
  let C := 32 / 1260
  schemeOfSym 3 [⟨.rs0, [B], [[r, s]]⟩, ⟨.a1, [C], [[]]⟩, ⟨.rst, [C], [[u, v, w]]⟩] 9

/-- u3/_mclaren.py:96-108 -/
noncomputable def mclaren_07 : Scheme :=
  let r := √((3 - √5) / 6)
  let s := √((3 + √5) / 6)
  let u := 1 / 2
  let v := (√5 + 1) / 4
  let w := (√5 - 1) / 4
  let B := -(9 / 140)
  let C := 16 / 210
  schemeOfSym 3
    [⟨.rs0, [B], [[r, s]]⟩, ⟨.a3, [B], [[]]⟩, ⟨.a1, [C], [[]]⟩, ⟨.rst, [C], [[u, v, w]]⟩] 9

/-- u3/_mclaren.py:111-123 -/
noncomputable def mclaren_08 : Scheme :=
  let u := √(1 / 11)
  let v := √(9 / 11)
  let B1 := 9216 / 725760
  let B2 := 16384 / 725760
  let B3 := 15309 / 725760
  let B4 := 14641 / 725760
  schemeOfSym 3
    [⟨.a1, [B1], [[]]⟩, ⟨.a2, [B2], [[]]⟩, ⟨.a3, [B3], [[]]⟩, ⟨.llm2, [B4], [[u, v]]⟩] 11

/-- u3/_mclaren.py:126-142 -/
noncomputable def mclaren_09 : Scheme :=
  let p := √((5 + √5) / 10)
  let q := √((5 - √5) / 10)
  let r := √((3 - √5) / 6)
  let s := √((3 + √5) / 6)
  let u := 1 / 2
  let v := (√5 + 1) / 4
  let w := (√5 - 1) / 4
  let B := 625 / 27720
  let C := 243 / 27720
  let D := 512 / 27720
  schemeOfSym 3
    [⟨.rs0, [B, C], [[p, q], [r, s]]⟩, ⟨.a3, [C], [[]]⟩, ⟨.a1, [D], [[]]⟩,
     ⟨.rst, [D], [[u, v, w]]⟩] 11

end Quadpy.FixedU3
