import Verif.Model.Tn

/-!
# tn/_grundmann_moeller.py
-/

namespace Quadpy.Tn

/-- tn/_grundmann_moeller.py:21-40.  The entry for `i` is a weight and the points
`(2 p + 1) / (d + n - 2 i)` for the exponents `p` of level `s - i`.  (The code computes `2 ** (-2 * s)`
in floating point; here it is exact.) -/
noncomputable def gmData (n s : ℕ) : List (ℝ × List (List ℝ)) :=
  let d := 2 * s + 1
  (List.range (s + 1)).map fun i =>
    ((-1) ^ i * (1 / 2 ^ (2 * s)) * ((d + n : ℝ) - 2 * i) ^ d /
        ((i.factorial : ℝ) * ((d + n - i).factorial : ℝ)),
      ((getAllExponents (n + 1) s).getD (s - i) []).map fun part =>
        part.map fun p : ℕ => (2 * (p : ℝ) + 1) / ((d + n : ℝ) - 2 * i))

/-- tn/_grundmann_moeller.py:20-47; the weights are divided by their sum (line 44). -/
noncomputable def grundmannMoeller (n s : ℕ) : Scheme :=
  schemeOfNormalized n (gmData n s) (2 * s + 1)

end Quadpy.Tn
