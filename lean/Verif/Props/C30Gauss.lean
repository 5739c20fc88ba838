import Verif.Props.C19
import Verif.Props.C30
import Verif.Props.C31
import Verif.Props.C32

/-!
C30, C31, C32: the rules built on a Gauss-Legendre rule, with the rule of C19 as the parameter.
-/

namespace Quadpy

open OneDim

/-- C30: `s2.lether(n)` for every `n`. -/
theorem C30_lether_gauss (n : ℕ) [NeZero n] : (∃ P W, GaussLegendre n P W) ∧
    ∀ P W, GaussLegendre n P W →
      (S2.lether n P W).degree = 2 * n - 1 ∧ (S2.lether n P W).ExactOnBall 2 :=
  ⟨(C19_gauss_legendre n).1, fun P W h =>
    C30_lether (Nat.pos_of_ne_zero (NeZero.ne n)) ((C19_gauss_legendre n).2 P W h).1⟩

/-- C30: `s2.peirce_1957(m)` for every `m`. -/
theorem C30_peirce1957_gauss (m : ℕ) : (∃ P W, GaussLegendre (m + 1) P W) ∧
    ∀ P W, GaussLegendre (m + 1) P W →
      (S2.peirce1957 m P W).degree = 4 * m + 3 ∧ (S2.peirce1957 m P W).ExactOnBall 2 :=
  ⟨(C19_gauss_legendre (m + 1)).1, fun P W h => by
    obtain ⟨h1, -, -, h2, -⟩ := (C19_gauss_legendre (m + 1)).2 P W h
    exact C30_peirce1957 m h1 fun x hx => (h2 x hx).1.le⟩

/-- C31: `t2.lether(n)` for every `n`. -/
theorem C31_lether_gauss (n : ℕ) [NeZero n] : (∃ P W, GaussLegendre n P W) ∧
    ∀ P W, GaussLegendre n P W →
      (T2.lether n P W).degree = 2 * (n - 1) ∧ (T2.lether n P W).ExactOnSimplex 2 :=
  ⟨(C19_gauss_legendre n).1, fun P W h =>
    C31_lether (Nat.pos_of_ne_zero (NeZero.ne n)) ((C19_gauss_legendre n).2 P W h).1⟩

/-- C32: `product(gauss_legendre(n))` on the square and on the cube. -/
theorem C32_product_gauss (n : ℕ) [NeZero n] : (∃ P W, GaussLegendre n P W) ∧
    ∀ P W, GaussLegendre n P W → (C2.product P W (2 * n - 1)).ExactOnCube 2 ∧
      (C3.product P W (2 * n - 1)).ExactOnCube 3 :=
  ⟨(C19_gauss_legendre n).1, fun P W h =>
    ⟨(C32_c2_product ((C19_gauss_legendre n).2 P W h).1).2,
      (C32_c3_product ((C19_gauss_legendre n).2 P W h).1).2⟩⟩

/-! Concrete case: seven Gauss points. -/

example : ∃ P W, GaussLegendre 7 P W ∧ (S2.lether 7 P W).ExactOnBall 2 ∧
    (T2.lether 7 P W).ExactOnSimplex 2 := by
  obtain ⟨⟨P, W, h⟩, h2⟩ := C30_lether_gauss 7
  exact ⟨P, W, h, (h2 P W h).2, ((C31_lether_gauss 7).2 P W h).2⟩

end Quadpy
