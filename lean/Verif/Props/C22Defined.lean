/-
C22, second half: for which dimensions the constructors of the simplex rules return, and with which
degree.  Together with `C22_*` (whatever is returned is exact up to its degree) this determines the
claim.
-/
import Verif.Lemmas.Returns
import Verif.Model.Tn

namespace Quadpy
open Tn

theorem C22_hammerStroud1a_defined (n : ℕ) :
    Returns (hammerStroud1a n) 2 (1 ≤ n) := by
  unfold hammerStroud1a
  returns_tac

theorem C22_hammerStroud1b_defined (n : ℕ) :
    Returns (hammerStroud1b n) 2 (1 ≤ n) := by
  unfold hammerStroud1b
  returns_tac

theorem C22_hammerStroud2_defined (n : ℕ) :
    Returns (hammerStroud2 n) 3 (1 ≤ n) := by
  unfold hammerStroud2
  returns_tac

theorem C22_lauffer1_defined (n : ℕ) :
    Returns (lauffer1 n) 1 (True) := by
  unfold lauffer1
  returns_tac

theorem C22_lauffer2_defined (n : ℕ) :
    Returns (lauffer2 n) 2 (1 ≤ n) := by
  unfold lauffer2
  returns_tac

theorem C22_lauffer3_defined (n : ℕ) :
    Returns (lauffer3 n) 3 (2 ≤ n) := by
  unfold lauffer3
  returns_tac

theorem C22_lauffer4_defined (n : ℕ) :
    Returns (lauffer4 n) 4 (3 ≤ n) := by
  unfold lauffer4
  returns_tac

theorem C22_lauffer5_defined (n : ℕ) :
    Returns (lauffer5 n) 5 (4 ≤ n) := by
  unfold lauffer5
  returns_tac

theorem C22_stroud1961_defined (n : ℕ) :
    Returns (stroud1961 n) 3 (1 ≤ n) := by
  unfold stroud1961
  returns_tac

theorem C22_stroud1966_1_defined (n : ℕ) :
    Returns (stroud1966_1 n) 3 (1 ≤ n) := by
  unfold stroud1966_1
  returns_tac

theorem C22_stroud1966_3_defined (n : ℕ) :
    Returns (stroud1966_3 n) 3 (3 ≤ n) := by
  unfold stroud1966_3
  returns_tac

theorem C22_stroud1966_4_defined (n : ℕ) :
    Returns (stroud1966_4 n) 3 (3 ≤ n) := by
  unfold stroud1966_4
  returns_tac

theorem C22_stroud1966_5_defined (n : ℕ) :
    Returns (stroud1966_5 n) 3 (2 ≤ n) := by
  unfold stroud1966_5
  returns_tac

theorem C22_stroud1966_6_defined (n : ℕ) :
    Returns (stroud1966_6 n) 3 (3 ≤ n ∧ n ≠ 5) := by
  unfold stroud1966_6
  returns_tac

theorem C22_stroud1966_7_defined (n : ℕ) :
    Returns (stroud1966_7 n) 3 (3 ≤ n ∧ n ≠ 5) := by
  unfold stroud1966_7
  returns_tac

theorem C22_degrees (n : ℕ) : (stroudTn11 n).degree = 1 ∧ (walkington1 n).degree = 1 ∧
    (walkington2 n).degree = 1 ∧ (walkington3 n).degree = 3 := ⟨rfl, rfl, rfl, rfl⟩

theorem C22_walkington5_degree (n : ℕ) (S : Scheme) (h : walkington5 n = some S) :
    S.degree = 5 := by
  simp only [walkington5, Option.pure_def, Option.bind_eq_bind, Option.bind_eq_some_iff,
    Option.some.injEq] at h
  obtain ⟨L, -, rfl⟩ := h
  rfl

theorem C22_walkington7_degree (n : ℕ) (S : Scheme) (h : walkington7 n = some S) :
    S.degree = 7 := by
  simp only [walkington7, Option.pure_def, Option.bind_eq_bind, Option.bind_eq_some_iff,
    Option.some.injEq] at h
  obtain ⟨L1, -, L2, -, L3, -, rfl⟩ := h
  rfl

theorem C22_stroud1969_degree (n : ℕ) (w : List ℝ) (S : Scheme) (h : stroud1969 n w = some S) :
    3 ≤ n ∧ S.degree = 5 := by
  simp only [stroud1969, Option.pure_def, Option.bind_eq_bind, Option.bind_eq_some_iff,
    Option.some.injEq] at h
  obtain ⟨_, hg, _, -, rfl⟩ := h
  exact ⟨guard_isSome.1 (by rw [hg]; rfl), rfl⟩

end Quadpy
