/-
C21, second half: for which arguments the constructors of the cube rules return, and with which
degree.  Together with `C21_*` (whatever is returned is exact up to its degree) this determines the
claim.
-/
import Verif.Lemmas.Returns
import Verif.Props.C21

namespace Quadpy
open Cn

theorem C21_degrees (n : ℕ) : (stroudCn11 n).degree = 1 ∧ (stroudCn12 n).degree = 1 ∧
    (stroudCn34 n).degree = 3 ∧ (ewing n).degree = 3 ∧ (tyler n).degree = 3 ∧
    (hammerStroud1n n).degree = 3 ∧ (mustardLynessBlatt n).degree = 5 ∧
    (stroud1966a n).degree = 5 ∧ (stroud1966c n).degree = 5 :=
  ⟨rfl, rfl, rfl, rfl, rfl, rfl, rfl, rfl, rfl⟩

theorem C21_stroudCn32_defined (n : ℕ) : Returns (stroudCn32 n) 3 (1 ≤ n) := by
  unfold stroudCn32
  returns_tac

theorem C21_hammerStroud2n_defined (n : ℕ) : Returns (hammerStroud2n n) 5 (2 ≤ n) := by
  unfold hammerStroud2n
  returns_tac

theorem C21_coolsHaegemans1_defined (n : ℕ) (delta2 : ℝ) :
    Returns (coolsHaegemans1 n delta2) 3 (1 / 3 ≤ delta2) := by
  unfold coolsHaegemans1
  exact ⟨fun h => ⟨_, if_pos h, rfl⟩, fun h => if_neg h⟩

theorem C21_stroud1966d_defined (n : ℕ) (hn : 1 ≤ n) : Returns (stroud1966d n) 5 (n ≠ 2) := by
  constructor
  · intro h2
    rcases Nat.lt_or_ge n 3 with h | h
    · have : n = 1 := by omega
      subst this
      exact ⟨_, rfl, rfl⟩
    · obtain ⟨S, hS⟩ := Option.isSome_iff_exists.1 (stroud1966d_isSome n h)
      refine ⟨S, hS, ?_⟩
      simp only [stroud1966d, Option.pure_def, Option.bind_eq_bind, Option.bind_eq_some_iff,
        Option.some.injEq] at hS
      obtain ⟨_, -, rfl⟩ := hS
      rfl
  · intro h2
    have h2 : n = 2 := by omega
    subst h2
    have h5 : √(5 : ℝ) ^ 2 = 5 := Real.sq_sqrt (by norm_num)
    have h15 : √(5 * (2 : ℕ) + 5 : ℝ) ^ 2 = 15 := by
      rw [Real.sq_sqrt (by positivity)]; norm_num
    have hneg : ¬ (0 : ℝ) ≤ (5 * (2 : ℕ) - 2 * √5 - 2 * √(5 * (2 : ℕ) + 5)) / (15 * (2 : ℕ)) := by
      rw [not_le]
      apply div_neg_of_neg_of_pos _ (by norm_num)
      have a : 2 < √(5 : ℝ) := by nlinarith [Real.sqrt_nonneg (5 : ℝ)]
      have b : 3 < √(5 * (2 : ℕ) + 5 : ℝ) := by nlinarith [Real.sqrt_nonneg (5 * (2 : ℕ) + 5 : ℝ)]
      push_cast at *
      linarith
    simp only [stroud1966d, sqrtO, if_neg hneg]
    rfl

theorem C21_dobrodeev1970_defined (n : ℕ) : Returns (dobrodeev1970 n) 7 (5 ≤ n) := by
  constructor
  · intro h
    obtain ⟨S, hS⟩ := Option.isSome_iff_exists.1 (dobrodeev1970_isSome n h)
    refine ⟨S, hS, ?_⟩
    simp only [dobrodeev1970, if_pos (show 3 ≤ n by omega), Option.pure_def, Option.bind_eq_bind,
      Option.bind_eq_some_iff, Option.some.injEq] at hS
    obtain ⟨_, -, _, -, _, -, _, -, _, -, rfl⟩ := hS
    rfl
  · intro h
    rcases Nat.lt_or_ge n 3 with h3 | h3
    · simp [dobrodeev1970, show ¬ 3 ≤ n by omega]
    · have : n = 3 ∨ n = 4 := by omega
      rcases this with rfl | rfl
      · exact C21_dobrodeev1970_fails.1
      · exact C21_dobrodeev1970_fails.2

theorem C21_phillips_defined (n : ℕ) : Returns (phillips n) 7 (2 ≤ n) := by
  constructor
  · intro h
    obtain ⟨S, hS⟩ := Option.isSome_iff_exists.1 (phillips_isSome n h)
    refine ⟨S, hS, ?_⟩
    simp only [phillips, Option.pure_def, Option.bind_eq_bind, Option.bind_eq_some_iff] at hS
    obtain ⟨_, -, _, -, _, -, _, -, h⟩ := hS
    split_ifs at h
    · rw [Option.bind_eq_some_iff] at h
      obtain ⟨_, -, h⟩ := h
      rw [← Option.some.inj h]; rfl
    · rw [← Option.some.inj h]; rfl
  · intro h
    have : phillipsPar n = none := by
      have : n = 0 ∨ n = 1 := by omega
      rcases this with rfl | rfl <;> simp [phillipsPar]
    simp [phillips, this]

end Quadpy
