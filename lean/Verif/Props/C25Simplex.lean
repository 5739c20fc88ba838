import Verif.Lemmas.SimplexFrame
import Verif.Model.Un

/-!
C25, continued: the rules on the regular simplex.
-/

namespace Quadpy
open Finset Un

theorem sphere_radMom {n : ℕ} (hn : 0 < n) (α : Fin n → ℕ) :
    Spec.sphere n (mono α) = Spec.sphere n (fun _ => 1) * radMom (fun _ => 1) α := by
  have h1 : Spec.sphere n (fun _ => 1) = sphereArea n := by
    rw [one_eq_mono, sphere_mono' hn]
    have := (radial_symMom hn (fun _ => 1) rfl).zero
    simp only [radMom, one_mul] at this
    rw [this, mul_one]
  rw [h1, sphere_mono' hn, radMom, one_mul]

theorem C25_mysovskikh1 (n : ℕ) (hn : 1 ≤ n) :
    (mysovskikh1 n).degree = 2 ∧ (mysovskikh1 n).ExactOnSphere n := by
  refine ⟨rfl, simplex_deg2 hn sphere_linOnMono (sphere_radMom hn) _ 1 ⟨rfl, ?_, ?_⟩ rfl rfl
    (by norm_num) ?_⟩
  · simp [mysovskikh1, getNsimplexPoints]
  · exact nsimplex_length' n
  · intro f
    have h := dot_replicate (1 / ((n : ℝ) + 1)) (getNsimplexPoints n) f
    rw [show (getNsimplexPoints n).length = n + 1 by simp [getNsimplexPoints]] at h
    refine h.trans ?_
    rw [← osum_simplex, List.map_congr_left (g := id) (fun x _ => smulRow_one x), List.map_id]

theorem C25_mysovskikh2 (n : ℕ) (hn : 2 ≤ n) :
    ∃ S, mysovskikh2 n = some S ∧ S.degree = 5 ∧ S.ExactOnSphere n := by
  have hn0 : (n : ℝ) ≠ 0 := by positivity
  have hn2 : (2 : ℝ) ≤ n := by exact_mod_cast hn
  have hn1 : (n : ℝ) - 1 ≠ 0 := by linarith
  refine ⟨_, if_pos hn, rfl, ?_⟩
  refine simplex_deg5 hn sphere_linOnMono (sphere_radMom (by omega)) _ 0
    ((7 - n) * n / (2 * (n + 1) ^ 2 * (n + 2))) (2 * (n - 1) ^ 2 / (n * (n + 1) ^ 2 * (n + 2))) 1
    ⟨rfl, by simp [add_assoc], ?_⟩ rfl rfl ?_ ?_ ?_ ?_ ?_
  · simp only [List.mem_append, List.mem_map]
    rintro x (((h | ⟨y, h, rfl⟩) | h) | ⟨y, h, rfl⟩)
    · exact nsimplex_length' n _ h
    · simpa [smulRow] using nsimplex_length' n _ h
    · exact edgePoints_length' n _ h
    · simpa [smulRow] using edgePoints_length' n _ h
  · intro f
    dsimp only
    have m1 : ∀ L : List (List ℝ), osum n L f = osum n (L.map (smulRow 1)) f := fun L => by
      rw [List.map_congr_left (g := id) (fun x _ => smulRow_one x), List.map_id]
    have m2 : ∀ (L : List (List ℝ)) (w : ℝ),
        dot n (List.replicate L.length w) (L.map (smulRow (-1))) f =
          w * osum n (L.map (smulRow (-1))) f := fun L w => by
      rw [← dot_replicate, List.length_map]
    rw [dot_append (by simp [add_assoc]), dot_append (by simp), dot_append (by simp), dot_replicate, dot_replicate,
      m2, m2, m1 (getNsimplexPoints n), m1 (edgePoints n), osum_simplex, osum_simplex, osum_edge,
      osum_edge]
    simp only [sum_add_distrib]
    ring
  · field_simp; ring
  · field_simp; ring
  · field_simp; ring
  · field_simp; ring

/-- The rule of degree five for the circle has twelve points. -/
example : ∃ S, mysovskikh2 2 = some S ∧ S.weights.length = 12 ∧ S.ExactOnSphere 2 := by
  obtain ⟨S, h, _, hE⟩ := C25_mysovskikh2 2 le_rfl
  refine ⟨S, h, ?_, hE⟩
  obtain rfl := Option.some.inj ((if_pos le_rfl).symm.trans h)
  simp [getNsimplexPoints, edgePoints, List.range_succ]

end Quadpy
