import Verif.Props.C56Wedge

/-!
# C50: the closed-form wedge rules of Kubatko, Yeager and Maggi
-/

namespace Quadpy.W3
open Kubatko

theorem kubatko_exact {data : List (ℝ × List (List ℝ))} {deg : ℕ}
    (hs : ∀ g ∈ data, ∀ x ∈ g.2, x.length = 3)
    (h : ∀ a b c : ℕ, a + b + c ≤ deg → (data.map fun g => g.1 / 4 * osum 3 (g.2.map toRef) fun ξ =>
      ξ 0 ^ a * ξ 1 ^ b * ξ 2 ^ c).sum = mom a b c) : Exact (kubatko data deg) := by
  rw [kubatko_eq]
  refine exact_of_mom ?_ ?_
  · intro g hg x hx
    obtain ⟨g', hg', rfl⟩ := List.mem_map.1 hg
    obtain ⟨x', hx', rfl⟩ := List.mem_map.1 hx
    have := hs g' hg' x' hx'
    match x', this with
    | [a, b, c], _ => rfl
  · intro a b c habc
    rw [List.map_map]
    exact h a b c habc

macro "kub_cases" d:term : tactic => `(tactic|
  (intro a b c h
   have ha : a ≤ $d := by omega
   have hb : b ≤ $d := by omega
   have hc : c ≤ $d := by omega
   interval_cases a <;> interval_cases b <;> interval_cases c <;> first | (exfalso; omega) | skip
   all_goals simp [osum, toVec, mom, toRef, Kubatko.s3, Kubatko.s3_z, Kubatko.s21, Kubatko.s21_z,
     Nat.factorial, show ¬ Even 1 by decide, show ¬ Even 3 by decide]))

theorem C50_kubatko_1 : Exact kubatko_yeager_maggi_1 := by
  refine kubatko_exact (by simp) ?_
  kub_cases 1
  all_goals norm_num

theorem C50_kubatko_2b : Exact kubatko_yeager_maggi_2b := by
  refine kubatko_exact (by simp [Kubatko.s21, Kubatko.s3_z]) ?_
  kub_cases 2
  all_goals norm_num

theorem C50_kubatko_3b : Exact kubatko_yeager_maggi_3b := by
  refine kubatko_exact (by simp [Kubatko.s21, Kubatko.s3_z, Kubatko.s3]) ?_
  kub_cases 3
  all_goals norm_num

theorem C50_kubatko_3c : Exact kubatko_yeager_maggi_3c := by
  refine kubatko_exact (by simp [Kubatko.s21_z, Kubatko.s3]) ?_
  have h := Real.sq_sqrt (show (0 : ℝ) ≤ 3 by norm_num)
  generalize √(3 : ℝ) = r at h ⊢
  kub_cases 3
  all_goals grind

/-- The unit prism has volume 1/2: the 6-point rule gives it exactly. -/
example : integrate kubatko_yeager_maggi_3b (fun _ => 1)
    ![![![0, 0, 0], ![1, 0, 0], ![0, 1, 0]], ![![0, 0, 1], ![1, 0, 1], ![0, 1, 1]]] =
    ∫ _ in convexHull ℝ (Set.range fun k : Fin 2 × Fin 3 =>
      (![![![0, 0, 0], ![1, 0, 0], ![0, 1, 0]], ![![0, 0, 1], ![1, 0, 1], ![0, 1, 1]]] :
        Fin 2 → Fin 3 → Fin 3 → ℝ) k.1 k.2), (1 : ℝ) := by
  have := C50_kubatko_3b.2 ![![![0, 0, 0], ![1, 0, 0], ![0, 1, 0]], ![![0, 0, 1], ![1, 0, 1], ![0, 1, 1]]]
    (by constructor <;> (ext i; fin_cases i <;> simp)) 1 (by simp)
  simpa using this

end Quadpy.W3
