/-
Sums over product rules.
-/
import Verif.Lemmas.C1Exact
import Verif.Lemmas.Mono
import Verif.Lemmas.SimplexFrame
import Verif.Model.Product

namespace Quadpy
open Finset Adaptive

theorem plainScheme_eq (dim : ℕ) (w : List ℝ) (p : List (List ℝ)) (d : ℕ) :
    plainScheme dim w p d = ⟨dim, w, p, d⟩ := by
  have e : ∀ c : List ℝ, orbit dim .plain c = [c] := fun c => by
    unfold orbit; rfl
  simp only [plainScheme, schemeOfSym, expandSymmetries, entryPoints, entryWeights, List.map_cons,
    List.map_nil, List.flatten_cons, List.flatten_nil, List.append_nil, e, List.length_singleton,
    List.range_one, List.flatMap_cons, List.flatMap_nil, List.replicate_one]
  simp

/-- The sum of a rule with values in a product set. -/
theorem dot_flatMap {α β : Type} (m : ℕ) (A : List α) (B : List β) (W : α → List ℝ)
    (P : β → List (List ℝ)) (h : ∀ a ∈ A, ∀ b ∈ B, (W a).length = (P b).length)
    (f : (Fin m → ℝ) → ℝ) :
    dot m (A.flatMap W) (B.flatMap P) f = (List.zipWith (fun a b => dot m (W a) (P b) f) A B).sum := by
  induction A generalizing B with
  | nil => simp [dot]
  | cons a A ih =>
    cases B with
    | nil => simp [dot]
    | cons b B =>
      rw [List.flatMap_cons, List.flatMap_cons, List.zipWith_cons_cons, List.sum_cons,
        ← ih B fun x hx y hy => h x (by simp [hx]) y (by simp [hy])]
      have := h a (by simp) b (by simp)
      unfold dot
      rw [List.zipWith_append this, List.sum_append]

theorem dot_map_map {α β : Type} (m : ℕ) (A : List α) (B : List β) (g : α → ℝ) (r : β → List ℝ)
    (f : (Fin m → ℝ) → ℝ) :
    dot m (A.map g) (B.map r) f = (List.zipWith (fun a b => g a * f (toVec m (r b))) A B).sum := by
  unfold dot
  rw [List.zipWith_map]

theorem zipWith_sum_mul_left {α β : Type} (A : List α) (B : List β) (c : ℝ) (F : α → β → ℝ) :
    (List.zipWith (fun a b => c * F a b) A B).sum = c * (List.zipWith F A B).sum := by
  induction A generalizing B with
  | nil => simp
  | cons a A ih =>
    cases B with
    | nil => simp
    | cons b B => simp only [List.zipWith_cons_cons, List.sum_cons, ih, mul_add]

theorem zipWith_sum_eq {w p : List ℝ} (F : ℝ → ℝ) :
    (List.zipWith (fun a x => a * F x) w p).sum = vdot (p.map F) w := by
  unfold vdot
  rw [List.zipWith_comm, List.zipWith_map_left]
  congr 1
  congr 1
  funext a b; ring

theorem zipWith_range_sum (n : ℕ) (F : ℕ → ℕ → ℝ) :
    (List.zipWith F (List.range n) (List.range n)).sum = ∑ k ∈ range n, F k k := by
  rw [List.zipWith_self, list_range_sum]

/-- What exactness says about powers. -/
theorem exactC1_pow {p w : List ℝ} {d : ℕ} (h : Spec.ExactC1 p w d) {k : ℕ} (hk : k ≤ d) :
    vdot (p.map fun x => x ^ k) w = ∫ x in (-1 : ℝ)..1, x ^ k := by
  have := h.2 (Polynomial.X ^ k) (by simpa using hk)
  simpa using this

end Quadpy
