import Verif.Model.Triangle
import Verif.Spec.Triforce
import Verif.Props.C11
import Mathlib.Data.List.Forall2
import Mathlib.Data.List.Perm.Basic
import Mathlib.Tactic.NormNum

/-!
# The loop of the adaptive triangle integration
-/

namespace Quadpy
namespace T2
open Spec

set_option linter.unusedSectionVars false

variable {ι : Type} [Fintype ι] {m : ℕ}

/-! ### Areas -/

theorem getVol_scale {n m : ℕ} (v : Fin (n + 1) → Fin m → ℝ) (c : ℝ) :
    Tn.getVol (fun i k => c * v i k) = |c| ^ n * Tn.getVol v := by
  rw [Tn.C12_gram, Tn.C12_gram]
  have h : Tn.edgeMatrix (fun i k => c * v i k) = c • Tn.edgeMatrix v := by
    ext i k
    simp [Tn.edgeMatrix, mul_sub]
  rw [h, Matrix.transpose_smul, Matrix.smul_mul, Matrix.mul_smul, smul_smul, Matrix.det_smul,
    Fintype.card_fin, Real.sqrt_mul (pow_nonneg (mul_self_nonneg c) n), ← abs_mul_abs_self c, ← pow_two, ← pow_mul,
    mul_comm 2 n, pow_mul, Real.sqrt_sq (by positivity)]
  ring

theorem getVol_half {n m : ℕ} (v w : Fin (n + 1) → Fin m → ℝ) (c : ℝ) (hc : |c| = 1 / 2)
    (b : Fin m → ℝ) (σ : Equiv.Perm (Fin (n + 1))) (h : ∀ i k, w i k = c * v (σ i) k + b k) :
    Tn.getVol w = (1 / 2) ^ n * Tn.getVol v := by
  rw [show w = fun i k => c * v (σ i) k + b k from funext fun i => funext (h i),
    Tn.C12_translation (fun i k => c * v (σ i) k), getVol_scale (fun i => v (σ i)), hc,
    Tn.C12_perm]

theorem vol_parts (a b c : Fin m → ℝ) :
    Tn.getVol ![a, mid a c, mid a b] = 1 / 4 * Tn.getVol ![a, b, c] ∧
    Tn.getVol ![b, mid a b, mid b c] = 1 / 4 * Tn.getVol ![a, b, c] ∧
    Tn.getVol ![c, mid b c, mid a c] = 1 / 4 * Tn.getVol ![a, b, c] ∧
    Tn.getVol ![mid b c, mid a c, mid a b] = 1 / 4 * Tn.getVol ![a, b, c] := by
  have e : (1 / 4 : ℝ) = (1 / 2) ^ 2 := by norm_num
  rw [e]
  refine ⟨?_, ?_, ?_, ?_⟩
  · refine getVol_half _ _ (1 / 2) (by norm_num) (fun k => 1 / 2 * a k) (Equiv.swap 1 2) ?_
    intro i k
    fin_cases i <;> simp [Equiv.swap_apply_def, mid] <;> ring
  · refine getVol_half _ _ (1 / 2) (by norm_num) (fun k => 1 / 2 * b k) (Equiv.swap 0 1) ?_
    intro i k
    fin_cases i <;> simp [Equiv.swap_apply_def, mid] <;> ring
  · refine getVol_half _ _ (1 / 2) (by norm_num) (fun k => 1 / 2 * c k) (Equiv.swap 0 2) ?_
    intro i k
    fin_cases i <;> simp [Equiv.swap_apply_def, mid] <;> ring
  · refine getVol_half _ _ (-(1 / 2)) (by norm_num) (fun k => 1 / 2 * (a k + b k + c k)) 1 ?_
    intro i k
    fin_cases i <;> simp [mid] <;> ring

/-! ### Partitions -/

theorem triforce_total {δ : Type} (F : (Fin 3 → δ → ℝ) → ℝ)
    (hF : ∀ a b c : δ → ℝ, F ![a, mid a c, mid a b] + F ![b, mid a b, mid b c] +
      F ![c, mid b c, mid a c] + F ![mid b c, mid a c, mid a b] = F ![a, b, c])
    {Ts L : List (Fin 3 → δ → ℝ)} (h : Triforce Ts L) : (L.map F).sum = (Ts.map F).sum := by
  induction h with
  | whole => rfl
  | perm L L' _ hp ih => rw [← ih, (hp.map F).sum_eq]
  | cut a b c L _ ih =>
    rw [← ih]
    simp only [List.map_cons, List.sum_cons]
    rw [← hF a b c]
    ring

theorem tri_eta {δ : Type} (T : Fin 3 → δ → ℝ) : ![T 0, T 1, T 2] = T := by
  funext i
  fin_cases i <;> rfl

theorem mid_comm {δ : Type} (a b : δ → ℝ) : mid a b = mid b a := by
  funext i; simp [mid, add_comm]

theorem midpoints_eq (T : Tri m) :
    midpoints T 0 = mid (T 1) (T 2) ∧ midpoints T 1 = mid (T 0) (T 2) ∧
      midpoints T 2 = mid (T 0) (T 1) := by
  refine ⟨?_, ?_, ?_⟩ <;> funext k <;> simp [midpoints, mid] <;> ring

/-- The four parts of a triangle. -/
noncomputable def parts (T : Tri m) : List (Tri m) :=
  [![T 0, mid (T 0) (T 2), mid (T 0) (T 1)], ![T 1, mid (T 0) (T 1), mid (T 1) (T 2)],
    ![T 2, mid (T 1) (T 2), mid (T 0) (T 2)],
    ![mid (T 1) (T 2), mid (T 0) (T 2), mid (T 0) (T 1)]]

theorem split_perm (L : List (Tri m)) : (split L).Perm (L.map parts).flatten := by
  induction L with
  | nil => simp [split]
  | cons T L ih =>
    rw [List.map_cons, List.flatten_cons]
    refine List.Perm.trans ?_ (ih.append_left _)
    obtain ⟨h0, h1, h2⟩ := midpoints_eq T
    simp only [split, parts, List.map_cons, h0, h1, h2]
    generalize L.map _ = A
    generalize L.map _ = B
    generalize L.map _ = C
    generalize L.map _ = D
    rw [List.perm_iff_count]
    intro x
    simp only [List.count_append, List.count_cons, List.count_nil]
    omega

theorem triforce_split {Ts M L : List (Tri m)} (h : Triforce Ts (M ++ L)) :
    Triforce Ts (M ++ split L) := by
  refine .perm _ (M ++ (L.map parts).flatten) _ ?_ ((split_perm L).symm.append_left M)
  induction L generalizing M with
  | nil => simpa using h
  | cons T L ih =>
    have h1 : Triforce Ts (![T 0, T 1, T 2] :: (M ++ L)) := by
      rw [tri_eta]; exact .perm _ _ _ h List.perm_middle
    have h2 : Triforce Ts ((parts T ++ M) ++ L) := by
      rw [List.append_assoc]; exact .cut _ _ _ _ _ h1
    refine .perm _ _ _ (ih h2) ?_
    rw [List.map_cons, List.flatten_cons, ← List.append_assoc]
    exact List.perm_append_comm.append_right _

/-! ### The loop -/

/-- What holds after every evaluation: `acc` are the accepted triangles. -/
structure Inv (R : Rules) (f : (Fin m → ℝ) → ι → ℝ) (eps A : ℝ) (Ts acc : List (Tri m))
    (s : State m ι) : Prop where
  part : Triforce Ts (acc ++ s.bad)
  vals : s.values = total (val1 R f) acc
  errs : s.errors = total (err R f) acc
  good : ∀ T ∈ acc, good R f eps A T

theorem total_append (g : Tri m → ι → ℝ) (L L' : List (Tri m)) :
    total g (L ++ L') = fun i => total g L i + total g L' i := by
  funext i; simp [total]

theorem inv_evaluate {R : Rules} {f : (Fin m → ℝ) → ι → ℝ} {eps A : ℝ} {Ts acc New : List (Tri m)}
    {v e : ι → ℝ} (hp : Triforce Ts (acc ++ New)) (hv : v = total (val1 R f) acc)
    (he : e = total (err R f) acc) (hg : ∀ T ∈ acc, good R f eps A T) :
    Inv R f eps A Ts (acc ++ New.filter fun T => good R f eps A T)
      (evaluate R f eps A v e New) := by
  refine ⟨?_, ?_, ?_, ?_⟩
  · refine .perm _ _ _ hp ?_
    rw [List.append_assoc]
    exact ((List.filter_append_perm _ New).symm.append_left acc)
  · rw [total_append, ← hv]; rfl
  · rw [total_append, ← he]; rfl
  · intro T hT
    rcases List.mem_append.1 hT with h | h
    · exact hg T h
    · exact (List.mem_filter.1 h).2

/-- `k` rounds lead from `s` to `s'`. -/
inductive Reach (R : Rules) (f : (Fin m → ℝ) → ι → ℝ) (eps A minArea : ℝ) :
    ℕ → State m ι → State m ι → Prop
  | zero (s) : Reach R f eps A minArea 0 s s
  | succ {k s s'} : s.bad ≠ [] → (∀ T ∈ split s.bad, Tn.getVol T > minArea) →
      Reach R f eps A minArea k (evaluate R f eps A s.values s.errors (split s.bad)) s' →
      Reach R f eps A minArea (k + 1) s s'

theorem loop_returned {R : Rules} {f : (Fin m → ℝ) → ι → ℝ} {eps A minArea : ℝ} {fuel : ℕ}
    {s : State m ι} {v e : ι → ℝ} (h : loop R f eps A minArea fuel s = .returned v e) :
    ∃ k s', Reach R f eps A minArea k s s' ∧ s'.bad = [] ∧ v = s'.values ∧ e = s'.errors := by
  induction fuel generalizing s with
  | zero =>
    rw [loop] at h
    split_ifs at h with hb
    cases h
    exact ⟨0, s, .zero s, hb, rfl, rfl⟩
  | succ k ih =>
    rw [loop] at h
    split_ifs at h with hb ha
    · cases h
      exact ⟨0, s, .zero s, hb, rfl, rfl⟩
    · obtain ⟨k, s', hr, h'⟩ := ih h
      exact ⟨k + 1, s', .succ hb ha hr, h'⟩

theorem loop_running {R : Rules} {f : (Fin m → ℝ) → ι → ℝ} {eps A minArea : ℝ} {fuel : ℕ}
    {s s' : State m ι} (h : loop R f eps A minArea fuel s = .running s') :
    Reach R f eps A minArea fuel s s' ∧ s'.bad ≠ [] := by
  induction fuel generalizing s with
  | zero =>
    rw [loop] at h
    split_ifs at h with hb
    cases h
    exact ⟨.zero _, hb⟩
  | succ k ih =>
    rw [loop] at h
    split_ifs at h with hb ha
    obtain ⟨hr, h'⟩ := ih h
    exact ⟨.succ hb ha hr, h'⟩

theorem reach_inv {R : Rules} {f : (Fin m → ℝ) → ι → ℝ} {eps A minArea : ℝ} {k : ℕ}
    {s s' : State m ι} (h : Reach R f eps A minArea k s s') {Ts acc : List (Tri m)}
    (hi : Inv R f eps A Ts acc s) : ∃ acc', Inv R f eps A Ts acc' s' := by
  induction h generalizing acc with
  | zero => exact ⟨acc, hi⟩
  | succ _ _ _ ih => exact ih (inv_evaluate (triforce_split hi.part) hi.vals hi.errs hi.good)

theorem inv_init (R : Rules) (f : (Fin m → ℝ) → ι → ℝ) (eps A : ℝ) (Ts : List (Tri m)) :
    Inv R f eps A Ts (Ts.filter fun T => good R f eps A T) (evaluate R f eps A 0 0 Ts) := by
  have := inv_evaluate (R := R) (f := f) (eps := eps) (A := A) (Ts := Ts) (acc := []) (New := Ts)
    (v := 0) (e := 0) (.whole Ts) rfl rfl (by simp)
  simpa using this

/-- Every pending triangle has shrunk by `1 / 4` per round. -/
theorem reach_vol {R : Rules} {f : (Fin m → ℝ) → ι → ℝ} {eps A minArea : ℝ} {k : ℕ}
    {s s' : State m ι} (h : Reach R f eps A minArea k s s') {B : ℝ}
    (hB : ∀ T ∈ s.bad, Tn.getVol T ≤ B) : ∀ T ∈ s'.bad, Tn.getVol T ≤ B * (1 / 4) ^ k := by
  induction h generalizing B with
  | zero s => simpa using hB
  | @succ k s s' _ _ _ ih =>
    have : ∀ T ∈ (evaluate R f eps A s.values s.errors (split s.bad)).bad,
        Tn.getVol T ≤ B * (1 / 4) := by
      intro T hT
      have hT := (split_perm s.bad).mem_iff.1 (List.mem_filter.1 hT).1
      rw [List.mem_flatten] at hT
      obtain ⟨l, hl, hT⟩ := hT
      obtain ⟨U, hU, rfl⟩ := List.mem_map.1 hl
      have h4 := vol_parts (U 0) (U 1) (U 2)
      rw [tri_eta] at h4
      have h5 := hB U hU
      simp only [parts, List.mem_cons, List.not_mem_nil, or_false] at hT
      rcases hT with rfl | rfl | rfl | rfl <;> linarith [h4.1, h4.2.1, h4.2.2.1, h4.2.2.2]
    intro T hT
    have := ih this T hT
    rw [pow_succ']
    linarith

theorem reach_min {R : Rules} {f : (Fin m → ℝ) → ι → ℝ} {eps A minArea : ℝ} {k : ℕ}
    {s s' : State m ι} (h : Reach R f eps A minArea k s s') (hk : k ≠ 0) :
    ∀ T ∈ s'.bad, Tn.getVol T > minArea := by
  induction h with
  | zero s => exact absurd rfl hk
  | @succ k s s' _ ha hr ih =>
    rcases Nat.eq_zero_or_pos k with rfl | hk
    · cases hr
      intro T hT
      exact ha T (List.mem_filter.1 hT).1
    · exact ih (by omega)

end T2
end Quadpy
