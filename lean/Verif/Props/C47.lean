import Verif.Model.Kronrod
import Verif.Props.C20

/-!
C47: the degree of Gauss-Kronrod rules.
-/

namespace Quadpy

open OneDim Spec Polynomial

/-- `a` and `b` agree with the given coefficients on the copied part. -/
def OneDim.KPrefix (n : ℕ) (a0 b0 : ℕ → ℝ) (a b : ℕ → ℝ) : Prop :=
  (∀ i < 3 * n / 2 + 1, a i = a0 i) ∧ ∀ i < kronrodLength n, b i = b0 i

theorem OneDim.kronrodStep2_prefix {n m : ℕ} {a0 b0 : ℕ → ℝ} {st : KState} (hm : n - 1 ≤ m)
    (h : KPrefix n a0 b0 st.a st.b) :
    KPrefix n a0 b0 (kronrodStep2 n st m).a (kronrodStep2 n st m).b := by
  obtain ⟨h1, h2⟩ := h
  constructor
  · intro i hi
    simp only [kronrodStep2]
    by_cases hm2 : m % 2 = 0
    · rw [if_pos hm2, Function.update_of_ne (by omega)]; exact h1 i hi
    · rw [if_neg hm2]; exact h1 i hi
  · intro i hi
    simp only [kronrodStep2]
    rw [kronrodLength] at hi
    by_cases hm2 : m % 2 = 0
    · rw [if_pos hm2]; exact h2 i (by rw [kronrodLength]; omega)
    · rw [if_neg hm2, Function.update_of_ne (by omega)]; exact h2 i (by rw [kronrodLength]; omega)

theorem OneDim.foldl_step1_ab (n : ℕ) (l : List ℕ) (st : KState) :
    (l.foldl (kronrodStep1 n) st).a = st.a ∧ (l.foldl (kronrodStep1 n) st).b = st.b := by
  induction l generalizing st with
  | nil => exact ⟨rfl, rfl⟩
  | cons m l ih => exact ih _

theorem OneDim.foldl_step2_prefix {n : ℕ} {a0 b0 : ℕ → ℝ} (l : List ℕ) (st : KState)
    (hl : ∀ m ∈ l, n - 1 ≤ m) (h : KPrefix n a0 b0 st.a st.b) :
    KPrefix n a0 b0 (l.foldl (kronrodStep2 n) st).a (l.foldl (kronrodStep2 n) st).b := by
  induction l generalizing st with
  | nil => exact h
  | cons m l ih =>
    exact ih _ (fun m' h' => hl m' (List.mem_cons_of_mem _ h'))
      (kronrodStep2_prefix (hl m (by simp)) h)

/-- The computation leaves the first coefficients as they are. -/
theorem OneDim.rKronrod_prefix {n : ℕ} (hn : 0 < n) (a0 b0 : ℕ → ℝ) :
    KPrefix n a0 b0 (rKronrod n a0 b0).1 (rKronrod n a0 b0).2 := by
  have h0 : KPrefix n a0 b0 (kronrodInit n a0 b0).a (kronrodInit n a0 b0).b :=
    ⟨fun i hi => if_pos hi, fun i hi => if_pos hi⟩
  obtain ⟨e1, e2⟩ := foldl_step1_ab n (List.range (n - 1)) (kronrodInit n a0 b0)
  rw [← e1, ← e2] at h0
  have h2 := foldl_step2_prefix (List.range' (n - 1) (n - 1))
    (kronrodShift n ((List.range (n - 1)).foldl (kronrodStep1 n) (kronrodInit n a0 b0)))
    (fun m hm => by simp at hm; omega) h0
  refine ⟨fun i hi => ?_, h2.2⟩
  simp only [rKronrod]
  rw [Function.update_of_ne (by omega)]
  exact h2.1 i hi

/-- C47: whenever `gauss_kronrod(n, a, b)` has a result, it has `2n + 1` points and integrates every
polynomial of degree at most `3n + 1` exactly. -/
theorem C47_exact {n : ℕ} (hn : 0 < n) {a b : ℝ} (ha : -1 < a) (hb : -1 < b) {P W : List ℝ}
    (h : GaussKronrod n a b P W) :
    P.length = 2 * n + 1 ∧ W.sum = jacobiInt a b ∧ (∀ w ∈ W, 0 ≤ w) ∧ ExactL P W (3 * n + 1)
      (weightInt (Set.Ioo (-1) 1) fun x => (1 - x) ^ a * (1 + x) ^ b) := by
  obtain ⟨L, hL, hrec, hpos, h1, hβ⟩ := jacobi_functional ha hb
  have eL : (L : ℝ[X] → ℝ) = weightInt (Set.Ioo (-1) 1) fun x => (1 - x) ^ a * (1 + x) ^ b := funext hL
  have hpre := rKronrod_prefix hn (jacobiAlpha a b) (Function.update (jacobiBeta a b) 0 (jacobiInt a b))
  set α := jacobiAlpha a b
  set β := jacobiBeta a b
  have hβ0 : ∀ i, 0 < i → i < kronrodLength n →
      (rKronrod n α (Function.update β 0 (jacobiInt a b))).2 i = β i := fun i h0 hi => by
    rw [hpre.2 i hi, Function.update_of_ne (by omega)]
  have hLpos : 0 < L 1 := hpos 1 one_ne_zero fun x _ => by simp
  refine ⟨(schemeFromRc_length h).1, schemeFromRc_sum h, ?_, ?_⟩
  · rw [h1] at hLpos
    obtain ⟨-, x, V, -, -, rfl⟩ := h
    intro w hw
    obtain ⟨i, rfl⟩ := (List.mem_ofFn' _ _).1 hw
    have := hLpos.le
    positivity
  · rw [GaussKronrod, ← h1] at h
    rw [← eL]
    rcases Nat.even_or_odd n with ⟨k, rfl⟩ | ⟨k, rfl⟩
    · have hcongr := recPoly_congr (3 * k + 1) (fun i hi => (hpre.1 i (by omega)).symm)
        fun i h0 hi => (hβ0 i h0 (by rw [kronrodLength]; omega)).symm
      have := schemeFromRc_exact L (m := 3 * k + 1) (by omega) (by omega) (fun i j hij hj => by
        rw [h1, ← hcongr i (by omega), ← hcongr j hj]
        exact hrec (3 * k + 1) i j hij hj) h
      rwa [show 2 * (3 * k + 1) - 1 = 3 * (k + k) + 1 by omega] at this
    · have hcongr := recPoly_congr (3 * k + 2) (fun i hi => (hpre.1 i (by omega)).symm)
        fun i h0 hi => (hβ0 i h0 (by rw [kronrodLength]; omega)).symm
      have := schemeFromRc_exact_even L (m := 3 * k + 2) (by omega) (by omega) (fun i j hij hj => by
        rw [h1, ← hcongr i (by omega), ← hcongr j hj]
        exact hrec (3 * k + 2) i j hij hj) (by
          rw [h1, ← hcongr _ le_rfl, recPoly_norm L (hrec (3 * k + 3)) _ (by omega)]
          refine congrArg₂ _ (Finset.prod_congr rfl fun i hi => (hβ0 (i + 1) (by omega) ?_).symm) h1
          rw [kronrodLength]; simp at hi; omega) h
      rwa [show 2 * (3 * k + 2) = 3 * (2 * k + 1) + 1 by omega] at this

/-- C47: with one Gauss point, `gauss_kronrod(1)` has a result, of three points and degree 5 at most,
while it claims the degree 7. -/
theorem C47_degree_refuted {a b : ℝ} (ha : -1 < a) (hb : -1 < b) :
    (∃ P W, GaussKronrod 1 a b P W) ∧ kronrodDegree 1 = 7 ∧ ∀ P W, GaussKronrod 1 a b P W →
      ¬ ExactL P W 6 (weightInt (Set.Ioo (-1) 1) fun x => (1 - x) ^ a * (1 + x) ^ b) := by
  obtain ⟨L, hL, hrec, hpos, h1, hβ⟩ := jacobi_functional ha hb
  have eL : (L : ℝ[X] → ℝ) = weightInt (Set.Ioo (-1) 1) fun x => (1 - x) ^ a * (1 + x) ^ b := funext hL
  refine ⟨?_, rfl, fun P W h => ?_⟩
  · have hpre := rKronrod_prefix (n := 1) one_pos (jacobiAlpha a b)
      (Function.update (jacobiBeta a b) 0 (jacobiInt a b))
    refine schemeFromRc_exists _ _ _ _ fun k h0 hk => ?_
    rw [hpre.2 k (by rw [kronrodLength]; omega), Function.update_of_ne (by omega)]
    exact (hβ k h0).le
  · obtain ⟨-, x, V, -, rfl, rfl⟩ := h
    rw [← eL]
    refine not_exact (1 : ℝ[X]) ∅ (by simp) (by simp) fun f hf => hpos _ ?_ fun x _ => ?_
    · simpa using hf
    · rw [one_mul, eval_mul]; exact mul_self_nonneg _

end Quadpy
