import Verif.Props.C09
import Verif.Lemmas.LowDim
import Verif.Lemmas.SimplexGroups
import Verif.Lemmas.PowerForm
import Mathlib.Data.Fin.Tuple.Sort

/-! Rules which are invariant under a group: the degree is decided by invariant polynomials. -/

namespace Quadpy
open Finset

/-- A polynomial which is a monomial. -/
theorem exact_mono {n d : ℕ} {Q J : Spec.Functional n} (h : Spec.ExactUpTo d Q J) (α : Fin n → ℕ)
    (hα : ∑ i, α i ≤ d) : Q (mono α) = J (mono α) := by
  have e : (fun x => MvPolynomial.eval x (∏ i, (MvPolynomial.X i : MvPolynomial (Fin n) ℝ) ^ α i)) =
      mono α := by
    funext x
    simp [mono]
  have := h (∏ i, MvPolynomial.X i ^ α i) (by
    refine (MvPolynomial.totalDegree_finsetProd _ _).trans (le_trans (sum_le_sum fun i _ => ?_) hα)
    exact (MvPolynomial.totalDegree_pow _ _).trans (by simp))
  rwa [e] at this

theorem exists_antitone {n : ℕ} (p : Fin n → ℕ) : ∃ σ : Equiv.Perm (Fin n), Antitone (p ∘ σ) := by
  refine ⟨Tuple.sort (fun i => OrderDual.toDual (p i)), ?_⟩
  exact Tuple.monotone_sort (fun i => OrderDual.toDual (p i))

theorem mono_signedPerm {n : ℕ} (σ : Equiv.Perm (Fin n)) (ε : Fin n → ℤˣ) (α : Fin n → ℕ)
    (x : Fin n → ℝ) : mono α (signedPerm σ ε x) =
      (∏ i, ((ε i : ℤ) : ℝ) ^ α i) * mono (α ∘ σ.symm) x := by
  simp only [mono, signedPerm, mul_pow, prod_mul_distrib]
  congr 1
  rw [← Equiv.prod_comp σ.symm]
  simp

/-- Invariance under all permutations and sign changes of the coordinates. -/
def HyperInv (n : ℕ) (S : Scheme) : Prop :=
  ∀ (σ : Equiv.Perm (Fin n)) (ε : Fin n → ℤˣ) (f : (Fin n → ℝ) → ℝ),
    dot n S.weights S.points (fun x => f (signedPerm σ ε x)) = dot n S.weights S.points f

theorem dot_smul {n : ℕ} (w : List ℝ) (pts : List (List ℝ)) (c : ℝ) (f : (Fin n → ℝ) → ℝ) :
    dot n w pts (fun x => c * f x) = c * dot n w pts f := by
  have := dot_finset_sum w pts (Finset.univ : Finset (Fin 1)) (fun _ => c) (fun _ => f)
  simpa using this

theorem HyperInv.odd {n : ℕ} {S : Scheme} (h : HyperInv n S) {α : Fin n → ℕ} (hα : ∃ i, Odd (α i)) :
    dot n S.weights S.points (mono α) = 0 := by
  obtain ⟨i, hi⟩ := hα
  have := h 1 (Pi.mulSingle i (-1)) (mono α)
  have e : (fun x => mono α (signedPerm 1 (Pi.mulSingle i (-1)) x)) = fun x => (-1) * mono α x := by
    funext x
    rw [mono_signedPerm]
    congr 1
    rw [Finset.prod_eq_single i]
    · simp [hi.neg_one_pow]
    · intro j _ hj
      simp [Pi.mulSingle_eq_of_ne hj]
    · simp
  rw [e, dot_smul] at this
  linarith

theorem HyperInv.perm {n : ℕ} {S : Scheme} (h : HyperInv n S) (α : Fin n → ℕ) (σ : Equiv.Perm (Fin n)) :
    dot n S.weights S.points (mono (α ∘ σ)) = dot n S.weights S.points (mono α) := by
  have := h σ.symm 1 (mono α)
  have e : (fun x => mono α (signedPerm σ.symm 1 x)) = mono (α ∘ σ) := by
    funext x
    rw [mono_signedPerm]
    simp
  rwa [e] at this

/-- A rule with the symmetries of the cube has degree `d` if and only if it is exact for the monomials with
even, decreasing exponents. -/
theorem HyperInv.exact_iff {n : ℕ} {S : Scheme} (h : HyperInv n S) (hS : S.WellShaped n)
    {J : Spec.Functional n} {E : (Fin n → ℕ) → ℝ} (hJ : EvenMom J E) (h1 : J (fun _ => 1) ≠ 0)
    (hE : ∀ p (σ : Equiv.Perm (Fin n)), E (p ∘ σ) = E p) :
    S.ExactRel n J ↔ ∀ p : Fin n → ℕ, Antitone p → 2 * ∑ i, p i ≤ S.degree →
      dot n S.weights S.points (mono fun i => 2 * p i) = E p := by
  constructor
  · intro hx p _ hp
    have := exact_mono hx.2 (fun i => 2 * p i) (by rwa [← mul_sum])
    rw [hJ.even] at this
    exact mul_left_cancel₀ h1 this
  · intro hx
    refine ⟨hS, exactUpTo_of_mono ((dot_linOnMono _ _).const_mul _) hJ.lin fun α hα => ?_⟩
    beta_reduce
    by_cases hodd : ∃ i, Odd (α i)
    · rw [hJ.odd α hodd, h.odd hodd, mul_zero]
    · push Not at hodd
      choose p hp using fun i => (Nat.not_odd_iff_even.1 (hodd i)).two_dvd
      obtain rfl : α = fun i => 2 * p i := funext hp
      obtain ⟨σ, hσ⟩ := exists_antitone p
      have h2 := hx (p ∘ σ) hσ (by
        rw [show ∑ i, (p ∘ σ) i = ∑ i, p i from Equiv.sum_comp σ p, mul_sum]; exact hα)
      rw [hE] at h2
      rw [hJ.even, ← h2]
      congr 1
      exact (h.perm (fun i => 2 * p i) σ).symm

/-- The last step of the degree is free: from `2 k` to `2 k + 1`. -/
theorem HyperInv.odd_degree {n : ℕ} {S : Scheme} (h : HyperInv n S)
    {J : Spec.Functional n} {E : (Fin n → ℕ) → ℝ} (hJ : EvenMom J E) (he : Even S.degree)
    (hx : S.ExactRel n J) : ({ S with degree := S.degree + 1 } : Scheme).ExactRel n J := by
  refine ⟨hx.1, exactUpTo_of_mono ((dot_linOnMono _ _).const_mul _) hJ.lin fun α hα => ?_⟩
  beta_reduce
  by_cases hodd : ∃ i, Odd (α i)
  · rw [hJ.odd α hodd]
    have := h.odd hodd
    rw [show dot n ({ S with degree := S.degree + 1 } : Scheme).weights
      ({ S with degree := S.degree + 1 } : Scheme).points (mono α) = 0 from this, mul_zero]
  · push Not at hodd
    refine exact_mono hx.2 α ?_
    have hs : Even (∑ i, α i) := Finset.even_sum _ fun i _ => Nat.not_odd_iff_even.1 (hodd i)
    have hα : ∑ i, α i ≤ S.degree + 1 := hα
    obtain ⟨a, ha⟩ := hs
    obtain ⟨b, hb⟩ := he
    omega

/-! On the sphere `x₁² + ... + x_n² = 1`, and the monomials of the highest even degree suffice. -/

theorem dot_congr {n : ℕ} {w : List ℝ} {pts : List (List ℝ)} {f g : (Fin n → ℝ) → ℝ}
    (h : ∀ x ∈ pts, f (toVec n x) = g (toVec n x)) : dot n w pts f = dot n w pts g := by
  unfold dot
  congr 1
  exact zipWith_congr_mem _ _ _ _ fun a b hb => by rw [h b hb]

theorem mono_add_single_one {n : ℕ} (α : Fin n → ℕ) (i : Fin n) (k : ℕ) (x : Fin n → ℝ) :
    mono (α + Pi.single i k) x = x i ^ k * mono α x := by
  simp only [mono, Pi.add_apply, pow_add, prod_mul_distrib]
  rw [mul_comm]
  congr 1
  rw [prod_eq_single i]
  · simp
  · intro j _ hj
    simp [Pi.single_eq_of_ne hj]
  · simp

theorem sphere_top {n : ℕ} (hn : 0 < n) {S : Scheme}
    (hu : ∀ x ∈ S.points, ∑ i, toVec n x i ^ 2 = 1) (k : ℕ)
    (h : ∀ p : Fin n → ℕ, ∑ i, p i = k →
      dot n S.weights S.points (mono fun i => 2 * p i) = (∏ i, oddFac (p i)) / stepFac n k) :
    ∀ p : Fin n → ℕ, ∑ i, p i ≤ k →
      dot n S.weights S.points (mono fun i => 2 * p i) = (∏ i, oddFac (p i)) / stepFac n (∑ i, p i) := by
  suffices ∀ (m : ℕ) (p : Fin n → ℕ), ∑ i, p i + m = k →
      dot n S.weights S.points (mono fun i => 2 * p i) = (∏ i, oddFac (p i)) / stepFac n (∑ i, p i) by
    intro p hp
    exact this (k - ∑ i, p i) p (by omega)
  intro m
  induction m with
  | zero =>
    intro p hp
    rw [add_zero] at hp
    rw [hp, h p hp]
  | succ m ih =>
    intro p hp
    have hs : ∀ i, ∑ j, (p + Pi.single i 1 : Fin n → ℕ) j = ∑ j, p j + 1 := by
      intro i
      simp only [Pi.add_apply, sum_add_distrib]
      simp [Pi.single_apply]
    have h1 := fun i => ih (p + Pi.single i 1) (by rw [hs]; omega)
    have e : dot n S.weights S.points (mono fun i => 2 * p i) =
        ∑ i, dot n S.weights S.points (mono fun j => 2 * (p + Pi.single i 1 : Fin n → ℕ) j) := by
      have h2 := dot_finset_sum S.weights S.points (univ : Finset (Fin n)) (fun _ => 1)
        (fun i => mono fun j => 2 * (p + Pi.single i 1 : Fin n → ℕ) j)
      simp only [one_mul] at h2
      rw [← h2]
      refine dot_congr fun x hx => ?_
      have : ∀ i, (fun j => 2 * (p + Pi.single i 1 : Fin n → ℕ) j) =
          (fun j => 2 * p j) + Pi.single i 2 := by
        intro i
        funext j
        by_cases hj : j = i
        · subst hj; simp; ring
        · simp [Pi.single_eq_of_ne hj]
      simp only [this, mono_add_single_one]
      rw [← sum_mul, hu x hx, one_mul]
    have hprod : ∀ i, ∏ j, oddFac ((p + Pi.single i 1 : Fin n → ℕ) j) =
        (2 * p i + 1) * ∏ j, oddFac (p j) := by
      intro i
      rw [← mul_prod_erase univ _ (mem_univ i), ← mul_prod_erase univ (fun j => oddFac (p j)) (mem_univ i)]
      rw [prod_congr rfl (g := fun j => oddFac (p j)) fun j hj => by simp [ne_of_mem_erase hj]]
      simp [oddFac]
      ring
    rw [e, sum_congr rfl fun i _ => h1 i]
    simp only [hs, hprod, stepFac]
    rw [← sum_div, ← sum_mul]
    have h3 : ∑ i : Fin n, (2 * (p i : ℝ) + 1) = n + 2 * ((∑ i, p i : ℕ) : ℝ) := by
      rw [sum_add_distrib, ← mul_sum]
      simp
      ring
    have h4 : (n : ℝ) + 2 * ((∑ i, p i : ℕ) : ℝ) ≠ 0 := by positivity
    rw [h3, mul_div_mul_left _ _ h4]

/-- A rule on the sphere with the symmetries of the cube. -/
theorem HyperInv.sphere_iff {n : ℕ} (hn : 0 < n) {S : Scheme} (h : HyperInv n S) (hS : S.WellShaped n)
    (hu : ∀ x ∈ S.points, ∑ i, toVec n x i ^ 2 = 1) :
    S.ExactOnSphere n ↔ ∀ p : Fin n → ℕ, Antitone p → ∑ i, p i = S.degree / 2 →
      dot n S.weights S.points (mono fun i => 2 * p i) = (∏ i, oddFac (p i)) / stepFac n (S.degree / 2) := by
  have hE : ∀ p (σ : Equiv.Perm (Fin n)), (∏ i, oddFac ((p ∘ σ) i)) / stepFac n (∑ i, (p ∘ σ) i) =
      (∏ i, oddFac (p i)) / stepFac n (∑ i, p i) := by
    intro p σ
    rw [show ∑ i, (p ∘ σ) i = ∑ i, p i from Equiv.sum_comp σ p,
      show ∏ i, oddFac ((p ∘ σ) i) = ∏ i, oddFac (p i) from Equiv.prod_comp σ fun i => oddFac (p i)]
  have h1 : Spec.sphere n (fun _ => 1) ≠ 0 := by
    have hG : Real.Gamma ((n : ℝ) / 2) ≠ 0 := (Real.Gamma_pos_of_pos (by positivity)).ne'
    rw [one_eq_mono, sphere_mono' hn]
    have : sphereArea n ≠ 0 := by unfold sphereArea; positivity
    simp [sphMom, g1_zero, hG, this]
  refine (h.exact_iff hS (sphere_even hn) h1 hE).trans ?_
  constructor
  · intro hx p hp hs
    rw [hx p hp (by omega), hs]
  · intro hx p hp hs
    refine sphere_top hn hu (S.degree / 2) (fun q hq => ?_) p (by omega)
    obtain ⟨σ, hσ⟩ := exists_antitone q
    have h2 : ∑ i, (q ∘ σ) i = S.degree / 2 := by
      rw [show ∑ i, (q ∘ σ) i = ∑ i, q i from Equiv.sum_comp σ q, hq]
    have h3 := hx (q ∘ σ) hσ h2
    have h4 := hE q σ
    rw [h2, hq] at h4
    rw [← h4, ← h3]
    exact (h.perm (fun i => 2 * q i) σ).symm

/-! Simplices: monomials in barycentric coordinates of the full degree. -/

/-- Invariance under all permutations of the vertices. -/
def PermInv (n : ℕ) (S : Scheme) : Prop :=
  ∀ (σ : Equiv.Perm (Fin n)) (f : (Fin n → ℝ) → ℝ),
    dot n S.weights S.points (fun x => f (fun i => x (σ i))) = dot n S.weights S.points f

theorem PermInv.perm {n : ℕ} {S : Scheme} (h : PermInv n S) (α : Fin n → ℕ) (σ : Equiv.Perm (Fin n)) :
    dot n S.weights S.points (mono (α ∘ σ)) = dot n S.weights S.points (mono α) := by
  have := h σ.symm (mono α)
  have e : (fun x : Fin n → ℝ => mono α (fun i => x (σ.symm i))) = mono (α ∘ σ) := by
    funext x
    simp only [mono]
    rw [← Equiv.prod_comp σ]
    simp
  rwa [e] at this

theorem simplex_top {n : ℕ} {S : Scheme} (hp : ∀ x ∈ S.points, ∑ i, toVec (n + 1) x i = 1) (k : ℕ)
    (h : ∀ β : Fin (n + 1) → ℕ, ∑ i, β i = k → dot (n + 1) S.weights S.points (mono β) = baryMom β) :
    ∀ β : Fin (n + 1) → ℕ, ∑ i, β i ≤ k → dot (n + 1) S.weights S.points (mono β) = baryMom β := by
  suffices ∀ (m : ℕ) (β : Fin (n + 1) → ℕ), ∑ i, β i + m = k →
      dot (n + 1) S.weights S.points (mono β) = baryMom β by
    intro β hβ
    exact this (k - ∑ i, β i) β (by omega)
  intro m
  induction m with
  | zero => exact fun β hβ => h β (by omega)
  | succ m ih =>
    intro β hβ
    have hs : ∀ i, ∑ j, (β + Pi.single i 1 : Fin (n + 1) → ℕ) j = ∑ j, β j + 1 := by
      intro i
      simp only [Pi.add_apply, sum_add_distrib]
      simp [Pi.single_apply]
    have h1 := fun i => ih (β + Pi.single i 1) (by rw [hs]; omega)
    rw [baryMom_sum]
    simp only [← h1]
    have h2 := dot_finset_sum S.weights S.points (univ : Finset (Fin (n + 1))) (fun _ => 1)
      (fun i => mono (β + Pi.single i 1))
    simp only [one_mul] at h2
    rw [← h2]
    refine dot_congr fun x hx => ?_
    simp only [mono_add_single_one, pow_one]
    rw [← sum_mul, hp x hx, one_mul]

/-- The other direction of `exactOnSimplex_of_moments`. -/
theorem moments_of_exactOnSimplex {n : ℕ} {S : Scheme} (h : S.ExactOnSimplex n) (β : Fin (n + 1) → ℕ)
    (hβ : ∑ i, β i ≤ S.degree) : dot (n + 1) S.weights S.points (mono β) = baryMom β := by
  have hf : (n.factorial : ℝ) ≠ 0 := by positivity
  let p : MvPolynomial (Fin n) ℝ :=
    (1 - ∑ i, MvPolynomial.X i) ^ β 0 * ∏ i, MvPolynomial.X i ^ β i.succ
  have e : ∀ x, MvPolynomial.eval x p = (1 - ∑ i, x i) ^ β 0 * mono (fun i => β (Fin.succ i)) x := by
    intro x
    simp [p, mono]
  have hd : p.totalDegree ≤ S.degree := by
    refine (MvPolynomial.totalDegree_mul _ _).trans ?_
    refine le_trans (add_le_add ((MvPolynomial.totalDegree_pow _ _).trans (Nat.mul_le_mul_left _ ?_))
      ((MvPolynomial.totalDegree_finsetProd _ _).trans (sum_le_sum fun i _ =>
        (MvPolynomial.totalDegree_pow _ _).trans (by simp :
          _ ≤ β (Fin.succ i))))) (?_ : β 0 * 1 + ∑ i, β (Fin.succ i) ≤ _)
    · refine (MvPolynomial.totalDegree_sub _ _).trans (max_le (by simp) ?_)
      exact MvPolynomial.totalDegree_finsetSum_le fun i _ => by simp
    · rw [mul_one, ← Fin.sum_univ_succ]; exact hβ
  have hx := h.2 p hd
  simp only [e] at hx
  have hJ := dirichlet (fun i : Fin n => β i.succ) (β 0) 1 zero_le_one
  rw [one_pow, mul_one] at hJ
  have hJ' : Spec.simplex n (fun x => (1 - ∑ i, x i) ^ β 0 * mono (fun i => β (Fin.succ i)) x) = _ := hJ
  rw [hJ'] at hx
  have e2 : dot (n + 1) S.weights S.points (fun xi : Fin (n + 1) → ℝ =>
      (1 - ∑ i : Fin n, xi i.succ) ^ β 0 * mono (fun i => β (Fin.succ i)) fun i => xi i.succ) =
      dot (n + 1) S.weights S.points (mono β) := by
    refine dot_congr fun x hx => ?_
    have h1 : ∑ i, toVec (n + 1) x i = 1 := by
      rw [← (h.1.2.2 x hx).2]
      have := sum_toVec_pow x (h.1.2.2 x hx).1 1
      simpa using this
    rw [Fin.sum_univ_succ] at h1
    rw [show 1 - ∑ i : Fin n, toVec (n + 1) x i.succ = toVec (n + 1) x 0 by linarith]
    simp [mono, Fin.prod_univ_succ]
  rw [e2] at hx
  have : dot (n + 1) S.weights S.points (mono β) = n.factorial * (1 / (n.factorial : ℝ) *
      dot (n + 1) S.weights S.points (mono β)) := by field_simp
  rw [this, hx, baryMom, Fin.prod_univ_succ, Fin.sum_univ_succ, Nat.add_sub_cancel, ← add_assoc]
  ring

/-- A rule with the symmetries of the simplex. -/
theorem PermInv.simplex_iff {n : ℕ} {S : Scheme} (h : PermInv (n + 1) S) (hdim : S.dim = n)
    (hlen : S.weights.length = S.points.length)
    (hpts : ∀ x ∈ S.points, x.length = n + 1 ∧ x.sum = 1) :
    S.ExactOnSimplex n ↔ ∀ β : Fin (n + 1) → ℕ, Antitone β → ∑ i, β i = S.degree →
      dot (n + 1) S.weights S.points (mono β) = baryMom β := by
  constructor
  · intro hx β _ hβ
    exact moments_of_exactOnSimplex hx β hβ.le
  · intro hx
    have hs : ∀ x ∈ S.points, ∑ i, toVec (n + 1) x i = 1 := by
      intro x hx
      rw [← (hpts x hx).2]
      have := sum_toVec_pow x (hpts x hx).1 1
      simpa using this
    refine exactOnSimplex_of_moments S hdim hlen hpts (simplex_top hs S.degree fun β hβ => ?_)
    obtain ⟨σ, hσ⟩ := exists_antitone β
    rw [← h.perm β σ, ← baryMom_perm β σ]
    exact hx _ hσ (by rw [show ∑ i, (β ∘ σ) i = ∑ i, β i from Equiv.sum_comp σ β, hβ])

end Quadpy
