import Verif.Lemmas.Radial
import Verif.Lemmas.CubeExact
import Verif.Spec.Schemes
import Mathlib.Analysis.SpecialFunctions.ImproperIntegrals

/-!
The ball, the sphere, `exp(-|x|)` and `exp(-|x|^2)` as moment functionals.
-/

namespace Quadpy
open MeasureTheory Finset

theorem g1_two : g1 2 = 1 / 2 := by rw [g1_succ, g1_zero]; norm_num
theorem g1_four : g1 4 = 3 / 4 := by rw [g1_succ, g1_two]; norm_num
theorem g1_six : g1 6 = 15 / 8 := by rw [g1_succ, g1_four]; norm_num

/-- `Γ(n/2) / Γ(n/2 + k)` -/
theorem gamma_ratio1 {n : ℕ} (hn : 0 < n) :
    Real.Gamma ((n : ℝ) / 2) / Real.Gamma ((n + 2) / 2) = 2 / n := by
  have h0 : (0 : ℝ) < n := by exact_mod_cast hn
  have h1 : Real.Gamma ((n : ℝ) / 2) ≠ 0 := (Real.Gamma_pos_of_pos (by positivity)).ne'
  rw [show ((n : ℝ) + 2) / 2 = n / 2 + 1 by ring, Real.Gamma_add_one (by positivity)]
  field_simp

theorem gamma_ratio2 {n : ℕ} (hn : 0 < n) :
    Real.Gamma ((n : ℝ) / 2) / Real.Gamma ((n + 4) / 2) = 4 / (n * (n + 2)) := by
  have h0 : (0 : ℝ) < n := by exact_mod_cast hn
  have h1 : Real.Gamma ((n : ℝ) / 2) ≠ 0 := (Real.Gamma_pos_of_pos (by positivity)).ne'
  rw [show ((n : ℝ) + 4) / 2 = n / 2 + 1 + 1 by ring, Real.Gamma_add_one (by positivity),
    Real.Gamma_add_one (by positivity)]
  field_simp
  ring

theorem gamma_ratio3 {n : ℕ} (hn : 0 < n) :
    Real.Gamma ((n : ℝ) / 2) / Real.Gamma ((n + 6) / 2) = 8 / (n * (n + 2) * (n + 4)) := by
  have h0 : (0 : ℝ) < n := by exact_mod_cast hn
  have h1 : Real.Gamma ((n : ℝ) / 2) ≠ 0 := (Real.Gamma_pos_of_pos (by positivity)).ne'
  rw [show ((n : ℝ) + 6) / 2 = n / 2 + 1 + 1 + 1 by ring, Real.Gamma_add_one (by positivity),
    Real.Gamma_add_one (by positivity), Real.Gamma_add_one (by positivity)]
  field_simp
  ring

/-- The normalised moments of a radial weight with radial moments `ρ`. -/
noncomputable def radMom {n : ℕ} (ρ : ℕ → ℝ) (α : Fin n → ℕ) : ℝ := ρ (∑ i, α i) * sphMom α

theorem sum_e1 {n : ℕ} (a : Fin n) (k : ℕ) : ∑ i, e1 a k i = k := by simp [e1]
theorem sum_e2 {n : ℕ} (a b : Fin n) (k l : ℕ) : ∑ i, e2 a b k l i = k + l := by
  simp [e2, sum_add_distrib]
theorem sum_e3 {n : ℕ} (a b c : Fin n) (k l m : ℕ) : ∑ i, e3 a b c k l m i = k + l + m := by
  simp [e3, e2, sum_add_distrib]

theorem sphMom_eq {n : ℕ} (α : Fin n → ℕ) (k : ℕ) (h : ∑ i, α i = k) :
    sphMom α = (∏ i, g1 (α i)) * (Real.Gamma (n / 2) / Real.Gamma ((n + k) / 2)) := by
  rw [sphMom, ← h]; push_cast; rfl

theorem radial_symMom {n : ℕ} (hn : 0 < n) (ρ : ℕ → ℝ) (h0 : ρ 0 = 1) :
    SymMom (n := n) (radMom ρ) (ρ 2 / n) (3 * ρ 4 / (n * (n + 2))) (ρ 4 / (n * (n + 2)))
      (15 * ρ 6 / (n * (n + 2) * (n + 4))) (3 * ρ 6 / (n * (n + 2) * (n + 4)))
      (ρ 6 / (n * (n + 2) * (n + 4))) where
  odd := by
    rintro α ⟨i, hi⟩
    rw [radMom, sphMom, prod_eq_zero (mem_univ i) (g1_odd hi)]; ring
  zero := by
    have h1 : Real.Gamma ((n : ℝ) / 2) ≠ 0 := (Real.Gamma_pos_of_pos (by positivity)).ne'
    simp [radMom, sphMom, h0, g1_zero, h1]
  two := fun a => by
    rw [radMom, sum_e1, sphMom_eq _ _ (sum_e1 a 2), prod_e1 (fun _ k => g1 k) (fun _ => g1_zero),
      g1_two]
    push_cast
    rw [gamma_ratio1 hn]; ring
  four := fun a => by
    rw [radMom, sum_e1, sphMom_eq _ _ (sum_e1 a 4), prod_e1 (fun _ k => g1 k) (fun _ => g1_zero),
      g1_four]
    push_cast
    rw [gamma_ratio2 hn]; ring
  twotwo := fun a b hab => by
    rw [radMom, sum_e2, sphMom_eq _ _ (sum_e2 a b 2 2),
      prod_e2 (fun _ k => g1 k) (fun _ => g1_zero) hab, g1_two]
    norm_num
    rw [gamma_ratio2 hn]; ring
  six := fun a => by
    rw [radMom, sum_e1, sphMom_eq _ _ (sum_e1 a 6), prod_e1 (fun _ k => g1 k) (fun _ => g1_zero),
      g1_six]
    push_cast
    rw [gamma_ratio3 hn]; ring
  fourtwo := fun a b hab => by
    rw [radMom, sum_e2, sphMom_eq _ _ (sum_e2 a b 4 2),
      prod_e2 (fun _ k => g1 k) (fun _ => g1_zero) hab, g1_two, g1_four]
    norm_num
    rw [gamma_ratio3 hn]; ring
  ttt := fun a b c hab hac hbc => by
    rw [radMom, sum_e3, sphMom_eq _ _ (sum_e3 a b c 2 2 2),
      prod_e3 (fun _ k => g1 k) (fun _ => g1_zero) hab hac hbc, g1_two]
    norm_num
    rw [gamma_ratio3 hn]; ring

theorem one_eq_mono {n : ℕ} : (fun _ : Fin n → ℝ => (1 : ℝ)) = mono 0 := by
  funext x; simp [mono]

/-- The radial moment functional of a weight `φ`. -/
theorem radial_mono {n : ℕ} (hn : 0 < n) (φ : ℝ → ℝ) (J : Spec.Functional n)
    (hJ : ∀ f, J f = ∫ x, f x * φ (nrm x)) (c : ℝ) (ρ : ℕ → ℝ) (h0 : ρ 0 = 1)
    (hφ : ∀ k, ∫ r in Set.Ioi (0 : ℝ), r ^ (n - 1 + k) * φ r = c * ρ k) (α : Fin n → ℕ) :
    J (mono α) = J (fun _ => 1) * radMom ρ α := by
  have h1 : (0 : ℝ) < n := by exact_mod_cast hn
  have h : ∀ α : Fin n → ℕ, J (mono α) = sphereArea n * c * radMom ρ α := by
    intro α
    rw [hJ, polar hn, sphere_mono' hn, hφ, radMom]; ring
  rw [one_eq_mono, h, h 0, (radial_symMom hn ρ h0).zero]; ring

theorem abs_le_nrm {n : ℕ} (x : Fin n → ℝ) (i : Fin n) : |x i| ≤ nrm x := by
  apply Real.abs_le_sqrt
  exact single_le_sum (f := fun i => x i ^ 2) (fun i _ => sq_nonneg _) (mem_univ i)

theorem nrm_nonneg {n : ℕ} (x : Fin n → ℝ) : 0 ≤ nrm x := Real.sqrt_nonneg _

theorem abs_mono_le {n : ℕ} (α : Fin n → ℕ) (x : Fin n → ℝ) : |mono α x| ≤ nrm x ^ (∑ i, α i) := by
  rw [mono, abs_prod, ← prod_pow_eq_pow_sum]
  refine prod_le_prod (fun i _ => abs_nonneg _) fun i _ => ?_
  rw [abs_pow]
  exact pow_le_pow_left₀ (abs_nonneg _) (abs_le_nrm x i) _

theorem measurable_nrm {n : ℕ} : Measurable (nrm (n := n)) := by
  unfold nrm; fun_prop

theorem integrable_radial {n : ℕ} (hn : 0 < n) (α : Fin n → ℕ) (φ : ℝ → ℝ) (hm : Measurable φ)
    (h : IntegrableOn (fun r => r ^ (n - 1 + ∑ i, α i) * φ r) (Set.Ioi 0)) :
    Integrable fun x => mono α x * φ (nrm x) := by
  have : Nonempty (Fin n) := ⟨⟨0, hn⟩⟩
  have hd : Module.finrank ℝ (EuclideanSpace ℝ (Fin n)) = n := finrank_euclideanSpace_fin
  have h1 : Integrable fun x : Fin n → ℝ => nrm x ^ (∑ i, α i) * φ (nrm x) := by
    apply integrable_euclidean
    have h2 := (integrable_fun_norm_addHaar (volume : Measure (EuclideanSpace ℝ (Fin n)))
      (f := fun r => r ^ (∑ i, α i) * φ r)).2 (by
        rw [hd]
        simpa only [pow_add, smul_eq_mul, mul_assoc] using h)
    simpa only [norm_eq_nrm] using h2
  refine h1.mono ?_ ?_
  · have hc : Continuous (mono α) := by unfold mono; fun_prop
    exact (hc.measurable.mul (hm.comp measurable_nrm)).aestronglyMeasurable
  · refine Filter.Eventually.of_forall fun x => ?_
    rw [norm_mul, norm_mul]
    refine mul_le_mul_of_nonneg_right ?_ (norm_nonneg _)
    rw [Real.norm_eq_abs, Real.norm_eq_abs, abs_of_nonneg (pow_nonneg (nrm_nonneg x) _)]
    exact abs_mono_le α x

theorem radial_linOnMono {n : ℕ} (hn : 0 < n) (φ : ℝ → ℝ) (hm : Measurable φ) (J : Spec.Functional n)
    (hJ : ∀ f, J f = ∫ x, f x * φ (nrm x))
    (h : ∀ k : ℕ, IntegrableOn (fun r => r ^ (n - 1 + k) * φ r) (Set.Ioi 0)) : LinOnMono J := by
  have : J = fun f => ∫ x, f x * φ (nrm x) := funext hJ
  rw [this]
  exact linOnMono_integral _ _ fun α => integrable_radial hn α φ hm (h _)

/-! The ball -/

/-- The radial density of `ballPow`. -/
noncomputable def ballDens (a : ℝ) : ℝ → ℝ := (Set.Iic (1 : ℝ)).indicator fun r => r ^ a

theorem measurable_ballDens (a : ℝ) : Measurable (ballDens a) := by
  unfold ballDens
  exact (measurable_id.pow_const a).indicator measurableSet_Iic

theorem ballPow_eq (n : ℕ) (a : ℝ) (f : (Fin n → ℝ) → ℝ) :
    Spec.ballPow n a f = ∫ x, f x * ballDens a (nrm x) := by
  unfold Spec.ballPow
  have hm : MeasurableSet (Spec.unitBall n) := by
    apply measurableSet_le <;> fun_prop
  rw [← integral_indicator hm]
  refine integral_congr_ae (Filter.Eventually.of_forall fun x => ?_)
  have : x ∈ Spec.unitBall n ↔ nrm x ∈ Set.Iic (1 : ℝ) := by
    rw [Set.mem_Iic, nrm, Real.sqrt_le_one]; rfl
  by_cases hx : x ∈ Spec.unitBall n
  · simp only [ballDens, Set.indicator_of_mem hx, Set.indicator_of_mem (this.1 hx)]; rfl
  · simp only [ballDens, Set.indicator_of_notMem hx,
      Set.indicator_of_notMem (fun h => hx (this.2 h)), mul_zero]

theorem ball_eq_ballPow (n : ℕ) : Spec.ball n = Spec.ballPow n 0 := by
  funext f; simp [Spec.ball, Spec.ballPow]

theorem ballDens_integrand (a : ℝ) (k : ℕ) : ∀ r ∈ Set.Ioi (0 : ℝ), r ^ k * ballDens a r =
    (Set.Ioc (0 : ℝ) 1).indicator (fun r => r ^ ((k : ℝ) + a)) r := by
  intro r hr
  have hr0 : 0 < r := hr
  by_cases h : r ≤ 1
  · rw [ballDens, Set.indicator_of_mem (show r ∈ Set.Iic 1 from h),
      Set.indicator_of_mem (show r ∈ Set.Ioc 0 1 from ⟨hr0, h⟩), Real.rpow_add hr0, Real.rpow_natCast]
  · rw [ballDens, Set.indicator_of_notMem (show r ∉ Set.Iic 1 from h),
      Set.indicator_of_notMem (fun h' => h h'.2), mul_zero]

theorem ballDens_integrable {n : ℕ} (hn : 0 < n) {a : ℝ} (ha : -(n : ℝ) < a) (k : ℕ) :
    IntegrableOn (fun r => r ^ (n - 1 + k) * ballDens a r) (Set.Ioi 0) := by
  rw [integrableOn_congr_fun (ballDens_integrand a (n - 1 + k)) measurableSet_Ioi]
  apply Integrable.integrableOn
  rw [integrable_indicator_iff measurableSet_Ioc]
  have h := intervalIntegral.intervalIntegrable_rpow' (a := 0) (b := 1)
    (r := ((n - 1 + k : ℕ) : ℝ) + a) (by
      rw [Nat.cast_add, Nat.cast_sub hn]
      have : (0 : ℝ) ≤ k := Nat.cast_nonneg k
      push_cast; linarith)
  rwa [intervalIntegrable_iff_integrableOn_Ioc_of_le zero_le_one] at h

theorem ballDens_integral {n : ℕ} (hn : 0 < n) {a : ℝ} (ha : -(n : ℝ) < a) (k : ℕ) :
    ∫ r in Set.Ioi (0 : ℝ), r ^ (n - 1 + k) * ballDens a r =
      1 / (n + a) * ((n + a) / (n + a + k)) := by
  have hk : (0 : ℝ) ≤ k := Nat.cast_nonneg k
  have e : ((n - 1 + k : ℕ) : ℝ) = n - 1 + k := by rw [Nat.cast_add, Nat.cast_sub hn]; push_cast; ring
  rw [setIntegral_congr_fun measurableSet_Ioi (ballDens_integrand a (n - 1 + k)),
    setIntegral_indicator measurableSet_Ioc,
    Set.inter_eq_right.2 (fun r hr => hr.1), ← intervalIntegral.integral_of_le zero_le_one,
    integral_rpow (Or.inl (by rw [e]; linarith)), e, Real.one_rpow,
    Real.zero_rpow (by linarith : (n - 1 + k : ℝ) + a + 1 ≠ 0 |> fun h => h)]
  have h1 : (n : ℝ) + a ≠ 0 := by linarith
  field_simp
  ring

theorem ballPow_linOnMono {n : ℕ} (hn : 0 < n) {a : ℝ} (ha : -(n : ℝ) < a) :
    LinOnMono (Spec.ballPow n a) :=
  radial_linOnMono hn _ (measurable_ballDens a) _ (ballPow_eq n a) (ballDens_integrable hn ha)

/-- Radial moments of `|x|^a` on the ball. -/
noncomputable def ballRho (n : ℕ) (a : ℝ) (k : ℕ) : ℝ := (n + a) / (n + a + k)

theorem ballPow_mono {n : ℕ} (hn : 0 < n) {a : ℝ} (ha : -(n : ℝ) < a) (α : Fin n → ℕ) :
    Spec.ballPow n a (mono α) = Spec.ballPow n a (fun _ => 1) * radMom (ballRho n a) α := by
  refine radial_mono hn _ _ (ballPow_eq n a) _ _ ?_ (ballDens_integral hn ha) α
  have h1 : (n : ℝ) + a ≠ 0 := by linarith
  simp [ballRho, h1]

/-! `exp(-|x|)` -/

theorem enr_eq (n : ℕ) (f : (Fin n → ℝ) → ℝ) :
    Spec.enr n f = ∫ x, f x * (fun r => Real.exp (-r)) (nrm x) := rfl

theorem enr_integral (k : ℕ) :
    ∫ r in Set.Ioi (0 : ℝ), r ^ k * Real.exp (-r) = (k.factorial : ℝ) := by
  have h := Real.Gamma_eq_integral (s := k + 1) (by positivity)
  rw [Real.Gamma_nat_eq_factorial] at h
  rw [h]
  refine setIntegral_congr_fun measurableSet_Ioi fun x hx => ?_
  simp [mul_comm]

theorem enr_integrable (k : ℕ) : IntegrableOn (fun r : ℝ => r ^ k * Real.exp (-r)) (Set.Ioi 0) := by
  have h := Real.GammaIntegral_convergent (s := k + 1) (by positivity)
  refine (integrableOn_congr_fun (fun x hx => ?_) measurableSet_Ioi).1 h
  simp [mul_comm]

theorem enr_linOnMono {n : ℕ} (hn : 0 < n) : LinOnMono (Spec.enr n) :=
  radial_linOnMono hn (fun r => Real.exp (-r)) (by fun_prop) _ (enr_eq n) fun k => enr_integrable _

/-- Radial moments of `exp(-|x|)`. -/
noncomputable def enrRho (n : ℕ) (k : ℕ) : ℝ := ((n - 1 + k).factorial : ℝ) / ((n - 1).factorial : ℝ)

theorem enr_mono {n : ℕ} (hn : 0 < n) (α : Fin n → ℕ) :
    Spec.enr n (mono α) = Spec.enr n (fun _ => 1) * radMom (enrRho n) α := by
  have h0 : ((n - 1).factorial : ℝ) ≠ 0 := by positivity
  refine radial_mono hn (fun r => Real.exp (-r)) _ (enr_eq n) ((n - 1).factorial : ℝ) _ ?_ (fun k => ?_) α
  · simp [enrRho, h0]
  · rw [enr_integral, enrRho]; field_simp

/-! `exp(-|x|^2)` -/

theorem enr2_linOnMono (n : ℕ) : LinOnMono (Spec.enr2 n) := by
  apply linOnMono_integral
  intro α
  have h : (fun x : Fin n → ℝ => mono α x * Real.exp (-∑ i, x i ^ 2)) =
      fun x => ∏ i, (x i ^ α i * Real.exp (-x i ^ 2)) := by
    funext x
    rw [prod_mul_distrib, ← Real.exp_sum, sum_neg_distrib]
    rfl
  rw [h]
  exact Integrable.fintype_prod fun i => integrable_pow_gauss (α i)

theorem enr2_one (n : ℕ) : Spec.enr2 n (fun _ => 1) = Real.sqrt Real.pi ^ n := by
  rw [one_eq_mono, enr2_mono]; simp [g1_zero]

theorem enr2_symMom (n : ℕ) : SymMom (n := n) (fun α => ∏ i, g1 (α i)) (1 / 2) (3 / 4) (1 / 4)
    (15 / 8) (3 / 8) (1 / 8) where
  odd := by rintro α ⟨i, hi⟩; exact prod_eq_zero (mem_univ i) (g1_odd hi)
  zero := by simp [g1_zero]
  two := fun a => by rw [prod_e1 (fun _ k => g1 k) (fun _ => g1_zero), g1_two]
  four := fun a => by rw [prod_e1 (fun _ k => g1 k) (fun _ => g1_zero), g1_four]
  twotwo := fun a b hab => by
    rw [prod_e2 (fun _ k => g1 k) (fun _ => g1_zero) hab, g1_two]; norm_num
  six := fun a => by rw [prod_e1 (fun _ k => g1 k) (fun _ => g1_zero), g1_six]
  fourtwo := fun a b hab => by
    rw [prod_e2 (fun _ k => g1 k) (fun _ => g1_zero) hab, g1_two, g1_four]; norm_num
  ttt := fun a b c hab hac hbc => by
    rw [prod_e3 (fun _ k => g1 k) (fun _ => g1_zero) hab hac hbc, g1_two]; norm_num

/-! The sphere -/

theorem sphere_linOnMono {n : ℕ} : LinOnMono (Spec.sphere n) := by
  intro s c
  unfold Spec.sphere
  rw [integral_finsetSum s]
  · exact sum_congr rfl fun a _ => integral_const_mul _ _
  · intro a _
    apply Continuous.integrable_of_hasCompactSupport
    · unfold mono; fun_prop
    · exact HasCompactSupport.of_compactSpace _

theorem sphere_mono_rel {n : ℕ} (hn : 0 < n) (α : Fin n → ℕ) :
    Spec.sphere n (mono α) = Spec.sphere n (fun _ => 1) * radMom (fun _ => 1) α := by
  rw [one_eq_mono, sphere_mono' hn, sphere_mono' hn 0]
  have := (radial_symMom hn (fun _ => 1) rfl).zero
  simp only [radMom, one_mul] at this ⊢
  rw [this, mul_one]

end Quadpy
