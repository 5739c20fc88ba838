/-
Degree of rules on the sphere from few moments.

Both the integral over the unit sphere and a rule with all its points on the unit sphere satisfy
`M(β) = ∑_j M(β + 2 e_j)`.  For fully symmetric rules it follows that only the moments without an
exponent equal to 2 have to be checked (`sphere_reduce`); up to degree 11 these are the moments with
exponents `0`, `(4)`, `(6)`, `(8)`, `(10)`, `(4,4)` and `(6,4)`.
-/
import Verif.Lemmas.Groups
import Verif.Lemmas.RadialExact
import Verif.Lemmas.LowDim
import Verif.Lemmas.Degree9

namespace Quadpy
open Finset

theorem sphere_reduce {n : ℕ} (D : (Fin n → ℕ) → ℝ)
    (hperm : ∀ (α : Fin n → ℕ) (σ : Equiv.Perm (Fin n)), D (α ∘ σ) = D α)
    (hodd : ∀ α, (∃ i, Odd (α i)) → D α = 0)
    (hrec : ∀ β, D β = ∑ j, D (β + Pi.single j 2)) (d : ℕ)
    (hbase : ∀ α, ∑ i, α i ≤ d → (∀ i, α i ≠ 2) → (∀ i, Even (α i)) → D α = 0) :
    ∀ α, ∑ i, α i ≤ d → D α = 0 := by
  have key : ∀ s c : ℕ, ∀ α : Fin n → ℕ, ∑ i, α i = s → #{i | α i ≠ 0} = c → s ≤ d → D α = 0 := by
    intro s
    induction s using Nat.strong_induction_on with
    | _ s ihs =>
    intro c
    induction c using Nat.strong_induction_on with
    | _ c ihc =>
    intro α hs hc hd
    by_cases ho : ∃ i, Odd (α i)
    · exact hodd α ho
    have he : ∀ i, Even (α i) := fun i => Nat.not_odd_iff_even.1 fun h => ho ⟨i, h⟩
    by_cases h2 : ∀ i, α i ≠ 2
    · exact hbase α (hs ▸ hd) h2 he
    push Not at h2
    obtain ⟨j, hj⟩ := h2
    set β := Function.update α j 0 with hβ
    have hαβ : α = β + Pi.single j 2 := by
      funext i
      by_cases hij : i = j
      · subst hij; simp [hβ, hj]
      · simp [hβ, hij]
    have hβj : β j = 0 := by simp [hβ]
    have hsum : ∀ i, ∑ k, (β + Pi.single i 2 : Fin n → ℕ) k = (∑ k, β k) + 2 := by
      intro i; simp [Finset.sum_add_distrib]
    have hβs : ∑ k, β k + 2 = s := by rw [← hsum j, ← hαβ, hs]
    have h0 : D β = 0 := ihs (∑ k, β k) (by omega) _ β rfl rfl (by omega)
    have hterm : ∀ i, D (β + Pi.single i 2) = if β i = 0 then D α else 0 := by
      intro i
      split_ifs with hi
      · rw [← hperm (β + Pi.single i 2) (Equiv.swap i j)]
        congr 1
        funext k
        rw [hαβ]
        by_cases hkj : k = j
        · subst hkj
          simp [hi, hβj]
        · by_cases hki : k = i
          · subst hki
            simp [hi, hβj, hkj, Ne.symm hkj]
          · rw [Function.comp_apply, Equiv.swap_apply_of_ne_of_ne hki hkj]
            simp [hki, hkj]
      · refine ihc _ ?_ _ ((hsum i).trans hβs) rfl hd
        rw [← hc]
        apply card_lt_card
        refine ⟨?_, ?_⟩
        · intro k
          simp only [mem_filter, mem_univ, true_and]
          intro hk hk'
          apply hk
          have hkj : k ≠ j := by rintro rfl; omega
          have : β k = 0 := by simp [hβ, hkj, hk']
          have hki : k ≠ i := by rintro rfl; exact hi this
          simp [this, hki]
        · intro hsub
          have : j ∈ univ.filter fun k => α k ≠ 0 := by simp [hj]
          have := hsub this
          have hji : j ≠ i := by rintro rfl; exact hi hβj
          simp [hβj, hji] at this
    have h1 := hrec β
    rw [h0, sum_congr rfl fun i _ => hterm i, ← sum_filter, sum_const, nsmul_eq_mul] at h1
    have hpos : 0 < #{i | β i = 0} := card_pos.2 ⟨j, by simp [hβj]⟩
    have : ((#{i | β i = 0} : ℕ) : ℝ) ≠ 0 := by exact_mod_cast hpos.ne'
    exact (mul_eq_zero.1 h1.symm).resolve_left this
  intro α hα
  exact key _ _ α rfl rfl hα

theorem mono_add_single {n : ℕ} (β : Fin n → ℕ) (j : Fin n) (x : Fin n → ℝ) :
    mono (β + Pi.single j 2 : Fin n → ℕ) x = mono β x * x j ^ 2 := by
  unfold mono
  simp only [Pi.add_apply, pow_add, prod_mul_distrib]
  congr 1
  rw [prod_eq_single j]
  · simp
  · intro b _ hb; simp [hb]
  · simp

theorem osum_rec {n : ℕ} {L : List (List ℝ)} (h : ConstPow n L 2 1) (β : Fin n → ℕ) :
    osum n L (mono β) = ∑ j, osum n L (mono (β + Pi.single j 2)) := by
  rw [← osum_finset_sum]
  refine osum_congr L _ _ fun x hx => ?_
  simp only [mono_add_single, ← mul_sum, h x hx, mul_one]

theorem sphMom_rec {n : ℕ} (hn : 0 < n) (β : Fin n → ℕ) :
    sphMom β = ∑ j, sphMom (β + Pi.single j 2) := by
  have h0 : (0 : ℝ) < n := by exact_mod_cast hn
  have hs : (0 : ℝ) < (n + ∑ i, (β i : ℝ)) / 2 := by positivity
  have hstep : ∀ j, sphMom (β + Pi.single j 2) =
      sphMom β * ((β j + 1) / (n + ∑ i, (β i : ℝ))) := by
    intro j
    have h1 : ∑ i, (((β + Pi.single j 2 : Fin n → ℕ) i : ℕ) : ℝ) = ∑ i, (β i : ℝ) + 2 := by
      have : ∑ i, (β + Pi.single j 2 : Fin n → ℕ) i = ∑ i, β i + 2 := by simp [sum_add_distrib]
      exact_mod_cast this
    have h2 : (∏ i, g1 ((β + Pi.single j 2 : Fin n → ℕ) i)) = (∏ i, g1 (β i)) * ((β j + 1) / 2) := by
      rw [← mul_prod_erase univ _ (mem_univ j),
        ← mul_prod_erase univ (fun i => g1 (β i)) (mem_univ j)]
      have : ∏ i ∈ univ.erase j, g1 ((β + Pi.single j 2 : Fin n → ℕ) i) = ∏ i ∈ univ.erase j, g1 (β i) :=
        prod_congr rfl fun i hi => by simp [ne_of_mem_erase hi]
      rw [this, Pi.add_apply, Pi.single_eq_same, g1_succ]
      ring
    rw [sphMom, sphMom, h1, h2, show (n + (∑ i, (β i : ℝ) + 2)) / 2 = (n + ∑ i, (β i : ℝ)) / 2 + 1 by
      ring, Real.Gamma_add_one hs.ne']
    have := (Real.Gamma_pos_of_pos hs).ne'
    have h3 : (n : ℝ) + ∑ i, (β i : ℝ) ≠ 0 := by intro h; rw [h] at hs; norm_num at hs
    field_simp
  simp only [hstep, ← mul_sum, ← sum_div, sum_add_distrib]
  have h3 : (n : ℝ) + ∑ i, (β i : ℝ) ≠ 0 := by intro h; rw [h] at hs; norm_num at hs
  simp only [sum_const, card_univ, Fintype.card_fin, nsmul_eq_mul, mul_one]
  rw [add_comm, div_self h3, mul_one]

theorem sphMom_perm {n : ℕ} (α : Fin n → ℕ) (σ : Equiv.Perm (Fin n)) :
    sphMom (α ∘ σ) = sphMom α := by
  unfold sphMom
  rw [show ∏ i, g1 ((α ∘ σ) i) = ∏ i, g1 (α i) from Equiv.prod_comp σ fun i => g1 (α i),
    show ∑ i, (((α ∘ σ) i : ℕ) : ℝ) = ∑ i, (α i : ℝ) from Equiv.sum_comp σ fun i => (α i : ℝ)]

/-- The exponents up to degree 11 that remain. -/
theorem classify11 {n : ℕ} (P : (Fin n → ℕ) → Prop) (h0 : P 0) (h4 : ∀ a, P (e1 a 4))
    (h6 : ∀ a, P (e1 a 6)) (h8 : ∀ a, P (e1 a 8)) (h10 : ∀ a, P (e1 a 10))
    (h44 : ∀ a b, a ≠ b → P (e2 a b 4 4)) (h64 : ∀ a b, a ≠ b → P (e2 a b 6 4))
    (α : Fin n → ℕ) (hs : ∑ i, α i ≤ 11) (h2 : ∀ i, α i ≠ 2) (he : ∀ i, Even (α i)) : P α := by
  have h5 : ∀ i, α i ≠ 0 → 4 ≤ α i := by
    intro i hi
    obtain ⟨k, hk⟩ := he i
    have := h2 i
    omega
  have hb : ∀ i, α i ≤ 11 := fun i => (single_le_sum (fun i _ => Nat.zero_le _) (mem_univ i)).trans hs
  by_cases hz : ∃ a, α a ≠ 0
  swap
  · push Not at hz
    rwa [show α = 0 from funext hz]
  obtain ⟨a, ha⟩ := hz
  by_cases hz2 : ∃ b, b ≠ a ∧ α b ≠ 0
  swap
  · push Not at hz2
    have : α = e1 a (α a) := by
      funext i
      by_cases hia : i = a
      · subst hia; simp [e1]
      · simp [e1, hia, hz2 i hia]
    rw [this]
    have h6' := h5 a ha
    have h7 := hb a
    have h8' := he a
    generalize α a = k at *
    interval_cases k
    all_goals first | exact h4 a | exact h6 a | exact h8 a | exact h10 a | exact absurd h8' (by decide)
  obtain ⟨b, hba, hb0⟩ := hz2
  have hrest : ∀ c, c ≠ a → c ≠ b → α c = 0 := by
    intro c hca hcb
    by_contra hc
    have h6' : ∑ i ∈ {a, b, c}, α i ≤ ∑ i, α i := sum_le_sum_of_subset (subset_univ _)
    rw [sum_insert (by simp [Ne.symm hba, Ne.symm hca]), sum_pair (Ne.symm hcb)] at h6'
    have := h5 a ha; have := h5 b hb0; have := h5 c hc
    omega
  have h6' : ∑ i ∈ {a, b}, α i ≤ ∑ i, α i := sum_le_sum_of_subset (subset_univ _)
  rw [sum_pair (Ne.symm hba)] at h6'
  have hα : ∀ x y, x ≠ y → (∀ c, c ≠ x → c ≠ y → α c = 0) → α = e2 x y (α x) (α y) := by
    intro x y hxy hr
    funext i
    by_cases hix : i = x
    · subst hix; simp [e2, hxy, Ne.symm hxy]
    · by_cases hiy : i = y
      · subst hiy; simp [e2, hxy, Ne.symm hxy]
      · simp [e2, hix, hiy, hr i hix hiy]
  have e1' := hα a b (Ne.symm hba) hrest
  have e2' := hα b a hba fun c h h' => hrest c h' h
  have ha4 := h5 a ha
  have hb4 := h5 b hb0
  have hae := he a
  have hbe := he b
  have hcases : (α a = 4 ∧ α b = 4) ∨ (α a = 6 ∧ α b = 4) ∨ (α a = 4 ∧ α b = 6) := by
    obtain ⟨k, hk⟩ := hae
    obtain ⟨l, hl⟩ := hbe
    omega
  rcases hcases with ⟨h, h'⟩ | ⟨h, h'⟩ | ⟨h, h'⟩
  · rw [e1', h, h']; exact h44 a b (Ne.symm hba)
  · rw [e1', h, h']; exact h64 a b (Ne.symm hba)
  · rw [e2', h, h']; exact h64 b a hba

/-- A weighted fully symmetric group of points of the unit sphere, with the power sums of order 4, 6,
8, 10 in terms of the centred ones: `z_k = ∑_i (x_i^2 - 1/n)^k`. -/
structure SGrp where
  w : ℝ
  L : List (List ℝ)
  z2 : ℝ
  z3 : ℝ
  z4 : ℝ
  z5 : ℝ

/-- The points are fully symmetric, on the unit sphere, and have the stated power sums. -/
structure SGrp.Ok (n : ℕ) (g : SGrp) : Prop where
  fs : FS n g.L
  h2 : ConstPow n g.L 2 1
  h4 : ConstPow n g.L 4 (1 / n + g.z2)
  h6 : ConstPow n g.L 6 (1 / n ^ 2 + 3 / n * g.z2 + g.z3)
  h8 : ConstPow n g.L 8 (1 / n ^ 3 + 6 / n ^ 2 * g.z2 + 4 / n * g.z3 + g.z4)
  h10 : ConstPow n g.L 10 (1 / n ^ 4 + 10 / n ^ 3 * g.z2 + 10 / n ^ 2 * g.z3 + 5 / n * g.z4 + g.z5)

/-- Sum of `w N φ` over the groups. -/
def ssum (gs : List SGrp) (φ : SGrp → ℝ) : ℝ := (gs.map fun g => g.w * g.L.length * φ g).sum

theorem ssum_eq {n : ℕ} (gs : List SGrp) (α : Fin n → ℕ) (φ : SGrp → ℝ) (c : ℝ)
    (h : ∀ g ∈ gs, c * osum n g.L (mono α) = g.L.length * φ g) :
    c * (gs.map fun g => g.w * osum n g.L (mono α)).sum = ssum gs φ := by
  unfold ssum
  rw [← List.sum_map_mul_left]
  congr 1
  apply List.map_congr_left
  intro g hg
  have := h g hg
  rw [mul_left_comm, this]; ring

theorem ssum_add (gs : List SGrp) (f g : SGrp → ℝ) :
    ssum gs (fun x => f x + g x) = ssum gs f + ssum gs g := by
  unfold ssum
  induction gs with
  | nil => simp
  | cons x gs ih => simp only [List.map_cons, List.sum_cons]; rw [ih]; ring

theorem ssum_mul (gs : List SGrp) (f : SGrp → ℝ) (a : ℝ) :
    ssum gs (fun x => a * f x) = a * ssum gs f := by
  unfold ssum
  induction gs with
  | nil => simp
  | cons x gs ih => simp only [List.map_cons, List.sum_cons]; rw [ih]; ring

theorem ssum_const (gs : List SGrp) (a : ℝ) : ssum gs (fun _ => a) = a * ssum gs fun _ => 1 := by
  rw [← ssum_mul]; simp

theorem sphMom_e1 {n : ℕ} (hn : 0 < n) (a : Fin n) (k : ℕ) :
    sphMom (e1 a (2 * k)) = oddFac k / stepFac n k := by
  have h : e1 a (2 * k) = fun i => 2 * e1 a k i := by
    funext i
    by_cases h : i = a
    · subst h; simp [e1]
    · simp [e1, h]
  rw [h, sphMom_even hn, sum_e1, prod_e1 (fun _ k => oddFac k) (fun _ => rfl)]

theorem sphMom_e2 {n : ℕ} (hn : 0 < n) {a b : Fin n} (hab : a ≠ b) (k l : ℕ) :
    sphMom (e2 a b (2 * k) (2 * l)) = oddFac k * oddFac l / stepFac n (k + l) := by
  have h : e2 a b (2 * k) (2 * l) = fun i => 2 * e2 a b k l i := by
    funext i
    by_cases h : i = a
    · subst h; simp [e2, hab]
    · by_cases h' : i = b
      · subst h'; simp [e2, h]
      · simp [e2, h, h']
  rw [h, sphMom_even hn, sum_e2, prod_e2 (fun _ k => oddFac k) (fun _ => rfl) hab]

/-- What the rows of the linear system say about the centred sums. -/
structure Centred (n : ℕ) (c : ℝ) (gs : List SGrp) : Prop where
  c0 : ssum gs (fun _ => 1) = c
  c2 : ssum gs (fun g => g.z2) = c * (2 * (n - 1) / (n * (n + 2)))
  c3 : ssum gs (fun g => g.z3) = c * (8 * (n - 1) * (n - 2) / (n ^ 2 * (n + 2) * (n + 4)))
  c4 : ssum gs (fun g => g.z4) =
    c * ((60 * n ^ 3 - 216 * n ^ 2 + 300 * n - 144) / (n ^ 3 * (n + 2) * (n + 4) * (n + 6)))
  c5 : ssum gs (fun g => g.z5) =
    c * ((544 * n ^ 4 - 2560 * n ^ 3 + 4640 * n ^ 2 - 4160 * n + 1536) /
      (n ^ 4 * (n + 2) * (n + 4) * (n + 6) * (n + 8)))

/-- The conditions on the mixed moments. -/
structure Mixed (n : ℕ) (c : ℝ) (gs : List SGrp) : Prop where
  c22 : ssum gs (fun g => g.z2 ^ 2) =
    c * ((4 * n ^ 3 + 48 * n ^ 2 - 100 * n + 48) / (n ^ 2 * (n + 2) * (n + 4) * (n + 6)))
  c23 : ssum gs (fun g => g.z2 * g.z3) =
    c * ((16 * n ^ 4 + 416 * n ^ 3 - 1744 * n ^ 2 + 2080 * n - 768) /
        (n ^ 3 * (n + 2) * (n + 4) * (n + 6) * (n + 8)))

/-- Degree 11 on the sphere from the centred sums. -/
theorem sphere_groups11 {n : ℕ} {c : ℝ} (gs : List SGrp) (hok : ∀ g ∈ gs, g.Ok n)
    (hc : Centred n c gs) (hm : Mixed n c gs) (hn : 0 < n) : ∀ α : Fin n → ℕ, ∑ i, α i ≤ 11 →
      (gs.map fun g => g.w * osum n g.L (mono α)).sum = c * sphMom α := by
  have n0 : (n : ℝ) ≠ 0 := by exact_mod_cast hn.ne'
  have n1 : ∀ a b : Fin n, a ≠ b → (n : ℝ) * (n - 1) ≠ 0 := fun a b hab => by
    have h : (2 : ℝ) ≤ n := by exact_mod_cast two_le_of_ne hab
    exact mul_ne_zero n0 (by linarith)
  have step : ∀ k, stepFac n k ≠ 0 := fun k => (stepFac_pos hn k).ne'
  intro α hα
  rw [← sub_eq_zero]
  refine sphere_reduce (fun α => (gs.map fun g => g.w * osum n g.L (mono α)).sum - c * sphMom α)
    ?_ ?_ ?_ 11 ?_ α hα
  · intro α σ
    rw [sphMom_perm]
    congr 2
    exact List.map_congr_left fun g hg => by rw [(hok g hg).fs.perm]
  · intro α h
    rw [sphMom_odd α h, mul_zero, sub_zero]
    apply List.sum_eq_zero
    intro x hx
    obtain ⟨g, hg, rfl⟩ := List.mem_map.1 hx
    rw [(hok g hg).fs.odd α h, mul_zero]
  · intro β
    rw [sum_sub_distrib, ← mul_sum, ← sphMom_rec hn]
    congr 1
    clear hc hm hα
    induction gs with
    | nil => simp
    | cons g gs ih =>
      simp only [List.map_cons, List.sum_cons, sum_add_distrib]
      rw [ih fun g hg => hok g (List.mem_cons_of_mem _ hg), osum_rec (hok g (List.mem_cons_self ..)).h2,
        mul_sum]
  · have key : ∀ (α : Fin n → ℕ) (φ : SGrp → ℝ) (b m : ℝ), b ≠ 0 → sphMom α = m →
        (∀ g ∈ gs, b * osum n g.L (mono α) = g.L.length * φ g) → ssum gs φ = b * (c * m) →
        (gs.map fun g => g.w * osum n g.L (mono α)).sum - c * sphMom α = 0 := by
      intro α φ b m hb0 hm h hs
      rw [sub_eq_zero, hm]
      apply mul_left_cancel₀ hb0
      rw [← hs, ssum_eq gs α φ b h]
    intro α hs h2 he
    refine classify11 (fun α => (gs.map fun g => g.w * osum n g.L (mono α)).sum - c * sphMom α = 0)
      ?_ ?_ ?_ ?_ ?_ ?_ ?_ α hs h2 he
    · refine key 0 (fun _ => 1) 1 1 one_ne_zero ?_ (fun g _ => by rw [osum_mono_zero]; ring)
        (by rw [hc.c0]; ring)
      have := sphMom_even hn (fun _ : Fin n => 0)
      simp only [mul_zero, oddFac, stepFac, prod_const_one, sum_const_zero, div_one] at this
      exact this
    · intro a
      refine key _ _ _ _ n0 (sphMom_e1 hn a 2) (fun g hg => (hok g hg).fs.mom1 (hok g hg).h4 a) ?_
      rw [ssum_add, ssum_const, hc.c0, hc.c2]
      simp only [oddFac, stepFac]; push_cast; field_simp; ring
    · intro a
      refine key _ _ _ _ n0 (sphMom_e1 hn a 3) (fun g hg => (hok g hg).fs.mom1 (hok g hg).h6 a) ?_
      rw [ssum_add, ssum_add, ssum_mul, ssum_const, hc.c0, hc.c2, hc.c3]
      simp only [oddFac, stepFac]; push_cast; field_simp; ring
    · intro a
      refine key _ _ _ _ n0 (sphMom_e1 hn a 4) (fun g hg => (hok g hg).fs.mom1 (hok g hg).h8 a) ?_
      rw [ssum_add, ssum_add, ssum_add, ssum_mul, ssum_mul, ssum_const, hc.c0, hc.c2, hc.c3, hc.c4]
      simp only [oddFac, stepFac]; push_cast; field_simp; ring
    · intro a
      refine key _ _ _ _ n0 (sphMom_e1 hn a 5) (fun g hg => (hok g hg).fs.mom1 (hok g hg).h10 a) ?_
      rw [ssum_add, ssum_add, ssum_add, ssum_add, ssum_mul, ssum_mul, ssum_mul, ssum_const, hc.c0,
        hc.c2, hc.c3, hc.c4, hc.c5]
      simp only [oddFac, stepFac]; push_cast; field_simp; ring
    · intro a b hab
      refine key _ _ _ _ (n1 a b hab) (sphMom_e2 hn hab 2 2)
        (fun g hg => (hok g hg).fs.mom2 (hok g hg).h4 (hok g hg).h4 (hok g hg).h8 hab) ?_
      have : ∀ g : SGrp, (1 / (n : ℝ) + g.z2) * (1 / n + g.z2) -
          (1 / n ^ 3 + 6 / n ^ 2 * g.z2 + 4 / n * g.z3 + g.z4) =
          (1 / n ^ 2 - 1 / n ^ 3) + (2 / n - 6 / n ^ 2) * g.z2 + (-4 / n) * g.z3 + (-1) * g.z4 +
            g.z2 ^ 2 := fun g => by field_simp; ring
      simp only [this]
      rw [ssum_add, ssum_add, ssum_add, ssum_add, ssum_mul, ssum_mul, ssum_mul, ssum_const, hc.c0,
        hc.c2, hc.c3, hc.c4, hm.c22]
      simp only [oddFac, stepFac]; push_cast; field_simp; ring
    · intro a b hab
      refine key _ _ _ _ (n1 a b hab) (sphMom_e2 hn hab 3 2)
        (fun g hg => (hok g hg).fs.mom2 (hok g hg).h6 (hok g hg).h4 (hok g hg).h10 hab) ?_
      have : ∀ g : SGrp, (1 / (n : ℝ) ^ 2 + 3 / n * g.z2 + g.z3) * (1 / n + g.z2) -
          (1 / n ^ 4 + 10 / n ^ 3 * g.z2 + 10 / n ^ 2 * g.z3 + 5 / n * g.z4 + g.z5) =
          (1 / n ^ 3 - 1 / n ^ 4) + (4 / n ^ 2 - 10 / n ^ 3) * g.z2 + (1 / n - 10 / n ^ 2) * g.z3 +
            (-5 / n) * g.z4 + (-1) * g.z5 + 3 / n * g.z2 ^ 2 + g.z2 * g.z3 :=
        fun g => by field_simp; ring
      simp only [this]
      rw [ssum_add, ssum_add, ssum_add, ssum_add, ssum_add, ssum_add, ssum_mul, ssum_mul, ssum_mul,
        ssum_mul, ssum_mul (f := fun g => g.z2 ^ 2), ssum_const, hc.c0,
        hc.c2, hc.c3, hc.c4, hc.c5, hm.c22, hm.c23]
      simp only [oddFac, stepFac]; push_cast; field_simp; ring

end Quadpy
