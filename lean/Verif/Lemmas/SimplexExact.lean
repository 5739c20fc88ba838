import Verif.Lemmas.Bary

/-!
# Exactness on the simplex of rules made of permutation-symmetric groups
-/

namespace Quadpy
open Finset

/-- Permutation symmetry of a list of points, as seen by monomials. -/
structure PS (n : ℕ) (L : List (List ℝ)) : Prop where
  len : ∀ x ∈ L, x.length = n
  perm : ∀ (α : Fin n → ℕ) (σ : Equiv.Perm (Fin n)),
    osum n L (mono (α ∘ σ)) = osum n L (mono α)

theorem PS.e1_eq {n : ℕ} {L : List (List ℝ)} (h : PS n L) (k : ℕ) (a b : Fin n) :
    osum n L (mono (e1 a k)) = osum n L (mono (e1 b k)) := by
  rw [← h.perm (e1 b k) (Equiv.swap a b), e1_comp]
  simp

theorem PS.e2_eq {n : ℕ} {L : List (List ℝ)} (h : PS n L) (k l : ℕ) {a b c d : Fin n}
    (hab : a ≠ b) (hcd : c ≠ d) :
    osum n L (mono (e2 a b k l)) = osum n L (mono (e2 c d k l)) := by
  obtain ⟨σ, h1, h2⟩ := exists_perm2 hab hcd
  rw [← h.perm (e2 c d k l) σ, e2_comp, ← h1, ← h2]
  simp

theorem PS.e3_eq {n : ℕ} {L : List (List ℝ)} (h : PS n L) (k l m : ℕ) {a b c a' b' c' : Fin n}
    (hab : a ≠ b) (hac : a ≠ c) (hbc : b ≠ c)
    (hab' : a' ≠ b') (hac' : a' ≠ c') (hbc' : b' ≠ c') :
    osum n L (mono (e3 a b c k l m)) = osum n L (mono (e3 a' b' c' k l m)) := by
  obtain ⟨σ, h1, h2, h3⟩ := exists_perm3 hab hac hbc hab' hac' hbc'
  rw [← h.perm (e3 a' b' c' k l m) σ, e3_comp, ← h1, ← h2, ← h3]
  simp

theorem PS.mom1 {n : ℕ} {L : List (List ℝ)} (h : PS n L) {k : ℕ} {p : ℝ} (hp : ConstPow n L k p)
    (a : Fin n) : n * osum n L (mono (e1 a k)) = L.length * p := by
  rw [← osum_const L (fun x => ∑ i, x i ^ k) p hp]
  rw [osum_finset_sum]
  have : ∀ i ∈ (univ : Finset (Fin n)), osum n L (fun x => x i ^ k) = osum n L (mono (e1 a k)) := by
    intro i _
    rw [← h.e1_eq k i a]
    exact osum_congr L _ _ fun x _ => (mono_e1 i k _).symm
  rw [sum_congr rfl this, sum_const, card_univ, Fintype.card_fin, nsmul_eq_mul]

theorem PS.mom2 {n : ℕ} {L : List (List ℝ)} (h : PS n L) {k l : ℕ} {p q r : ℝ}
    (hp : ConstPow n L k p) (hq : ConstPow n L l q) (hr : ConstPow n L (k + l) r)
    {a b : Fin n} (hab : a ≠ b) :
    (n : ℝ) * (n - 1) * osum n L (mono (e2 a b k l)) = L.length * (p * q - r) := by
  rw [← osum_const L (fun x => ∑ a, ∑ b ∈ univ.filter (fun b => a ≠ b), x a ^ k * x b ^ l)
    (p * q - r) (fun x hx => by rw [offdiag_sum, hp x hx, hq x hx, hr x hx])]
  rw [osum_finset_sum]
  have h1 : ∀ i ∈ (univ : Finset (Fin n)),
      osum n L (fun x => ∑ b ∈ univ.filter (fun b => i ≠ b), x i ^ k * x b ^ l) =
      ((n - 1 : ℕ) : ℝ) * osum n L (mono (e2 a b k l)) := by
    intro i _
    rw [osum_finset_sum]
    have : ∀ j ∈ univ.filter (fun b => i ≠ b), osum n L (fun x => x i ^ k * x j ^ l) =
        osum n L (mono (e2 a b k l)) := by
      intro j hj
      have hij : i ≠ j := by simpa using hj
      rw [← h.e2_eq k l hij hab]
      exact osum_congr L _ _ fun x _ => (mono_e2 hij k l _).symm
    rw [sum_congr rfl this, sum_const, card_filter_ne, nsmul_eq_mul]
  rw [sum_congr rfl h1, sum_const, card_univ, Fintype.card_fin, nsmul_eq_mul]
  have hn : 1 ≤ n := Nat.one_le_iff_ne_zero.2 (by rintro rfl; exact a.elim0)
  push_cast [hn]
  ring

theorem PS.mom3 {n : ℕ} {L : List (List ℝ)} (h : PS n L) (p : ℕ → ℝ)
    (hp : ∀ k, 1 ≤ k → ConstPow n L k (p k)) {k l m : ℕ} (hk : 1 ≤ k) (hl : 1 ≤ l) (hm : 1 ≤ m)
    {a b c : Fin n} (hab : a ≠ b) (hac : a ≠ c) (hbc : b ≠ c) :
    (n : ℝ) * (n - 1) * (n - 2) * osum n L (mono (e3 a b c k l m)) =
      L.length * (p k * p l * p m - p (k + l) * p m - p (k + m) * p l - p (l + m) * p k
        + 2 * p (k + l + m)) := by
  have hs : osum n L (fun x => x a ^ k * x b ^ l * ∑ i, x i ^ m) =
      p m * osum n L (mono (e2 a b k l)) := by
    unfold osum
    rw [← List.sum_map_mul_left]
    congr 1
    apply List.map_congr_left
    intro x hx
    beta_reduce
    rw [hp m hm x hx, mono_e2 hab]; ring
  have hs2 : osum n L (fun x => x a ^ k * x b ^ l * ∑ i, x i ^ m) =
      osum n L (mono (e2 a b (k + m) l)) + osum n L (mono (e2 a b k (l + m))) +
        (n - 2) * osum n L (mono (e3 a b c k l m)) := by
    have e : (fun x : Fin n → ℝ => x a ^ k * x b ^ l * ∑ i, x i ^ m) =
        fun x => ∑ i, x a ^ k * x b ^ l * x i ^ m := by
      funext x; rw [mul_sum]
    rw [e, osum_finset_sum]
    rw [← add_sum_erase univ _ (mem_univ a), ← add_sum_erase (univ.erase a) _
      (show b ∈ univ.erase a from mem_erase.2 ⟨hab.symm, mem_univ b⟩)]
    have ea : osum n L (fun x => x a ^ k * x b ^ l * x a ^ m) = osum n L (mono (e2 a b (k + m) l)) :=
      osum_congr L _ _ fun x _ => by rw [mono_e2 hab]; ring
    have eb : osum n L (fun x => x a ^ k * x b ^ l * x b ^ m) = osum n L (mono (e2 a b k (l + m))) :=
      osum_congr L _ _ fun x _ => by rw [mono_e2 hab]; ring
    have ec : ∀ i ∈ (univ.erase a).erase b, osum n L (fun x => x a ^ k * x b ^ l * x i ^ m) =
        osum n L (mono (e3 a b c k l m)) := by
      intro i hi
      rw [mem_erase, mem_erase] at hi
      have hib : b ≠ i := hi.1.symm
      have hia : a ≠ i := hi.2.1.symm
      rw [h.e3_eq k l m hab hac hbc hab hia hib]
      exact osum_congr L _ _ fun x _ => by rw [mono_e3 hab hia hib]
    rw [ea, eb, sum_congr rfl ec, sum_const, nsmul_eq_mul,
      card_erase_of_mem (mem_erase.2 ⟨hab.symm, mem_univ b⟩), card_erase_of_mem (mem_univ a),
      card_univ, Fintype.card_fin]
    rw [Nat.sub_sub, Nat.cast_sub (two_le_of_ne hab)]
    push_cast; ring
  have m1 := h.mom2 (hp k hk) (hp l hl) (hp (k + l) (by omega)) hab
  have m2 := h.mom2 (hp (k + m) (by omega)) (hp l hl) (hp (k + m + l) (by omega)) hab
  have m3 := h.mom2 (hp k hk) (hp (l + m) (by omega)) (hp (k + (l + m)) (by omega)) hab
  rw [show k + m + l = k + l + m by omega] at m2
  rw [show k + (l + m) = k + l + m by omega] at m3
  rw [hs] at hs2
  linear_combination (n : ℝ) * (n - 1) * (-hs2) + p m * m1 - m2 - m3

/-- A weighted permutation-symmetric group of barycentric points, with its power sums. -/
structure BGrp where
  w : ℝ
  L : List (List ℝ)
  p : ℕ → ℝ

structure BGrp.Ok (n : ℕ) (g : BGrp) : Prop where
  ps : PS (n + 1) g.L
  hp : ∀ k, 1 ≤ k → ConstPow (n + 1) g.L k (g.p k)
  h1 : g.p 1 = 1

/-- Sum of `w N φ` over the groups. -/
def bsum (gs : List BGrp) (φ : BGrp → ℝ) : ℝ := (gs.map fun g => g.w * g.L.length * φ g).sum

theorem bsum_eq {N : ℕ} (gs : List BGrp) (α : Fin N → ℕ) (φ : BGrp → ℝ) (c : ℝ)
    (h : ∀ g ∈ gs, c * osum N g.L (mono α) = g.L.length * φ g) :
    c * (gs.map fun g => g.w * osum N g.L (mono α)).sum = bsum gs φ := by
  unfold bsum
  rw [← List.sum_map_mul_left]
  congr 1
  apply List.map_congr_left
  intro g hg
  have := h g hg
  rw [mul_left_comm, this]; ring

/-- The moment conditions of a degree `d ≤ 7` rule on the `n`-simplex. -/
structure BConds (n d : ℕ) (gs : List BGrp) : Prop where
  c0 : bsum gs (fun _ => 1) = 1
  c2 : 2 ≤ d → bsum gs (fun g => g.p 2) = 2 / (n + 2)
  c3 : 3 ≤ d → bsum gs (fun g => g.p 3) = 6 / ((n + 2) * (n + 3))
  c4 : 4 ≤ d → bsum gs (fun g => g.p 4) = 24 / ((n + 2) * (n + 3) * (n + 4))
  c22 : 4 ≤ d → 1 ≤ n → bsum gs (fun g => g.p 2 * g.p 2 - g.p 4) =
    4 * n / ((n + 2) * (n + 3) * (n + 4))
  c5 : 5 ≤ d → bsum gs (fun g => g.p 5) = 120 / ((n + 2) * (n + 3) * (n + 4) * (n + 5))
  c32 : 5 ≤ d → 1 ≤ n → bsum gs (fun g => g.p 3 * g.p 2 - g.p 5) =
    12 * n / ((n + 2) * (n + 3) * (n + 4) * (n + 5))
  c6 : 6 ≤ d → bsum gs (fun g => g.p 6) =
    720 / ((n + 2) * (n + 3) * (n + 4) * (n + 5) * (n + 6))
  c42 : 6 ≤ d → 1 ≤ n → bsum gs (fun g => g.p 4 * g.p 2 - g.p 6) =
    48 * n / ((n + 2) * (n + 3) * (n + 4) * (n + 5) * (n + 6))
  c33 : 6 ≤ d → 1 ≤ n → bsum gs (fun g => g.p 3 * g.p 3 - g.p 6) =
    36 * n / ((n + 2) * (n + 3) * (n + 4) * (n + 5) * (n + 6))
  c222 : 6 ≤ d → 2 ≤ n → bsum gs (fun g => g.p 2 * g.p 2 * g.p 2 - g.p 4 * g.p 2 - g.p 4 * g.p 2
      - g.p 4 * g.p 2 + 2 * g.p 6) =
    8 * n * (n - 1) / ((n + 2) * (n + 3) * (n + 4) * (n + 5) * (n + 6))
  c7 : 7 ≤ d → bsum gs (fun g => g.p 7) =
    5040 / ((n + 2) * (n + 3) * (n + 4) * (n + 5) * (n + 6) * (n + 7))
  c52 : 7 ≤ d → 1 ≤ n → bsum gs (fun g => g.p 5 * g.p 2 - g.p 7) =
    240 * n / ((n + 2) * (n + 3) * (n + 4) * (n + 5) * (n + 6) * (n + 7))
  c43 : 7 ≤ d → 1 ≤ n → bsum gs (fun g => g.p 4 * g.p 3 - g.p 7) =
    144 * n / ((n + 2) * (n + 3) * (n + 4) * (n + 5) * (n + 6) * (n + 7))
  c322 : 7 ≤ d → 2 ≤ n → bsum gs (fun g => g.p 3 * g.p 2 * g.p 2 - g.p 5 * g.p 2 - g.p 5 * g.p 2
      - g.p 4 * g.p 3 + 2 * g.p 7) =
    24 * n * (n - 1) / ((n + 2) * (n + 3) * (n + 4) * (n + 5) * (n + 6) * (n + 7))

theorem baryMom_e1 {n : ℕ} (a : Fin (n + 1)) (k : ℕ) :
    baryMom (e1 a k) = n.factorial * k.factorial / (n + k).factorial := by
  unfold baryMom
  rw [prod_e1 (G := fun _ j => (j.factorial : ℝ)) (by simp)]
  have : ∑ i, e1 a k i = k := by simp [e1, Pi.single_apply]
  rw [this]; rfl

theorem baryMom_e2 {n : ℕ} {a b : Fin (n + 1)} (hab : a ≠ b) (k l : ℕ) :
    baryMom (e2 a b k l) = n.factorial * (k.factorial * l.factorial) / (n + (k + l)).factorial := by
  unfold baryMom
  rw [prod_e2 (G := fun _ j => (j.factorial : ℝ)) (by simp) hab]
  have : ∑ i, e2 a b k l i = k + l := by
    simp [e2, sum_add_distrib, Pi.single_apply]
  rw [this]; rfl

theorem baryMom_e3 {n : ℕ} {a b c : Fin (n + 1)} (hab : a ≠ b) (hac : a ≠ c) (hbc : b ≠ c)
    (k l m : ℕ) : baryMom (e3 a b c k l m) =
      n.factorial * (k.factorial * l.factorial * m.factorial) / (n + (k + l + m)).factorial := by
  unfold baryMom
  rw [prod_e3 (G := fun _ j => (j.factorial : ℝ)) (by simp) hab hac hbc]
  have : ∑ i, e3 a b c k l m i = k + l + m := by
    simp [e3, sum_add_distrib, Pi.single_apply]
  rw [this]; rfl

theorem bary_moments {n d : ℕ} (hd : d ≤ 7) (gs : List BGrp) (hok : ∀ g ∈ gs, g.Ok n)
    (hc : BConds n d gs) : ∀ β : Fin (n + 1) → ℕ, ∑ i, β i ≤ d →
      (gs.map fun g => g.w * osum (n + 1) g.L (mono β)).sum = baryMom β := by
  have N0 : ((n + 1 : ℕ) : ℝ) ≠ 0 := by positivity
  have hN : ((n + 1 : ℕ) : ℝ) = n + 1 := by push_cast; ring
  have n1 : ∀ a b : Fin (n + 1), a ≠ b → ((n + 1 : ℕ) : ℝ) * ((n + 1 : ℕ) - 1) ≠ 0 := fun a b hab => by
    have h : 1 ≤ n := by have := two_le_of_ne hab; omega
    have h' : (n : ℝ) ≠ 0 := by positivity
    rw [hN]; simpa using ⟨by positivity, by omega⟩
  have n2 : ∀ a b c : Fin (n + 1), a ≠ b → a ≠ c → b ≠ c →
      ((n + 1 : ℕ) : ℝ) * ((n + 1 : ℕ) - 1) * ((n + 1 : ℕ) - 2) ≠ 0 := fun a b c hab hac hbc => by
      have h : 2 ≤ n := by have := three_le_of_ne hab hac hbc; omega
      have h2 : (2 : ℝ) ≤ n := by exact_mod_cast h
      refine mul_ne_zero (n1 a b hab) ?_
      rw [hN]
      have : (0 : ℝ) < n - 1 := by linarith
      intro h0; linarith
  have le1 : ∀ a b : Fin (n + 1), a ≠ b → 1 ≤ n := fun a b hab => by
    have := two_le_of_ne hab; omega
  have le2 : ∀ a b c : Fin (n + 1), a ≠ b → a ≠ c → b ≠ c → 2 ≤ n := fun a b c h1 h2 h3 => by
    have := three_le_of_ne h1 h2 h3; omega
  have nf : (n.factorial : ℝ) ≠ 0 := by positivity
  have fs : ∀ m : ℕ, ((m + 1).factorial : ℝ) = (m + 1) * m.factorial := fun m => by
    rw [Nat.factorial_succ]; push_cast; ring
  suffices h : ∀ β : Fin (n + 1) → ℕ, ∑ i, β i ≤ d →
      (fun β => (gs.map fun g => g.w * osum (n + 1) g.L (mono β)).sum - baryMom β) β = 0 from
    fun β hβ => sub_eq_zero.1 (h β hβ)
  apply bary_reduce
  · intro β σ
    beta_reduce
    rw [baryMom_perm, List.map_congr_left fun g hg => by rw [(hok g hg).ps.perm β σ]]
  · intro β
    beta_reduce
    rw [sum_sub_distrib, ← baryMom_sum]
    congr 1
    have : ∀ g ∈ gs, g.w * osum (n + 1) g.L (mono β) =
        ∑ b, g.w * osum (n + 1) g.L (mono (β + Pi.single b 1)) := by
      intro g hg
      rw [← mul_sum, ← osum_finset_sum]
      congr 1
      apply osum_congr
      intro x hx
      have h1 : ∀ b, mono (β + Pi.single b 1) (toVec (n + 1) x) =
          mono β (toVec (n + 1) x) * toVec (n + 1) x b := by
        intro b
        simp only [mono, Pi.add_apply, pow_add, prod_mul_distrib]
        congr 1
        rw [prod_eq_single b]
        · simp
        · intro c _ hcb; simp [Pi.single_apply, hcb]
        · simp
      rw [sum_congr rfl fun b _ => h1 b, ← mul_sum]
      have h2 := (hok g hg).hp 1 le_rfl x hx
      simp only [pow_one, (hok g hg).h1] at h2
      rw [h2, mul_one]
    rw [List.map_congr_left this]
    clear this hc hok
    induction gs with
    | nil => simp
    | cons g gs ih => simp only [List.map_cons, List.sum_cons, ih, sum_add_distrib]
  · have key : ∀ (β : Fin (n + 1) → ℕ) (c : ℝ) (φ : BGrp → ℝ), c ≠ 0 →
        (∀ g ∈ gs, c * osum (n + 1) g.L (mono β) = g.L.length * φ g) →
        bsum gs φ = c * baryMom β →
        (gs.map fun g => g.w * osum (n + 1) g.L (mono β)).sum - baryMom β = 0 := by
      intro β c φ hc0 h1 h2
      rw [sub_eq_zero]
      apply mul_left_cancel₀ hc0
      rw [← h2]
      exact bsum_eq gs β φ c h1
    have t1 : ∀ a k, 1 ≤ k → bsum gs (fun g => g.p k) =
        ((n + 1 : ℕ) : ℝ) * (n.factorial * k.factorial / (n + k).factorial) →
        (gs.map fun g => g.w * osum (n + 1) g.L (mono (e1 a k))).sum - baryMom (e1 a k) = 0 :=
      fun a k hk h => key _ _ _ N0 (fun g hg => (hok g hg).ps.mom1 ((hok g hg).hp k hk) a)
        (by rw [baryMom_e1]; exact h)
    have t2 : ∀ (a b : Fin (n + 1)) (k l : ℕ), a ≠ b → 1 ≤ k → 1 ≤ l →
        bsum gs (fun g => g.p k * g.p l - g.p (k + l)) =
        ((n + 1 : ℕ) : ℝ) * ((n + 1 : ℕ) - 1) *
          (n.factorial * (k.factorial * l.factorial) / (n + (k + l)).factorial) →
        (gs.map fun g => g.w * osum (n + 1) g.L (mono (e2 a b k l))).sum -
          baryMom (e2 a b k l) = 0 :=
      fun a b k l hab hk hl h => key _ _ _ (n1 a b hab)
        (fun g hg => (hok g hg).ps.mom2 ((hok g hg).hp k hk) ((hok g hg).hp l hl)
          ((hok g hg).hp (k + l) (by omega)) hab)
        (by rw [baryMom_e2 hab]; exact h)
    have t3 : ∀ (a b c : Fin (n + 1)) (k l m : ℕ), a ≠ b → a ≠ c → b ≠ c → 1 ≤ k → 1 ≤ l → 1 ≤ m →
        bsum gs (fun g => g.p k * g.p l * g.p m - g.p (k + l) * g.p m - g.p (k + m) * g.p l
          - g.p (l + m) * g.p k + 2 * g.p (k + l + m)) =
        ((n + 1 : ℕ) : ℝ) * ((n + 1 : ℕ) - 1) * ((n + 1 : ℕ) - 2) *
          (n.factorial * (k.factorial * l.factorial * m.factorial) / (n + (k + l + m)).factorial) →
        (gs.map fun g => g.w * osum (n + 1) g.L (mono (e3 a b c k l m))).sum -
          baryMom (e3 a b c k l m) = 0 :=
      fun a b c k l m hab hac hbc hk hl hm h => key _ _ _ (n2 a b c hab hac hbc)
        (fun g hg => (hok g hg).ps.mom3 g.p (hok g hg).hp hk hl hm hab hac hbc)
        (by rw [baryMom_e3 hab hac hbc]; exact h)
    apply classify_no_ones hd
    · refine key 0 1 (fun _ => 1) one_ne_zero (fun g _ => by rw [osum_mono_zero]; ring) ?_
      rw [hc.c0]
      simp [baryMom, nf]
    · intro k hk2 hkd a
      have hk7 : k ≤ 7 := by omega
      interval_cases k
      · refine t1 a 2 (by norm_num) ((hc.c2 hkd).trans ?_)
        simp only [← add_assoc, fs, Nat.factorial, hN]; push_cast; field_simp; try ring
      · refine t1 a 3 (by norm_num) ((hc.c3 hkd).trans ?_)
        simp only [fs, Nat.factorial, hN]; push_cast; field_simp; try ring
      · refine t1 a 4 (by norm_num) ((hc.c4 hkd).trans ?_)
        simp only [fs, Nat.factorial, hN]; push_cast; field_simp; try ring
      · refine t1 a 5 (by norm_num) ((hc.c5 hkd).trans ?_)
        simp only [fs, Nat.factorial, hN]; push_cast; field_simp; try ring
      · refine t1 a 6 (by norm_num) ((hc.c6 hkd).trans ?_)
        simp only [fs, Nat.factorial, hN]; push_cast; field_simp; try ring
      · refine t1 a 7 (by norm_num) ((hc.c7 hkd).trans ?_)
        simp only [fs, Nat.factorial, hN]; push_cast; field_simp; try ring
    · intro h a b hab
      refine t2 a b 2 2 hab (by norm_num) (by norm_num) ((hc.c22 h (le1 a b hab)).trans ?_)
      simp only [Nat.reduceAdd, fs, Nat.factorial, hN]; push_cast; field_simp; try ring
    · intro h a b hab
      refine t2 a b 3 2 hab (by norm_num) (by norm_num) ((hc.c32 h (le1 a b hab)).trans ?_)
      simp only [Nat.reduceAdd, fs, Nat.factorial, hN]; push_cast; field_simp; try ring
    · intro h a b hab
      refine t2 a b 4 2 hab (by norm_num) (by norm_num) ((hc.c42 h (le1 a b hab)).trans ?_)
      simp only [Nat.reduceAdd, fs, Nat.factorial, hN]; push_cast; field_simp; try ring
    · intro h a b hab
      refine t2 a b 3 3 hab (by norm_num) (by norm_num) ((hc.c33 h (le1 a b hab)).trans ?_)
      simp only [Nat.reduceAdd, fs, Nat.factorial, hN]; push_cast; field_simp; try ring
    · intro h a b hab
      refine t2 a b 5 2 hab (by norm_num) (by norm_num) ((hc.c52 h (le1 a b hab)).trans ?_)
      simp only [Nat.reduceAdd, fs, Nat.factorial, hN]; push_cast; field_simp; try ring
    · intro h a b hab
      refine t2 a b 4 3 hab (by norm_num) (by norm_num) ((hc.c43 h (le1 a b hab)).trans ?_)
      simp only [Nat.reduceAdd, fs, Nat.factorial, hN]; push_cast; field_simp; try ring
    · intro h a b c hab hac hbc
      refine t3 a b c 2 2 2 hab hac hbc (by norm_num) (by norm_num) (by norm_num)
        ((hc.c222 h (le2 a b c hab hac hbc)).trans ?_)
      simp only [Nat.reduceAdd, fs, Nat.factorial, hN]; push_cast; field_simp; try ring
    · intro h a b c hab hac hbc
      refine t3 a b c 3 2 2 hab hac hbc (by norm_num) (by norm_num) (by norm_num)
        ((hc.c322 h (le2 a b c hab hac hbc)).trans ?_)
      simp only [Nat.reduceAdd, fs, Nat.factorial, hN]; push_cast; field_simp; try ring

end Quadpy
