import Verif.Props.C35
import Verif.Lemmas.FixedRules

/-! Rules in the plane made of regular polygons: the orbits "dn.0" (`n` points, the first on the axis)
and "dn.1" (turned by half a step). -/

namespace Quadpy
open Finset

theorem sum_range_two_mul' (f : ℕ → ℝ) (n : ℕ) :
    ∑ k ∈ range (2 * n), f k = ∑ k ∈ range n, f (2 * k) + ∑ k ∈ range n, f (2 * k + 1) := by
  induction n with
  | zero => simp
  | succ n ih =>
    rw [show 2 * (n + 1) = 2 * n + 1 + 1 by ring, sum_range_succ, sum_range_succ, ih,
      sum_range_succ, sum_range_succ]
    ring

/-- The two polygons with `n` corners make one with `2 n` corners. -/
theorem osum_d_pair (n : ℕ) (hn : 0 < n) (r : ℝ) (f : (Fin 2 → ℝ) → ℝ) :
    osum 2 (orbit 2 (.d n 0) [r]) f + osum 2 (orbit 2 (.d n 1) [r]) f =
      osum 2 (orbit 2 (.d (2 * n) 0) [r]) f := by
  have hn' : (n : ℝ) ≠ 0 := by positivity
  rw [osum_d, osum_d, osum_d, sum_range_two_mul']
  congr 1
  · refine sum_congr rfl fun k _ => ?_
    have : (2 * (k : ℝ) + ((0 : ℕ) : ℝ)) * Real.pi / n =
        (2 * ((2 * k : ℕ) : ℝ) + ((0 : ℕ) : ℝ)) * Real.pi / ((2 * n : ℕ) : ℝ) := by
      push_cast; field_simp; ring
    rw [this]
  · refine sum_congr rfl fun k _ => ?_
    have : (2 * (k : ℝ) + ((1 : ℕ) : ℝ)) * Real.pi / n =
        (2 * ((2 * k + 1 : ℕ) : ℝ) + ((0 : ℕ) : ℝ)) * Real.pi / ((2 * n : ℕ) : ℝ) := by
      push_cast; field_simp; ring
    rw [this]

theorem osum_d_scale (n o : ℕ) (r : ℝ) (α : Fin 2 → ℕ) :
    osum 2 (orbit 2 (.d n o) [r]) (mono α) =
      r ^ (α 0 + α 1) * osum 2 (orbit 2 (.d n o) [1]) (mono α) := by
  rw [osum_d, osum_d, mul_sum]
  refine sum_congr rfl fun k _ => ?_
  simp only [mono, Fin.prod_univ_two, Matrix.cons_val_zero, Matrix.cons_val_one, mul_one]
  ring

/-- A polygon with an even number of corners is symmetric about the origin. -/
theorem osum_d_neg (n o : ℕ) (hn : 0 < n) (he : Even n) (α : Fin 2 → ℕ) (h : Odd (α 0 + α 1)) :
    osum 2 (orbit 2 (.d n o) [1]) (mono α) = 0 := by
  have hn' : (n : ℝ) ≠ 0 := by positivity
  obtain ⟨m, rfl⟩ := he
  rw [osum_d, sum_range_add]
  have : ∀ k : ℕ, mono α ![Real.cos ((2 * ((m + k : ℕ) : ℝ) + o) * Real.pi / (m + m : ℕ)) * 1,
      Real.sin ((2 * ((m + k : ℕ) : ℝ) + o) * Real.pi / (m + m : ℕ)) * 1] =
      - mono α ![Real.cos ((2 * (k : ℝ) + o) * Real.pi / (m + m : ℕ)) * 1,
      Real.sin ((2 * (k : ℝ) + o) * Real.pi / (m + m : ℕ)) * 1] := by
    intro k
    have e : (2 * ((m + k : ℕ) : ℝ) + o) * Real.pi / (m + m : ℕ) =
        (2 * (k : ℝ) + o) * Real.pi / (m + m : ℕ) + Real.pi := by
      have hm : (m : ℝ) ≠ 0 := by
        have : 0 < m := by omega
        positivity
      push_cast; field_simp; ring
    rw [e, Real.cos_add_pi, Real.sin_add_pi]
    simp only [mono, Fin.prod_univ_two, Matrix.cons_val_zero, Matrix.cons_val_one, mul_one]
    rw [neg_pow (Real.cos _), neg_pow (Real.sin _)]
    have := h.neg_one_pow (α := ℝ)
    rw [pow_add] at this
    generalize Real.cos _ = x
    generalize Real.sin _ = y
    linear_combination (x ^ α 0 * y ^ α 1) * this
  simp only [this, sum_neg_distrib]
  ring

/-- Contribution of an orbit to the moments of degree `2 s`. -/
noncomputable def ringTerm (s : ℕ) : SymKey → List ℝ → ℝ
  | .zero, _ => 0 ^ s
  | .d n _, [r] => n * (r ^ 2) ^ s
  | _, _ => 0

/-- The same with the sign of the orbit. -/
noncomputable def ringSign (s : ℕ) : SymKey → List ℝ → ℝ
  | .d _ 0, [r] => (r ^ 2) ^ s
  | .d _ 1, [r] => - (r ^ 2) ^ s
  | _, _ => 0

noncomputable def ringSum (f : SymKey → List ℝ → ℝ) (d : List SymEntry) : ℝ :=
  (d.map fun e => (List.zipWith (fun w c => w * f e.key c) e.weights e.cols).sum).sum

theorem zipWith_lin (A B : List ℝ → ℝ) (S K : ℝ) (w : List ℝ) (c : List (List ℝ)) :
    (List.zipWith (fun w c => w * (A c * S + K * B c)) w c).sum =
      (List.zipWith (fun w c => w * A c) w c).sum * S +
        K * (List.zipWith (fun w c => w * B c) w c).sum := by
  induction w generalizing c with
  | nil => simp
  | cons a w ih =>
    cases c with
    | nil => simp
    | cons b c => simp only [List.zipWith_cons_cons, List.sum_cons, ih]; ring

theorem ringSum_lin (A B : SymKey → List ℝ → ℝ) (S K : ℝ) (d : List SymEntry) :
    ringSum (fun k c => A k c * S + K * B k c) d = ringSum A d * S + K * ringSum B d := by
  induction d with
  | nil => simp [ringSum]
  | cons e d ih =>
    simp only [ringSum, List.map_cons, List.sum_cons] at ih ⊢
    rw [ih, zipWith_lin (A e.key) (B e.key)]; ring

/-- A rule made of the origin and regular polygons with `n` corners, `n` even, is exact up to a degree
below `2 n` as soon as its radial moments are right and the two kinds of polygons balance each other
from degree `n` on. -/
theorem ring_exact {J : Spec.Functional 2} {ρ : ℕ → ℝ} (hl : LinOnMono J)
    (hm : ∀ α, J (mono α) = J (fun _ => 1) * radMom ρ α) (n : ℕ) (hn : 0 < n) (he : Even n)
    {d : List SymEntry} {deg : ℕ} (hdeg : deg < 2 * n)
    (hd : ∀ e ∈ d, (e.key = .zero ∨ e.key = .d n 0 ∨ e.key = .d n 1) ∧ e.Regular)
    (h1 : ∀ s, 2 * s ≤ deg → ringSum (ringTerm s) d = ρ (2 * s))
    (h2 : ∀ s, n ≤ 2 * s → 2 * s ≤ deg → ringSum (ringSign s) d = 0) :
    (schemeOfSym 2 d deg).ExactRel 2 J := by
  have hr : ∀ e ∈ d, e.Regular := fun e he => (hd e he).2
  have hn' : (n : ℝ) ≠ 0 := by positivity
  refine ⟨schemeOfSym_wellShaped 2 2 d deg hr (fun e he c hc x hx => ?_) rfl, ?_⟩
  · have ha := (hr e he).2 c hc
    rcases (hd e he).1 with hk | hk | hk <;> rw [hk] at hx ha <;> rcases ha with ha | ha
    · simp at ha
    · simp only [orbit, List.mem_singleton] at hx; subst hx; rfl
    · simp at ha
    · simp only [SymKey.arities, List.mem_cons, List.not_mem_nil, or_false,
        List.length_eq_one_iff] at ha
      obtain ⟨r, rfl⟩ := ha
      simp only [orbit, List.mem_map] at hx
      obtain ⟨k, -, rfl⟩ := hx; rfl
    · simp at ha
    · simp only [SymKey.arities, List.mem_cons, List.not_mem_nil, or_false,
        List.length_eq_one_iff] at ha
      obtain ⟨r, rfl⟩ := ha
      simp only [orbit, List.mem_map] at hx
      obtain ⟨k, -, rfl⟩ := hx; rfl
  refine exactUpTo_of_mono ((dot_linOnMono _ _).const_mul _) hl fun α hα => ?_
  beta_reduce
  simp only [schemeOfSym] at hα ⊢
  rw [expand_dot 2 2 d hr, hm, radMom]
  rw [Fin.sum_univ_two] at hα ⊢
  congr 1
  set κ := osum 2 (orbit 2 (.d n 0) [1]) (mono α) / n - sphMom α with hκ
  have k0 : osum 2 (orbit 2 (.d n 0) [1]) (mono α) = n * (sphMom α + κ) := by
    rw [hκ]; field_simp; ring
  have k1 : osum 2 (orbit 2 (.d n 1) [1]) (mono α) = n * (sphMom α - κ) := by
    have := osum_d_pair n hn 1 (mono α)
    rw [osum_d_mono (2 * n) 0 1 α (by omega), k0] at this
    push_cast at this
    rw [one_pow] at this
    linear_combination this
  rcases Nat.even_or_odd (α 0 + α 1) with hev | hod
  · obtain ⟨s, hs⟩ := hev.two_dvd
    have key : symSum 2 2 d (mono α) =
        ringSum (fun k c => ringTerm s k c * sphMom α + (n * κ) * ringSign s k c) d := by
      rw [symSum, ringSum]
      congr 1
      refine List.map_congr_left fun e he => ?_
      congr 1
      refine zipWith_congr_mem _ _ _ _ fun w c hc => ?_
      congr 1
      have ha := (hr e he).2 c hc
      rcases (hd e he).1 with hk | hk | hk <;> rw [hk] at ha ⊢ <;> rcases ha with ha | ha
      · simp at ha
      · simp only [SymKey.arities, List.mem_cons, List.not_mem_nil, or_false,
          List.length_eq_zero_iff] at ha
        subst ha
        simp only [ringTerm, ringSign, osum, orbit, List.map_cons, List.map_nil, List.sum_cons,
          List.sum_nil, List.replicate, mono_two]
        rcases Nat.eq_zero_or_pos s with rfl | hpos
        · have a0 : α 0 = 0 := by omega
          have a1 : α 1 = 0 := by omega
          have : α = 0 := by funext i; fin_cases i <;> simp [a0, a1]
          rw [a0, a1, this]
          have := sphMom_even (n := 2) (by norm_num) 0
          simp only [Pi.zero_apply, mul_zero, sum_const_zero, stepFac, oddFac, prod_const_one,
            div_one] at this
          rw [show (0 : Fin 2 → ℕ) = fun _ => 0 from rfl, this]; norm_num
        · rw [← pow_add, zero_pow (by omega), zero_pow hpos.ne']; ring
      · simp at ha
      · simp only [SymKey.arities, List.mem_cons, List.not_mem_nil, or_false,
          List.length_eq_one_iff] at ha
        obtain ⟨r, rfl⟩ := ha
        simp only [ringTerm, ringSign]
        rw [osum_d_scale, k0, hs, pow_mul]; ring
      · simp at ha
      · simp only [SymKey.arities, List.mem_cons, List.not_mem_nil, or_false,
          List.length_eq_one_iff] at ha
        obtain ⟨r, rfl⟩ := ha
        simp only [ringTerm, ringSign]
        rw [osum_d_scale, k1, hs, pow_mul]; ring
    rw [key, ringSum_lin, h1 s (by omega), hs]
    rcases Nat.lt_or_ge (2 * s) n with hlt | hge
    · have : κ = 0 := by
        rw [hκ, osum_d_mono n 0 1 α (by omega)]
        field_simp; ring
      rw [this]; ring
    · rw [h2 s hge (by omega)]; ring
  · have hS : sphMom α = 0 := by
      refine sphMom_odd α ?_
      by_contra hcon
      push Not at hcon
      have := (Nat.not_odd_iff_even.1 (hcon 0)).add (Nat.not_odd_iff_even.1 (hcon 1))
      exact (Nat.not_even_iff_odd.2 hod) this
    rw [hS, mul_zero, symSum]
    refine List.sum_eq_zero fun y hy => ?_
    obtain ⟨e, he', rfl⟩ := List.mem_map.1 hy
    refine zipWith_sum_zero _ _ _ fun w c hc => ?_
    have ha := (hr e he').2 c hc
    rcases (hd e he').1 with hk | hk | hk <;> rw [hk] at ha ⊢ <;> rcases ha with ha | ha
    · simp at ha
    · simp only [osum, orbit, List.map_cons, List.map_nil, List.sum_cons, List.sum_nil,
        List.replicate, mono_two]
      rw [← pow_add, zero_pow hod.pos.ne']; ring
    · simp at ha
    · simp only [SymKey.arities, List.mem_cons, List.not_mem_nil, or_false,
        List.length_eq_one_iff] at ha
      obtain ⟨r, rfl⟩ := ha
      rw [osum_d_scale, osum_d_neg n 0 hn he α hod]; ring
    · simp at ha
    · simp only [SymKey.arities, List.mem_cons, List.not_mem_nil, or_false,
        List.length_eq_one_iff] at ha
      obtain ⟨r, rfl⟩ := ha
      rw [osum_d_scale, osum_d_neg n 1 hn he α hod]; ring

end Quadpy
