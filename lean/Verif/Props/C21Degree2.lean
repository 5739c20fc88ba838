import Verif.Lemmas.Gram
import Verif.Model.Enr2
import Verif.Model.Sn

/-! C21, C24, C27: the minimal rules of degree two and three. -/

namespace Quadpy
open Finset Real

theorem sum_shift {N : ℕ} (g : ℕ → ℝ) (hg : ∀ k, g (k + N) = g k) (s : ℕ) :
    ∑ k ∈ range N, g (k + s) = ∑ k ∈ range N, g k := by
  induction s with
  | zero => rfl
  | succ s ih =>
    rw [← ih]
    have h1 := sum_range_succ (fun k => g (k + s)) N
    have h2 := sum_range_succ' (fun k => g (k + s)) N
    have h3 := hg s
    have e : ∑ k ∈ range N, g (k + (s + 1)) = ∑ k ∈ range N, g (k + 1 + s) :=
      sum_congr rfl fun k _ => by congr 1; ring
    rw [e]
    simp only [zero_add] at h2
    rw [add_comm s N] at h3
    linarith

theorem tc_period {N : ℕ} (h0 : 0 < N) (l : ℤ) (k : ℕ) : tc N l (k + N) = tc N l k := by
  have : (N : ℝ) ≠ 0 := by positivity
  rw [tc, tc, show 2 * π * ((l : ℝ) * ((k + N : ℕ) : ℝ) / N) = 2 * π * (l * k / N) + l * (2 * π) by
    push_cast; field_simp]
  exact cos_add_int_mul_two_pi _ _

theorem ts_period {N : ℕ} (h0 : 0 < N) (l : ℤ) (k : ℕ) : ts N l (k + N) = ts N l k := by
  have : (N : ℝ) ≠ 0 := by positivity
  rw [ts, ts, show 2 * π * ((l : ℝ) * ((k + N : ℕ) : ℝ) / N) = 2 * π * (l * k / N) + l * (2 * π) by
    push_cast; field_simp]
  exact sin_add_int_mul_two_pi _ _

theorem trig_period {N n : ℕ} (h0 : 0 < N) (l : ℕ → ℤ) (a : Fin n) (k : ℕ) :
    tcs3 N n l a (k + N) = tcs3 N n l a k := by
  simp only [tcs3, tc_period h0, ts_period h0]

theorem tc_anti {n : ℕ} (h0 : 0 < n) {l : ℤ} (hl : Odd l) (k : ℕ) :
    tc (2 * n) l (n + k) = -tc (2 * n) l k := by
  have : (n : ℝ) ≠ 0 := by positivity
  rw [tc, tc, show 2 * π * ((l : ℝ) * ((n + k : ℕ) : ℝ) / ((2 * n : ℕ) : ℝ)) =
    2 * π * (l * k / ((2 * n : ℕ) : ℝ)) + l * π by push_cast; field_simp; ring,
    cos_add_int_mul_pi, hl.neg_one_zpow]
  ring

theorem ts_anti {n : ℕ} (h0 : 0 < n) {l : ℤ} (hl : Odd l) (k : ℕ) :
    ts (2 * n) l (n + k) = -ts (2 * n) l k := by
  have : (n : ℝ) ≠ 0 := by positivity
  rw [ts, ts, show 2 * π * ((l : ℝ) * ((n + k : ℕ) : ℝ) / ((2 * n : ℕ) : ℝ)) =
    2 * π * (l * k / ((2 * n : ℕ) : ℝ)) + l * π by push_cast; field_simp; ring,
    sin_add_int_mul_pi, hl.neg_one_zpow]
  ring

theorem trig_exact {N n : ℕ} (h0 : 0 < N) {J : Spec.Functional n} {m2 m4 m22 m6 m42 m222 : ℝ}
    (hJ : RelMom J m2 m4 m22 m6 m42 m222) (S : Scheme) (hs : S.WellShaped n) (hd : S.degree ≤ 3)
    {l : ℕ → ℤ} (hl : ∀ k, 2 * k + 1 < n → 0 < l k ∧ 2 * l k < N) (hi : ∀ k m, l k = l m → k = m)
    (hN : n % 2 = 1 → N % 2 = 0) (c : Fin n → ℝ) (s : ℕ) (hc : ∀ a, c a ^ 2 = m2)
    (hS : ∀ f, dot n S.weights S.points f =
      1 / N * ∑ k ∈ range N, f (fun a => c a * tcs3 N n l a (k + s)))
    (h3 : S.degree = 3 → ∀ x y z, dot n S.weights S.points (fun v => v x * (v y * v z)) = 0) :
    S.ExactRel n J := by
  have : NeZero N := ⟨h0.ne'⟩
  have hN0 : (N : ℝ) ≠ 0 := by positivity
  refine gram_exact hJ S hs hd ?_ (fun a => ?_) (fun a b => ?_) h3
  · rw [hS]; simp [hN0]
  · rw [hS]
    beta_reduce
    rw [← mul_sum, sum_shift (fun k => tcs3 N n l a k) (fun k => trig_period h0 l a k), trig_sum hl hN]
    simp
  · rw [hS]
    have e : ∑ k ∈ range N, c a * tcs3 N n l a (k + s) * (c b * tcs3 N n l b (k + s)) =
        c a * c b * ∑ k ∈ range N, tcs3 N n l a (k + s) * tcs3 N n l b (k + s) := by
      rw [mul_sum]; exact sum_congr rfl fun k _ => by ring
    rw [e, sum_shift (fun k => tcs3 N n l a k * tcs3 N n l b k) (fun k => by
      simp only [trig_period h0]), trig_gram hl hi hN]
    split_ifs with h
    · subst h; rw [← hc a]; field_simp
    · simp

/-- A row of the code as a vector of `tcs3`. -/
theorem row_trig {N n : ℕ} (l : ℕ → ℤ) (c : Fin n → ℝ) (k : ℕ) (u v : ℕ → ℝ) (t : ℝ)
    (hu : ∀ a : Fin n, 2 * ((a : ℕ) / 2) + 1 < n → u (a / 2) = c a * (√2 * tc N (l (a / 2)) k))
    (hv : ∀ a : Fin n, 2 * ((a : ℕ) / 2) + 1 < n → v (a / 2) = c a * (√2 * ts N (l (a / 2)) k))
    (ht : n % 2 = 1 → ∀ a : Fin n, (a : ℕ) + 1 = n → t = c a * tc N (N / 2) k) :
    toVec n (((List.range (n / 2)).flatMap fun k => [u k, v k]) ++ if n % 2 = 1 then [t] else []) =
      fun a => c a * tcs3 N n l a k := by
  funext a
  have ha := a.isLt
  rw [toVec, pairs_getD, tcs3]
  by_cases h : 2 * ((a : ℕ) / 2) + 1 < n
  · rw [if_pos (show (a : ℕ) < 2 * (n / 2) by omega), if_pos h]
    split_ifs with h'
    · exact hu a h
    · exact hv a h
  · rw [if_neg (show ¬ (a : ℕ) < 2 * (n / 2) by omega), if_neg h, if_pos (show n % 2 = 1 by omega),
      show (a : ℕ) - 2 * (n / 2) = 0 by omega]
    exact ht (by omega) a (by omega)

theorem row_length (n : ℕ) (u v : ℕ → ℝ) (t : ℝ) :
    (((List.range (n / 2)).flatMap fun k => [u k, v k]) ++
      if n % 2 = 1 then [t] else []).length = n := by
  rw [List.length_append, pairs_length]
  split_ifs <;> simp <;> omega

theorem neg_one_ite (k : ℕ) (x : ℝ) : (if k % 2 = 1 then -x else x) = x * (-1) ^ k := by
  rcases Nat.even_or_odd k with h | h
  · rw [if_neg (by have := Nat.even_iff.1 h; omega), h.neg_one_pow, mul_one]
  · rw [if_pos (Nat.odd_iff.1 h), h.neg_one_pow]; ring

/-- sn/_stroud_1957.py:21-51, `n + 1` points, degree 2. -/
theorem C24_stroud1957 (n : ℕ) (hn : 1 ≤ n) :
    (Sn.stroud1957 n).degree = 2 ∧ (Sn.stroud1957 n).points.length = n + 1 ∧
      (Sn.stroud1957 n).ExactOnBall n := by
  refine ⟨rfl, by simp [Sn.stroud1957, schemeOf, untangle], ?_⟩
  have h2 : (0 : ℝ) < n + 2 := by positivity
  refine trig_exact (N := n + 1) (by omega) (ball_relMom hn) _ ?_ (by simp [Sn.stroud1957, schemeOf])
    (l := fun k => k + 1) (fun k hk => by push_cast; omega) (fun k m h => by simpa using h)
    (fun h => by omega) (fun _ => 1 / √(n + 2)) 0 (fun a => by
      rw [div_pow, Real.sq_sqrt h2.le, one_pow]) ?_ (by simp [Sn.stroud1957, schemeOf])
  · unfold Sn.stroud1957
    apply schemeOf_wellShaped
    simp only [List.mem_singleton]
    rintro g rfl x hx
    obtain ⟨i, -, rfl⟩ := List.mem_map.1 hx
    exact row_length n (fun k0 : ℕ => √(2 / (n + 2)) * cos (2 * ((k0 : ℝ) + 1) * i * π / (n + 1)))
      (fun k0 : ℕ => √(2 / (n + 2)) * sin (2 * ((k0 : ℝ) + 1) * i * π / (n + 1))) _
  · intro f
    unfold Sn.stroud1957
    rw [dot_schemeOf]
    simp only [List.map_cons, List.map_nil, List.sum_cons, List.sum_nil, add_zero, osum_range_map]
    push_cast
    congr 1
    refine sum_congr rfl fun k _ => ?_
    congr 1
    have hs : √(2 / ((n : ℝ) + 2)) = 1 / √(n + 2) * √2 := by
      rw [Real.sqrt_div (by norm_num)]; ring
    refine row_trig (N := n + 1) (fun k : ℕ => (k : ℤ) + 1) (fun _ => 1 / √((n : ℝ) + 2)) k _ _ _ ?_ ?_ ?_
    · intro a _
      generalize (a : ℕ) / 2 = j
      rw [hs, tc, mul_assoc]; push_cast; congr 3; ring
    · intro a _
      generalize (a : ℕ) / 2 = j
      rw [hs, ts, mul_assoc]; push_cast; congr 3; ring
    · intro h a _
      rw [neg_one_ite, ← tc_half (N := n + 1) (by omega) (by omega)]

/-- enr2/_xiu.py:19-38, `n + 1` points, degree 2. -/
theorem C27_xiu (n : ℕ) :
    (Enr2.xiu n).degree = 2 ∧ (Enr2.xiu n).points.length = n + 1 ∧ (Enr2.xiu n).ExactOnEnr2 n := by
  refine ⟨rfl, by simp [Enr2.xiu], ?_⟩
  have s2 : (0 : ℝ) < √2 := by positivity
  refine trig_exact (N := n + 1) (by omega) (enr2_relMom n) _ ?_ (by simp [Enr2.xiu])
    (l := fun k => k + 1) (fun k hk => by push_cast; omega) (fun k m h => by simpa using h)
    (fun h => by omega) (fun _ => 1 / √2) 0 (fun a => by
      rw [div_pow, Real.sq_sqrt (by norm_num), one_pow]) ?_ (by simp [Enr2.xiu])
  · refine ⟨rfl, by simp [Enr2.xiu], fun x hx => ?_⟩
    obtain ⟨i, -, rfl⟩ := List.mem_map.1 hx
    exact row_length n (fun k0 : ℕ => cos (2 * ((k0 : ℝ) + 1) * i * π / (n + 1)))
      (fun k0 : ℕ => sin (2 * ((k0 : ℝ) + 1) * i * π / (n + 1))) _
  · intro f
    have hlen : n + 1 = (Enr2.xiu n).points.length := by simp [Enr2.xiu]
    have hw : (Enr2.xiu n).weights = List.replicate (Enr2.xiu n).points.length (1 / ((n : ℝ) + 1)) := by
      rw [← hlen]; rfl
    rw [hw, dot_replicate]
    simp only [Enr2.xiu, osum_range_map]
    push_cast
    congr 1
    refine sum_congr rfl fun k _ => ?_
    congr 1
    refine row_trig (N := n + 1) (fun k : ℕ => (k : ℤ) + 1) (fun _ => 1 / √2) k _ _ _ ?_ ?_ ?_
    · intro a _
      generalize (a : ℕ) / 2 = j
      rw [tc, ← mul_assoc, one_div, inv_mul_cancel₀ s2.ne', one_mul]; push_cast; congr 1; ring
    · intro a _
      generalize (a : ℕ) / 2 = j
      rw [ts, ← mul_assoc, one_div, inv_mul_cancel₀ s2.ne', one_mul]; push_cast; congr 1; ring
    · intro h a _
      rw [← tc_half (N := n + 1) (by omega) (by omega)]; ring

/-- cn/_stroud_1957.py:34-54, `2 n` points, degree 3. -/
theorem C21_stroud1957_3 (n : ℕ) (hn : 1 ≤ n) :
    (Cn.stroud1957_3 n).degree = 3 ∧ (Cn.stroud1957_3 n).points.length = 2 * n ∧
      (Cn.stroud1957_3 n).ExactOnCube n := by
  refine ⟨rfl, by simp [Cn.stroud1957_3, schemeOf, untangle], ?_⟩
  have hn2 : (if n % 2 = 0 then n / 2 else (n - 1) / 2) = n / 2 := by split_ifs <;> omega
  have hnr : (n : ℝ) ≠ 0 := by positivity
  let c : Fin n → ℝ := fun a => if 2 * ((a : ℕ) / 2) + 1 < n then 1 / √3 else -(1 / √3)
  have hS : ∀ f, dot n (Cn.stroud1957_3 n).weights (Cn.stroud1957_3 n).points f =
      1 / ((2 * n : ℕ) : ℝ) * ∑ k ∈ range (2 * n),
        f (fun a => c a * tcs3 (2 * n) n (fun k => 2 * k + 1) a (k + 1)) := by
    intro f
    unfold Cn.stroud1957_3
    rw [dot_schemeOf]
    simp only [List.map_cons, List.map_nil, List.sum_cons, List.sum_nil, add_zero, osum_range_map, hn2]
    push_cast
    congr 1
    refine sum_congr rfl fun k _ => ?_
    congr 1
    have hs : √(2 / (3 : ℝ)) = 1 / √3 * √2 := by
      rw [Real.sqrt_div (by norm_num)]; ring
    refine row_trig (N := 2 * n) (fun k : ℕ => 2 * (k : ℤ) + 1) c (k + 1) _ _ _ ?_ ?_ ?_
    · intro a h
      simp only [c, if_pos h]
      generalize (a : ℕ) / 2 = j
      rw [hs, tc, mul_assoc]; push_cast; congr 3; field_simp; ring
    · intro a h
      simp only [c, if_pos h]
      generalize (a : ℕ) / 2 = j
      rw [hs, ts, mul_assoc]; push_cast; congr 3; field_simp; ring
    · intro h a ha
      simp only [c, if_neg (show ¬ 2 * ((a : ℕ) / 2) + 1 < n by omega)]
      rw [neg_one_ite, tc_half (N := 2 * n) (by omega) (by omega)]; ring
  have h := trig_exact (N := 2 * n) (by omega) (cube_relMom n) (Cn.stroud1957_3 n) ?_
    (by simp [Cn.stroud1957_3, schemeOf]) (l := fun k => 2 * k + 1)
    (fun k hk => by push_cast; omega) (fun k m h => by simpa using h)
    (fun h => by omega) c 1 (fun a => by
      simp only [c]; split_ifs <;> simp [div_pow]) hS ?_
  · rw [Scheme.ExactRel, one_eq_mono, cube_mono, cubeMom_zero, mul_one] at h
    exact h
  · unfold Cn.stroud1957_3
    apply schemeOf_wellShaped
    simp only [List.mem_singleton, hn2]
    rintro g rfl x hx
    obtain ⟨i, -, rfl⟩ := List.mem_map.1 hx
    exact row_length n
      (fun k0 : ℕ => √(2 / 3) * cos ((2 * ((k0 : ℝ) + 1) - 1) * ((i : ℝ) + 1) * π / n))
      (fun k0 : ℕ => √(2 / 3) * sin ((2 * ((k0 : ℝ) + 1) - 1) * ((i : ℝ) + 1) * π / n)) _
  · intro _ x y z
    rw [hS]
    have anti : ∀ (a : Fin n) (k : ℕ), tcs3 (2 * n) n (fun k => 2 * k + 1) a (n + k + 1) =
        -tcs3 (2 * n) n (fun k => 2 * k + 1) a (k + 1) := by
      intro a k
      have o : ∀ m : ℤ, Odd (2 * m + 1) := fun m => ⟨m, rfl⟩
      rw [add_assoc]
      unfold tcs3
      by_cases h : 2 * ((a : ℕ) / 2) + 1 < n
      · simp only [if_pos h, tc_anti (show 0 < n by omega) (o _), ts_anti (show 0 < n by omega) (o _)]
        split_ifs <;> ring
      · simp only [if_neg h]
        have : n % 2 = 1 := by have := a.isLt; omega
        rw [tc_anti (by omega) ⟨n / 2, by push_cast; omega⟩]
    rw [two_mul, sum_range_add]
    simp only [← two_mul, anti]
    rw [← sum_add_distrib, sum_eq_zero, mul_zero]
    intro k _
    ring

theorem osum_s {n : ℕ} (a b : ℝ) (f : (Fin n → ℝ) → ℝ) :
    osum n (Cn.s n a b) f = ∑ i : Fin n, f (fun j => if j = i then a else b) := by
  rw [Cn.s, osum_range_map, ← Fin.sum_univ_eq_sum_range
    (fun i => f (toVec n ((List.range n).map fun j => if j = i then a else b)))]
  refine sum_congr rfl fun i _ => ?_
  congr 1
  funext j
  simp [toVec, Fin.ext_iff]

/-- cn/_thacher.py:20-25, `2 n + 1` points, degree 2. -/
theorem C21_thacher (n : ℕ) :
    (Cn.thacher n).degree = 2 ∧ (Cn.thacher n).points.length = 2 * n + 1 ∧
      (Cn.thacher n).ExactOnCube n := by
  refine ⟨rfl, by simp [Cn.thacher, schemeOf, untangle, Cn.s]; ring, ?_⟩
  have hr : (√3 / 6 : ℝ) ^ 2 = 1 / 12 := by
    rw [div_pow, Real.sq_sqrt (by norm_num)]; norm_num
  have hS : ∀ f, dot n (Cn.thacher n).weights (Cn.thacher n).points f =
      f (fun _ => 2 * (√3 / 6)) + (√3 / 6 * (∑ i : Fin n, f (fun j => if j = i then -1 else √3 / 6)) -
        √3 / 6 * ∑ i : Fin n, f (fun j => if j = i then 1 else √3 / 6)) := by
    intro f
    unfold Cn.thacher
    rw [dot_schemeOf]
    simp only [List.map_cons, List.map_nil, List.sum_cons, List.sum_nil, add_zero, osum_s]
    have : osum n [List.replicate n (2 * (√3 / 6 : ℝ))] f = f (fun _ => 2 * (√3 / 6)) := by
      simp only [osum, List.map_cons, List.map_nil, List.sum_cons, List.sum_nil, add_zero]
      congr 1; funext j; simp [toVec]
    rw [this]; ring
  generalize hR : (√3 / 6 : ℝ) = r at hr hS
  have h := gram_exact (cube_relMom n) (Cn.thacher n) ?_ (by simp [Cn.thacher, schemeOf]) ?_ ?_ ?_
    (by simp [Cn.thacher, schemeOf])
  · rw [Scheme.ExactRel, one_eq_mono, cube_mono, cubeMom_zero, mul_one] at h
    exact h
  · unfold Cn.thacher
    apply schemeOf_wellShaped
    simp only [List.mem_cons, List.not_mem_nil, or_false]
    rintro g (rfl | rfl | rfl) x hx
    · simp at hx; simp [hx]
    · simp only [Cn.s, List.mem_map] at hx; obtain ⟨i, -, rfl⟩ := hx; simp
    · simp only [Cn.s, List.mem_map] at hx; obtain ⟨i, -, rfl⟩ := hx; simp
  · rw [hS]; simp
  · intro a
    rw [hS]
    rw [← mul_sub, ← sum_sub_distrib, sum_eq_single a]
    · simp; ring
    · intro b _ hb; simp [hb.symm]
    · simp
  · intro a b
    rw [hS]
    rw [← mul_sub, ← sum_sub_distrib]
    by_cases hab : a = b
    · subst hab
      rw [if_pos rfl, sum_eq_zero]
      · linear_combination 4 * hr
      · intro i _; beta_reduce; split_ifs <;> ring
    · rw [if_neg hab, sum_eq_add a b hab]
      · simp [hab, Ne.symm hab]; ring
      · intro i _ hi; simp [hi.1.symm, hi.2.symm]
      · simp
      · simp

/-- cn/_stroud_1957.py:21-31, the same points and weights. -/
theorem C21_stroud1957_2 (n : ℕ) :
    (Cn.stroud1957_2 n).degree = 2 ∧ (Cn.stroud1957_2 n).points.length = 2 * n + 1 ∧
      (Cn.stroud1957_2 n).ExactOnCube n := C21_thacher n

/-! Non-trivial cases. -/

/-- The first point of Xiu's rule in dimension 3. -/
example : (Enr2.xiu 3).points.head? = some [1, 0, 1 / √2] := by
  simp [Enr2.xiu, List.range_succ_eq_map]

/-- Thacher's rule has negative weights, already for `n = 2`. -/
example : (Cn.thacher 2).weights = [1, √3 / 6, √3 / 6, -(√3 / 6), -(√3 / 6)] := by
  simp [Cn.thacher, schemeOf, untangle, Cn.s, List.replicate]

/-- `stroud_1957_3(1)` is the two-point Gauss rule. -/
example : (Cn.stroud1957_3 1).points = [[1 / √3], [-(1 / √3)]] := by
  simp [Cn.stroud1957_3, schemeOf, untangle, List.range_succ_eq_map]

end Quadpy
