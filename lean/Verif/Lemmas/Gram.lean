import Verif.Lemmas.Lobatto
import Verif.Lemmas.SimplexFrame
import Verif.Lemmas.CosSum

/-! Rules of degree two and three given by their Gram matrix, and rows of cosines and sines. -/

namespace Quadpy
open Finset Real

theorem mono_single {n : ℕ} (a : Fin n) (α : Fin n → ℕ) (x : Fin n → ℝ) :
    mono (Pi.single a 1 + α) x = x a * mono α x := by
  have h : mono (Pi.single a 1 + α) x = mono (e1 a 1) x * mono α x := by
    simp only [mono, ← prod_mul_distrib]
    exact prod_congr rfl fun i _ => by rw [Pi.add_apply, pow_add]; rfl
  rw [h, mono_e1, pow_one]

theorem classify3 {n : ℕ} (P : (Fin n → ℕ) → Prop) (d : ℕ) (hd : d ≤ 3) (h0 : P 0)
    (h1 : 1 ≤ d → ∀ a, P (Pi.single a 1 + 0)) (h2 : 2 ≤ d → ∀ a b, P (Pi.single a 1 + (Pi.single b 1 + 0)))
    (h3 : d = 3 → ∀ a b c, P (Pi.single a 1 + (Pi.single b 1 + (Pi.single c 1 + 0))))
    (α : Fin n → ℕ) (hα : ∑ i, α i ≤ d) : P α := by
  have hz : ∀ β : Fin n → ℕ, ∑ i, β i = 0 → β = 0 := fun β h => by
    funext i; exact (Finset.sum_eq_zero_iff.1 h) i (mem_univ i)
  rcases Nat.eq_zero_or_pos (∑ i, α i) with h | h
  · rw [hz α h]; exact h0
  obtain ⟨a, β, rfl, hs⟩ := exists_sub_single α h
  rcases Nat.eq_zero_or_pos (∑ i, β i) with h' | h'
  · rw [hz β h']; exact h1 (by omega) a
  obtain ⟨b, γ, rfl, hs'⟩ := exists_sub_single β h'
  rcases Nat.eq_zero_or_pos (∑ i, γ i) with h'' | h''
  · rw [hz γ h'']; exact h2 (by omega) a b
  obtain ⟨c, δ, rfl, hs''⟩ := exists_sub_single γ h''
  rw [hz δ (by omega)]; exact h3 (by omega) a b c

theorem gram_exact {n : ℕ} {J : Spec.Functional n} {m2 m4 m22 m6 m42 m222 : ℝ}
    (hJ : RelMom J m2 m4 m22 m6 m42 m222) (S : Scheme) (hs : S.WellShaped n) (hd : S.degree ≤ 3)
    (h0 : dot n S.weights S.points (fun _ => 1) = 1)
    (h1 : ∀ a, dot n S.weights S.points (fun x => x a) = 0)
    (h2 : ∀ a b, dot n S.weights S.points (fun x => x a * x b) = if a = b then m2 else 0)
    (h3 : S.degree = 3 → ∀ a b c, dot n S.weights S.points (fun x => x a * (x b * x c)) = 0) :
    S.ExactRel n J := by
  obtain ⟨M, hl, hm, hM⟩ := hJ
  refine ⟨hs, exactUpTo_of_mono ((dot_linOnMono _ _).const_mul _) hl fun α hα => ?_⟩
  rw [hm]
  congr 1
  have odd : ∀ β : Fin n → ℕ, Odd (∑ i, β i) → M β = 0 := fun β hβ => by
    apply hM.odd
    by_contra hcon
    push Not at hcon
    apply Nat.not_even_iff_odd.2 hβ
    exact Finset.even_sum _ fun i _ => Nat.not_odd_iff_even.1 (hcon i)
  have s1 : ∀ (a : Fin n) (β : Fin n → ℕ), ∑ i, (Pi.single a 1 + β : Fin n → ℕ) i = 1 + ∑ i, β i :=
    fun a β => by simp [sum_add_distrib]
  have z : ∑ i, (0 : Fin n → ℕ) i = 0 := by simp
  refine classify3 (fun α => dot n S.weights S.points (mono α) = M α) S.degree hd ?_ ?_ ?_ ?_ α hα
  · rw [hM.zero, ← h0]; congr 1; funext x; exact mono_zero x
  · intro _ a
    rw [odd _ (by rw [s1, z]; decide), ← h1 a]
    congr 1; funext x; rw [mono_single, mono_zero, mul_one]
  · intro _ a b
    have e : mono (Pi.single a 1 + (Pi.single b 1 + 0)) = fun x : Fin n → ℝ => x a * x b := by
      funext x; rw [mono_single, mono_single, mono_zero, mul_one]
    rw [e, h2 a b]
    split_ifs with hab
    · subst hab
      rw [← hM.two a]
      congr 1
      funext i
      by_cases hi : i = a
      · subst hi; simp [e1]
      · simp [e1, hi]
    · exact (hM.odd _ ⟨a, by simp [hab]⟩).symm
  · intro h a b c
    rw [odd _ (by rw [s1, s1, s1, z]; decide), ← h3 h a b c]
    congr 1; funext x; rw [mono_single, mono_single, mono_single, mono_zero, mul_one]

/-! Discrete orthogonality. -/

/-- `cos (2 π l k / N)` -/
noncomputable def tc (N : ℕ) (l : ℤ) (k : ℕ) : ℝ := cos (2 * π * (l * k / N))
/-- `sin (2 π l k / N)` -/
noncomputable def ts (N : ℕ) (l : ℤ) (k : ℕ) : ℝ := sin (2 * π * (l * k / N))

theorem tcc (N : ℕ) [NeZero N] (l m : ℤ) : ∑ k ∈ range N, tc N l k * tc N m k =
    ((if (N : ℤ) ∣ l - m then (N : ℝ) else 0) + (if (N : ℤ) ∣ l + m then (N : ℝ) else 0)) / 2 := by
  rw [← OneDim.cos_sum, ← OneDim.cos_sum, ← sum_add_distrib, sum_div]
  refine sum_congr rfl fun k _ => ?_
  have e1 : 2 * π * (((l - m : ℤ) : ℝ) * k / N) = 2 * π * (l * k / N) - 2 * π * (m * k / N) := by
    push_cast; ring
  have e2 : 2 * π * (((l + m : ℤ) : ℝ) * k / N) = 2 * π * (l * k / N) + 2 * π * (m * k / N) := by
    push_cast; ring
  rw [e1, e2, cos_sub, cos_add, tc, tc]; ring

theorem tss (N : ℕ) [NeZero N] (l m : ℤ) : ∑ k ∈ range N, ts N l k * ts N m k =
    ((if (N : ℤ) ∣ l - m then (N : ℝ) else 0) - (if (N : ℤ) ∣ l + m then (N : ℝ) else 0)) / 2 := by
  rw [← OneDim.cos_sum, ← OneDim.cos_sum, ← sum_sub_distrib, sum_div]
  refine sum_congr rfl fun k _ => ?_
  have e1 : 2 * π * (((l - m : ℤ) : ℝ) * k / N) = 2 * π * (l * k / N) - 2 * π * (m * k / N) := by
    push_cast; ring
  have e2 : 2 * π * (((l + m : ℤ) : ℝ) * k / N) = 2 * π * (l * k / N) + 2 * π * (m * k / N) := by
    push_cast; ring
  rw [e1, e2, cos_sub, cos_add, ts, ts]; ring

theorem tcs (N : ℕ) [NeZero N] (l m : ℤ) : ∑ k ∈ range N, tc N l k * ts N m k = 0 := by
  have h1 := OneDim.sin_sum N (l + m)
  have h2 := OneDim.sin_sum N (l - m)
  have : ∑ k ∈ range N, tc N l k * ts N m k = (∑ k ∈ range N, sin (2 * π * (((l + m : ℤ) : ℝ) * k / N)) -
      ∑ k ∈ range N, sin (2 * π * (((l - m : ℤ) : ℝ) * k / N))) / 2 := by
    rw [← sum_sub_distrib, sum_div]
    refine sum_congr rfl fun k _ => ?_
    have e1 : 2 * π * (((l - m : ℤ) : ℝ) * k / N) = 2 * π * (l * k / N) - 2 * π * (m * k / N) := by
      push_cast; ring
    have e2 : 2 * π * (((l + m : ℤ) : ℝ) * k / N) = 2 * π * (l * k / N) + 2 * π * (m * k / N) := by
      push_cast; ring
    rw [e1, e2, sin_sub, sin_add, tc, ts]; ring
  rw [this, h1, h2]; simp

theorem tc_sum (N : ℕ) [NeZero N] (l : ℤ) (h : ¬ (N : ℤ) ∣ l) : ∑ k ∈ range N, tc N l k = 0 := by
  have := OneDim.cos_sum N l
  rw [if_neg h] at this
  exact this

theorem ts_sum (N : ℕ) [NeZero N] (l : ℤ) : ∑ k ∈ range N, ts N l k = 0 := OneDim.sin_sum N l

/-- Coordinate `a` at point `k`: `√2` times a cosine or sine of frequency `l (a / 2)`, or, for
the last coordinate in odd dimension, `cos (π k)`. -/
noncomputable def tcs3 (N n : ℕ) (l : ℕ → ℤ) (a : Fin n) (k : ℕ) : ℝ :=
  if 2 * ((a : ℕ) / 2) + 1 < n then
    √2 * (if (a : ℕ) % 2 = 0 then tc N (l (a / 2)) k else ts N (l (a / 2)) k)
  else tc N (N / 2) k

theorem ndvd {N : ℕ} {x : ℤ} (h1 : x ≠ 0) (h2 : x < N) (h3 : -(N : ℤ) < x) : ¬ (N : ℤ) ∣ x := by
  rintro ⟨c, rfl⟩
  rcases lt_trichotomy c 0 with h | h | h
  · nlinarith
  · simp [h] at h1
  · nlinarith

theorem trig_sum {N n : ℕ} [NeZero N] {l : ℕ → ℤ} (hl : ∀ k, 2 * k + 1 < n → 0 < l k ∧ 2 * l k < N)
    (hN : n % 2 = 1 → N % 2 = 0) (a : Fin n) : ∑ k ∈ range N, tcs3 N n l a k = 0 := by
  have ha := a.isLt
  unfold tcs3
  split_ifs with h h'
  · rw [← mul_sum, tc_sum, mul_zero]
    obtain ⟨h1, h2⟩ := hl _ h
    exact ndvd (by omega) (by omega) (by omega)
  · rw [← mul_sum, ts_sum, mul_zero]
  · have := hN (by omega)
    have h0 : 0 < N := Nat.pos_of_ne_zero (NeZero.ne N)
    rw [tc_sum]
    exact ndvd (by omega) (by omega) (by omega)

theorem trig_gram {N n : ℕ} [NeZero N] {l : ℕ → ℤ} (hl : ∀ k, 2 * k + 1 < n → 0 < l k ∧ 2 * l k < N)
    (hi : ∀ k m, l k = l m → k = m)
    (hN : n % 2 = 1 → N % 2 = 0) (a b : Fin n) :
    ∑ k ∈ range N, tcs3 N n l a k * tcs3 N n l b k = if a = b then (N : ℝ) else 0 := by
  have h0 : 0 < N := Nat.pos_of_ne_zero (NeZero.ne N)
  have ha := a.isLt
  have hb := b.isLt
  have s2 : √(2 : ℝ) * √2 = 2 := Real.mul_self_sqrt (by norm_num)
  unfold tcs3
  by_cases h : 2 * ((a : ℕ) / 2) + 1 < n <;> by_cases h' : 2 * ((b : ℕ) / 2) + 1 < n
  · obtain ⟨h1, h2⟩ := hl _ h
    obtain ⟨h3, h4⟩ := hl _ h'
    simp only [if_pos h, if_pos h']
    have e : ∀ f g : ℕ → ℝ, ∑ k ∈ range N, √2 * f k * (√2 * g k) = 2 * ∑ k ∈ range N, f k * g k := by
      intro f g
      rw [mul_sum]
      exact sum_congr rfl fun k _ => by linear_combination f k * g k * s2
    rw [e (fun k => if (a : ℕ) % 2 = 0 then _ else _) (fun k => if (b : ℕ) % 2 = 0 then _ else _)]
    have hp : ¬ (N : ℤ) ∣ l (a / 2) + l (b / 2) := ndvd (by omega) (by omega) (by omega)
    have hm : l (a / 2) ≠ l (b / 2) → ¬ (N : ℤ) ∣ l (a / 2) - l (b / 2) := fun h =>
      ndvd (by omega) (by omega) (by omega)
    have hab : (a : ℕ) = b ↔ a = b := Fin.ext_iff.symm
    by_cases p : (a : ℕ) % 2 = 0 <;> by_cases q : (b : ℕ) % 2 = 0
    · simp only [if_pos p, if_pos q, tcc, if_neg hp]
      by_cases hh : a = b
      · subst hh; simp; ring
      · rw [if_neg (hm fun h => hh (hab.1 (by have := hi _ _ h; omega))), if_neg hh]; ring
    · simp only [if_pos p, if_neg q, tcs]
      rw [if_neg (fun h => by subst h; exact q p)]; ring
    · simp only [if_neg p, if_pos q]
      rw [sum_congr rfl fun k _ => mul_comm _ _, tcs, if_neg (fun h => by subst h; exact p q)]; ring
    · simp only [if_neg p, if_neg q, tss, if_neg hp]
      by_cases hh : a = b
      · subst hh; simp; ring
      · rw [if_neg (hm fun h => hh (hab.1 (by have := hi _ _ h; omega))), if_neg hh]; ring
  · obtain ⟨h1, h2⟩ := hl _ h
    have := hN (by omega)
    simp only [if_pos h, if_neg h']
    rw [if_neg (fun h => by subst h; omega)]
    by_cases p : (a : ℕ) % 2 = 0
    · simp only [if_pos p, mul_assoc]
      rw [← mul_sum, tcc, if_neg (ndvd (by omega) (by omega) (by omega)),
        if_neg (ndvd (by omega) (by omega) (by omega))]; ring
    · simp only [if_neg p, mul_assoc]
      rw [← mul_sum, sum_congr rfl fun k _ => mul_comm _ _, tcs]; ring
  · obtain ⟨h1, h2⟩ := hl _ h'
    have := hN (by omega)
    simp only [if_neg h, if_pos h']
    rw [if_neg (fun h => by subst h; omega)]
    by_cases p : (b : ℕ) % 2 = 0
    · simp only [if_pos p, mul_left_comm _ √2]
      rw [← mul_sum, tcc, if_neg (ndvd (by omega) (by omega) (by omega)),
        if_neg (ndvd (by omega) (by omega) (by omega))]; ring
    · simp only [if_neg p, mul_left_comm _ √2]
      rw [← mul_sum, tcs]; ring
  · have := hN (by omega)
    simp only [if_neg h, if_neg h', tcc]
    rw [if_pos (Fin.ext (by omega)), if_pos (by simp), if_pos ⟨1, by omega⟩]; ring

/-! The rows of the code. -/

theorem pairs_getD (u v : ℕ → ℝ) (m : ℕ) (tail : List ℝ) (i : ℕ) :
    (((List.range m).flatMap fun k => [u k, v k]) ++ tail).getD i 0 =
      if i < 2 * m then (if i % 2 = 0 then u (i / 2) else v (i / 2)) else tail.getD (i - 2 * m) 0 := by
  induction m generalizing u v i with
  | zero => simp
  | succ m ih =>
    rw [List.range_succ_eq_map, List.flatMap_cons, List.flatMap_map]
    match i with
    | 0 => simp
    | 1 => simp; omega
    | i + 2 =>
      have := ih (fun k => u (k + 1)) (fun k => v (k + 1)) i
      simp only [List.cons_append, List.nil_append, List.append_assoc, List.getD_cons_succ,
        Nat.succ_eq_add_one]
      rw [this, show (i + 2) / 2 = i / 2 + 1 by omega, show (i + 2) % 2 = i % 2 by omega,
        show i + 2 - 2 * (m + 1) = i - 2 * m by omega]
      by_cases h : i < 2 * m
      · rw [if_pos h, if_pos (show i + 2 < 2 * (m + 1) by omega)]
      · rw [if_neg h, if_neg (show ¬ i + 2 < 2 * (m + 1) by omega)]

theorem pairs_length (u v : ℕ → ℝ) (m : ℕ) :
    ((List.range m).flatMap fun k => [u k, v k]).length = 2 * m := by
  induction m with
  | zero => simp
  | succ m ih => rw [List.range_succ, List.flatMap_append, List.length_append, ih]; simp; ring

theorem tc_half {N : ℕ} (hN : N % 2 = 0) (h0 : 0 < N) (k : ℕ) : tc N (N / 2) k = (-1) ^ k := by
  obtain ⟨m, rfl⟩ : ∃ m, N = 2 * m := ⟨N / 2, by omega⟩
  have hm : (m : ℝ) ≠ 0 := by
    have : m ≠ 0 := by omega
    exact_mod_cast this
  have e : (((2 * m : ℕ) : ℤ) / 2 : ℤ) = m := by omega
  rw [tc, e, show 2 * π * (((m : ℤ) : ℝ) * k / ((2 * m : ℕ) : ℝ)) = k * π by push_cast; field_simp]
  exact cos_nat_mul_pi k

end Quadpy
