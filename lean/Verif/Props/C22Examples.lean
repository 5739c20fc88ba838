import Verif.Props.C22Walk
import Verif.Props.C22Stroud1969
import Mathlib.Analysis.SpecialFunctions.Sqrt
import Mathlib.Topology.Order.IntermediateValue

/-!
# C22: the constructors that depend on a root finder or a linear solver do return something
-/

namespace Quadpy.Tn
open Finset

theorem rd_defined {n : ℕ} {items : List (ℝ × ℕ)} (h0 : ∀ it ∈ items, 0 < it.2)
    (hs : (items.map Prod.snd).sum ≤ n) : ∃ L, rd n items = some L :=
  ⟨_, by unfold rd; exact if_pos ⟨by simpa using h0, hs⟩⟩

theorem IsRoots.of_three {c0 c1 c2 c3 a b c : ℝ} (hab : a ≠ b) (hac : a ≠ c) (hbc : b ≠ c)
    (ha : ((c0 * a + c1) * a + c2) * a + c3 = 0) (hb : ((c0 * b + c1) * b + c2) * b + c3 = 0)
    (hc : ((c0 * c + c1) * c + c2) * c + c3 = 0) : IsRoots [c0, c1, c2, c3] [a, b, c] := by
  have h1 : c0 * (a ^ 2 + a * b + b ^ 2) + c1 * (a + b) + c2 = 0 :=
    mul_left_cancel₀ (sub_ne_zero.2 hab) (by linear_combination ha - hb)
  have h2 : c0 * (a ^ 2 + a * c + c ^ 2) + c1 * (a + c) + c2 = 0 :=
    mul_left_cancel₀ (sub_ne_zero.2 hac) (by linear_combination ha - hc)
  have h3 : c0 * (a + b + c) + c1 = 0 :=
    mul_left_cancel₀ (sub_ne_zero.2 hbc) (by linear_combination h1 - h2)
  refine ⟨rfl, fun x => ?_⟩
  simp
  linear_combination ha + (x - a) * h1 + (x - a) * (x - b) * h3

theorem IsRoots.of_two {p q : ℝ} (h : 0 ≤ p ^ 2 - 4 * q) :
    IsRoots [1, p, q] [(-p - √(p ^ 2 - 4 * q)) / 2, (-p + √(p ^ 2 - 4 * q)) / 2] := by
  have hs := Real.sq_sqrt h
  refine ⟨rfl, fun x => ?_⟩
  simp
  linear_combination hs / 4

theorem sort_three {l : List ℝ} {a b c : ℝ} (hl : l.length = 3) (ha : a ∈ l) (hb : b ∈ l)
    (hc : c ∈ l) (hab : a < b) (hbc : b < c) : sort l = [a, b, c] := by
  have hp : List.Perm [a, b, c] l := by
    apply List.Subperm.perm_of_length_le
    · apply List.subperm_of_subset
      · simp [hab.ne, hbc.ne, (hab.trans hbc).ne]
      · intro x hx; simp at hx; rcases hx with rfl | rfl | rfl <;> assumption
    · simp [hl]
  unfold sort
  have hs : [a, b, c].Pairwise (· ≤ ·) := by
    simp [hab.le, hbc.le, (hab.trans hbc).le]
  have := (List.perm_insertionSort (· ≤ ·) l).trans hp.symm
  exact this.eq_of_pairwise (fun _ _ _ _ h1 h2 => le_antisymm h1 h2)
    (List.pairwise_insertionSort _ _) hs

theorem three_roots {c0 c1 c2 c3 x0 x1 x2 x3 : ℝ} (h01 : x0 < x1) (h12 : x1 < x2) (h23 : x2 < x3)
    (f0 : ((c0 * x0 + c1) * x0 + c2) * x0 + c3 < 0) (f1 : 0 < ((c0 * x1 + c1) * x1 + c2) * x1 + c3)
    (f2 : ((c0 * x2 + c1) * x2 + c2) * x2 + c3 < 0) (f3 : 0 < ((c0 * x3 + c1) * x3 + c2) * x3 + c3) :
    ∃ a b c, x0 < a ∧ a < x1 ∧ x1 < b ∧ b < x2 ∧ x2 < c ∧ IsRoots [c0, c1, c2, c3] [a, b, c] := by
  have hcont : Continuous fun x : ℝ => ((c0 * x + c1) * x + c2) * x + c3 := by fun_prop
  obtain ⟨a, ⟨ha0, ha1⟩, ha⟩ := intermediate_value_Ioo h01.le hcont.continuousOn ⟨f0, f1⟩
  obtain ⟨b, ⟨hb0, hb1⟩, hb⟩ := intermediate_value_Ioo' h12.le hcont.continuousOn ⟨f2, f1⟩
  obtain ⟨c, ⟨hc0, hc1⟩, hc⟩ := intermediate_value_Ioo h23.le hcont.continuousOn ⟨f2, f3⟩
  exact ⟨a, b, c, ha0, ha1, hb0, hb1, hc0, IsRoots.of_three (ha1.trans hb0).ne
    ((ha1.trans hb0).trans (hb1.trans hc0)).ne (hb1.trans hc0).ne ha hb hc⟩

theorem IsRoots.mem_of_root {cs l : List ℝ} (h : IsRoots cs l) (h0 : cs.headD 0 ≠ 0) {x : ℝ}
    (hx : cs.foldl (fun acc c => acc * x + c) 0 = 0) : x ∈ l := by
  rw [h.2 x] at hx
  rcases mul_eq_zero.1 hx with h' | h'
  · exact absurd h' h0
  · obtain ⟨r, hr, he⟩ := List.mem_map.1 (List.prod_eq_zero_iff.1 h')
    rwa [sub_eq_zero.1 he]

/-- `stroud_1964b` returns a rule for every `n ≥ 2`. -/
theorem C22_stroud1964b_defined (polyroots : List ℝ → Option (List ℝ))
    (hroots : RootFinder polyroots) (n : ℕ) (hn : 2 ≤ n) :
    ∃ S, stroud1964 polyroots false n = some S := by
  unfold stroud1964
  split_ifs with h2 h2' h8
  · obtain ⟨a, b, c, -, -, -, -, -, h⟩ := three_roots (c0 := 1) (c1 := -1) (c2 := 1 / 4)
      (c3 := -1 / 60) (x0 := 0) (x1 := 1 / 6) (x2 := 1 / 2) (x3 := 1)
      (by norm_num) (by norm_num) (by norm_num) (by norm_num) (by norm_num) (by norm_num) (by norm_num)
    obtain ⟨l, hl⟩ := hroots.2 _ ⟨_, h⟩
    have hlen := (hroots.1 _ _ hl).1
    simp only [List.length_cons, List.length_nil, Nat.add_right_cancel_iff] at hlen
    match l, hlen with
    | [r, s, t], _ =>
      obtain ⟨L, hL⟩ := rd_defined (n := 3) (items := [(r, 1), (s, 1), (t, 1)]) (by simp) (by simp)
      exact ⟨_, by simp only [stroud1964Two, hl, hL, Option.bind_some, Option.map_some]; rfl⟩
  · omega
  · exact absurd h8.2 (by simp)
  · have hq := Real.sq_sqrt (show (0 : ℝ) ≤ n + 2 by positivity)
    have hq0 : 0 ≤ √((n : ℝ) + 2) := Real.sqrt_nonneg _
    have hn3 : (3 : ℝ) ≤ n := by exact_mod_cast (show 3 ≤ n by omega)
    set q := √((n : ℝ) + 2) with hqd
    have hq2 : 2 < q := by nlinarith
    have hnq : (n : ℝ) = q ^ 2 - 2 := by linarith
    have hq1 : q - 1 ≠ 0 := by linarith
    have hq1' : q + 1 ≠ 0 := by linarith
    have hqne : q ≠ 0 := by linarith
    obtain ⟨a, b, c, -, hax, hb1, hb2, hcx, h⟩ := three_roots (c0 := n + 1) (c1 := -3)
      (c2 := 3 / (n + 2)) (c3 := -1 / ((n + 2) * (n + 3))) (x0 := 0) (x1 := 1 / (q * (q + 1)))
      (x2 := 1 / (q * (q - 1))) (x3 := 3)
      (by positivity)
      (by apply one_div_lt_one_div_of_lt (by nlinarith); nlinarith)
      (by rw [div_lt_iff₀ (by nlinarith)]; nlinarith)
      (by
        have : 0 < 1 / (((n : ℝ) + 2) * (n + 3)) := by positivity
        have e : -1 / (((n : ℝ) + 2) * (n + 3)) = -(1 / ((n + 2) * (n + 3))) := by ring
        rw [e]; linarith)
      (by
        have e : (((n + 1) * (1 / (q * (q + 1))) + -3) * (1 / (q * (q + 1))) + 3 / (n + 2)) *
            (1 / (q * (q + 1))) + -1 / ((n + 2) * (n + 3)) = 2 / (q ^ 3 * (q + 1) ^ 2 * (q ^ 2 + 1)) := by
          rw [hnq]
          have : q ^ 2 - 2 + 2 ≠ 0 := by nlinarith
          have : q ^ 2 - 2 + 3 ≠ 0 := by nlinarith
          have : q ^ 2 + 1 ≠ 0 := by nlinarith
          rw [show q ^ 2 - 2 + 2 = q ^ 2 by ring, show q ^ 2 - 2 + 3 = q ^ 2 + 1 by ring]
          field_simp
          ring
        rw [e]; positivity)
      (by
        have e : (((n + 1) * (1 / (q * (q - 1))) + -3) * (1 / (q * (q - 1))) + 3 / (n + 2)) *
            (1 / (q * (q - 1))) + -1 / ((n + 2) * (n + 3)) =
              -(2 / (q ^ 3 * (q - 1) ^ 2 * (q ^ 2 + 1))) := by
          rw [hnq]
          have : q ^ 2 + 1 ≠ 0 := by nlinarith
          rw [show q ^ 2 - 2 + 2 = q ^ 2 by ring, show q ^ 2 - 2 + 3 = q ^ 2 + 1 by ring]
          field_simp
          ring
        have : 0 < (q - 1) ^ 2 := by positivity
        rw [e, neg_lt_zero]; positivity)
      (by
        have h1 : 0 < 3 / ((n : ℝ) + 2) := by positivity
        have h2 : 1 / (((n : ℝ) + 2) * (n + 3)) < 1 := by
          rw [div_lt_one (by positivity)]; nlinarith
        have e : -1 / (((n : ℝ) + 2) * (n + 3)) = -(1 / ((n + 2) * (n + 3))) := by ring
        rw [e]; nlinarith)
    obtain ⟨l, hl⟩ := hroots.2 _ ⟨_, h⟩
    have hr := hroots.1 _ _ hl
    have hlen := hr.1
    have hsort : sort l = [a, b, c] := by
      refine sort_three (by simpa using hlen) ?_ ?_ ?_ (hax.trans hb1) (hb2.trans hcx) <;>
        exact hr.mem_of_root (by simp; positivity) (h.root (by simp))
    have hdisc : 0 ≤ (-(1 - (n - 1) * b)) ^ 2 -
        4 * (n / (2 * (n + 2)) - (n - 1) * b + n * (n - 1) / 2 * b ^ 2) := by
      have hy1 : 1 - 1 / q < (n + 1) * b := by
        have : 1 - 1 / q = (n + 1) * (1 / (q * (q + 1))) := by rw [hnq]; field_simp; ring
        rw [this]; exact mul_lt_mul_of_pos_left hb1 (by positivity)
      have hy2 : (n + 1) * b < 1 + 1 / q := by
        have : 1 + 1 / q = (n + 1) * (1 / (q * (q - 1))) := by rw [hnq]; field_simp; ring
        rw [this]; exact mul_lt_mul_of_pos_left hb2 (by positivity)
      have hy : ((n + 1) * b - 1) ^ 2 ≤ 1 / ((n : ℝ) + 2) := by
        have : (1 / q) ^ 2 = 1 / ((n : ℝ) + 2) := by rw [← hq]; field_simp
        rw [← this]
        apply sq_le_sq' <;> linarith
      have key : (-(1 - (n - 1) * b)) ^ 2 -
          4 * (n / (2 * (n + 2)) - (n - 1) * b + n * (n - 1) / 2 * b ^ 2) =
          (n - 1) / (n + 1) * (1 / (n + 2) - ((n + 1) * b - 1) ^ 2) + 1 / ((n : ℝ) + 2) := by
        field_simp; ring
      rw [key]
      have h1 : 0 ≤ ((n : ℝ) - 1) / (n + 1) := div_nonneg (by linarith) (by linarith)
      have h2 : 0 ≤ 1 / ((n : ℝ) + 2) := by positivity
      nlinarith [mul_nonneg h1 (sub_nonneg.2 hy)]
    obtain ⟨l', hl'⟩ := hroots.2 _ ⟨_, IsRoots.of_two hdisc⟩
    have hlen' : (sort l').length = 2 := by
      have := (hroots.1 _ _ hl').1
      simpa [sort] using this
    obtain ⟨s, t, hst⟩ := List.length_eq_two.1 hlen'
    obtain ⟨L, hL⟩ := rd_defined (n := n + 1) (items := [(b, n - 1), (s, 1), (t, 1)])
      (by simp; omega) (by simp; omega)
    refine ⟨schemeOf n [(1 / (n * (n + 1)), L)] 3, ?_⟩
    simp only [stroud1964R, stroud1964ST, hl, hsort, Option.bind_some, Bool.false_eq_true, if_false,
      List.getElem?_cons_succ, List.getElem?_cons_zero, hl', hst, Option.map_some, hL]

/-- So `stroud_1964b` is a rule of degree 3 in every dimension from 2 on. -/
example (polyroots : List ℝ → Option (List ℝ)) (hroots : RootFinder polyroots) :
    ∃ S, stroud1964 polyroots false 17 = some S ∧ S.ExactOnSimplex 17 :=
  (C22_stroud1964b_defined polyroots hroots 17 (by norm_num)).imp fun S h =>
    ⟨h, C22_stroud1964 polyroots hroots false 17 S h⟩

/-- In dimension 3 the linear system of `stroud_1969` has the solution that the article gives. -/
theorem C22_stroud1969_solvable : ∃ pts w S, stroud1969Points 3 = some pts ∧
    stroud1969System 3 pts w ∧ stroud1969 3 w = some S ∧ S.ExactOnSimplex 3 := by
  have h15 : √(15 : ℝ) ^ 2 = 15 := Real.sq_sqrt (by norm_num)
  obtain ⟨L1, hL1⟩ := rd_defined (n := 3 + 1) (items := [(((3 : ℕ) + 4 - 1 * √15) / ((3 : ℕ) ^ 2 + 8 * (3 : ℕ) + 1), 3),
    ((4 * (3 : ℕ) + 1 + 1 * (3 : ℕ) * √15) / ((3 : ℕ) ^ 2 + 8 * (3 : ℕ) + 1), 1)]) (by simp) (by simp)
  obtain ⟨L2, hL2⟩ := rd_defined (n := 3 + 1) (items := [(((3 : ℕ) + 4 - -1 * √15) / ((3 : ℕ) ^ 2 + 8 * (3 : ℕ) + 1), 3),
    ((4 * (3 : ℕ) + 1 + -1 * (3 : ℕ) * √15) / ((3 : ℕ) ^ 2 + 8 * (3 : ℕ) + 1), 1)]) (by simp) (by simp)
  obtain ⟨L3, hL3⟩ := rd_defined (n := 3 + 1) (items := [(((3 : ℕ) + 7 + 1 * 2 * √15) / ((3 : ℕ) ^ 2 + 14 * (3 : ℕ) - 11), 3 - 1),
    ((4 * (3 : ℕ) - 2 - 1 * ((3 : ℕ) - 1) * √15) / ((3 : ℕ) ^ 2 + 14 * (3 : ℕ) - 11), 2)]) (by simp) (by simp)
  have hpts : stroud1969Points 3 = some [full 3 (1 / ((3 : ℕ) + 1)), L1, L2, L3] := by
    simp only [stroud1969Points, hL1, hL2, hL3, Option.bind_eq_bind, Option.bind_some,
      lt_self_iff_false, if_false, Option.pure_def]
  have hl1 := rdn1_len hL1
  have hl2 := rdn1_len hL2
  have hl3 := rdn12_len hL3
  have g1 := head_pow_sum (bRd_ok (n := 3) 1 hL1 (by norm_num; ring))
  have g2 := head_pow_sum (bRd_ok (n := 3) 1 hL2 (by norm_num; ring))
  have g3 := head_pow_sum (bRd_ok (n := 3) 1 hL3 (by norm_num; ring))
  simp only [bRd, List.map_cons, List.map_nil, List.sum_cons, List.sum_nil, hl1, hl2, hl3] at g1 g2 g3
  have hsys : stroud1969System 3 [full 3 (1 / ((3 : ℕ) + 1)), L1, L2, L3]
      [16 / 135, 533 / 7560 + √15 / 2700, 533 / 7560 - √15 / 2700, 10 / 189] := by
    refine ⟨rfl, fun k hk => ?_⟩
    rw [simplex_ratio 3 k (by norm_num)]
    generalize √(15 : ℝ) = q at *
    have Q3 : q ^ 3 = 15 * q := by rw [pow_succ, h15]
    have Q4 : q ^ 4 = 225 := by rw [pow_succ, Q3]; linear_combination 15 * h15
    have Q5 : q ^ 5 = 225 * q := by rw [pow_succ, Q4]
    simp only [stroud1969Ks, lt_self_iff_false, if_false, List.mem_cons, List.not_mem_nil,
      or_false] at hk
    simp only [List.zipWith_cons_cons, List.zipWith_nil_left, List.sum_cons, List.sum_nil]
    have gk : 1 ≤ k → _ := fun h => (⟨g1 k h, g2 k h, g3 k h⟩ : _ ∧ _ ∧ _)
    rcases hk with rfl | rfl | rfl | rfl
    · simp [full, Nat.factorial, hl1, hl2, hl3]; norm_num; ring
    all_goals
      obtain ⟨a1, a2, a3⟩ := gk (by norm_num)
      push_cast at a1 a2 a3
      have h4 : (3 + 1 : ℝ) ≠ 0 := by norm_num
      rw [mul_comm, ← eq_div_iff h4] at a1 a2 a3
      rw [a1, a2, a3]
      simp [full, Nat.factorial]
      ring_nf
      simp only [h15, Q3, Q4, Q5]
      ring
  obtain ⟨S, hS⟩ : ∃ S, stroud1969 3 [16 / 135, 533 / 7560 + √15 / 2700, 533 / 7560 - √15 / 2700,
    10 / 189] = some S := ⟨_, by simp [stroud1969, hpts]; rfl⟩
  exact ⟨_, _, _, hpts, hsys, hS, C22_stroud1969 3 _ _ hpts hsys S hS⟩

/-- `hammer_stroud_2` in dimension 4, with points and weights of both signs. -/
example : ∃ S, hammerStroud2 4 = some S ∧ S.degree = 3 ∧ S.ExactOnSimplex 4 := by
  obtain ⟨L, hL⟩ := rd_defined (n := 4 + 1) (items := [((3 : ℝ) / (4 + 3), 1), (1 / (4 + 3), 4)])
    (by simp) (by simp)
  have : ∃ S, hammerStroud2 4 = some S ∧ S.degree = 3 := by
    simp only [hammerStroud2, Option.bind_eq_bind]
    push_cast
    rw [hL]
    exact ⟨_, rfl, rfl⟩
  obtain ⟨S, hS, hd⟩ := this
  exact ⟨S, hS, hd, C22_hammerStroud2 4 S hS⟩

end Quadpy.Tn
