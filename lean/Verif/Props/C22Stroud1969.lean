import Verif.Props.C22
import Verif.Props.C07
import Mathlib.Tactic.NormNum.RealSqrt

/-!
# C22 for tn/_stroud_1969.py
-/

namespace Quadpy.Tn
open Finset

/-- The sum over a group that the matrix of the linear system holds. -/
theorem head_pow_sum {n : ℕ} {g : BGrp} (hg : g.Ok n) (k : ℕ) (hk : 1 ≤ k) :
    (n + 1 : ℝ) * (g.L.map fun row : List ℝ => row.headD 0 ^ k).sum = g.L.length * g.p k := by
  have h := hg.ps.mom1 (hg.hp k hk) 0
  push_cast at h
  rw [← h]
  congr 2
  refine List.map_congr_left fun x hx => ?_
  rw [mono_e1]
  have hl := hg.ps.len x hx
  cases x with
  | nil => simp at hl
  | cons a t => simp [toVec]

theorem simplex_ratio (n k : ℕ) (hn : 1 ≤ n) :
    monomialOverSimplex (k :: List.replicate (n - 1) 0) / monomialOverSimplex (List.replicate n 0) =
      n.factorial * k.factorial / (n + k).factorial := by
  rw [monomialOverSimplex_eq, monomialOverSimplex_eq]
  have h1 : n - 1 + 1 + k = n + k := by omega
  have : ((n.factorial : ℕ) : ℝ) ≠ 0 := by positivity
  simp [h1]
  field_simp

/-- What the rows of the system say about power sums. -/
theorem system_row {n : ℕ} (hn : 1 ≤ n) (gs : List BGrp) (hok : ∀ g ∈ gs, g.Ok n) (k : ℕ) (hk : 1 ≤ k)
    (h : (List.zipWith (fun wi p => wi * (p.map fun row : List ℝ => row.headD 0 ^ k).sum)
        (gs.map BGrp.w) (gs.map BGrp.L)).sum =
      monomialOverSimplex (k :: List.replicate (n - 1) 0) / monomialOverSimplex (List.replicate n 0)) :
    bsum gs (fun g => g.p k) = (n + 1) * (n.factorial * k.factorial / (n + k).factorial) := by
  rw [simplex_ratio n k hn] at h
  rw [← h]
  clear h
  unfold bsum
  induction gs with
  | nil => simp
  | cons g gs ih =>
    have := head_pow_sum (hok g (by simp)) k hk
    simp only [List.map_cons, List.sum_cons, List.zipWith_cons_cons]
    rw [ih fun g' hg' => hok g' (by simp [hg'])]
    rw [mul_add]
    linear_combination -g.w * this

theorem system_row0 {n : ℕ} (hn : 1 ≤ n) (gs : List BGrp)
    (h : (List.zipWith (fun wi p => wi * (p.map fun row : List ℝ => row.headD 0 ^ 0).sum)
        (gs.map BGrp.w) (gs.map BGrp.L)).sum =
      monomialOverSimplex (0 :: List.replicate (n - 1) 0) / monomialOverSimplex (List.replicate n 0)) :
    bsum gs (fun _ => 1) = 1 := by
  rw [simplex_ratio n 0 hn] at h
  have : ((n.factorial : ℕ) : ℝ) ≠ 0 := by positivity
  simp [this] at h
  refine Eq.trans ?_ h
  unfold bsum
  clear h
  induction gs with
  | nil => simp
  | cons g gs ih => simp [ih, mul_comm]

theorem bsum_congr (gs : List BGrp) (f g : BGrp → ℝ) (h : ∀ x ∈ gs, f x = g x) :
    bsum gs f = bsum gs g := by
  unfold bsum
  congr 1
  exact List.map_congr_left fun x hx => by rw [h x hx]

theorem bsum_lin (gs : List BGrp) (f g : BGrp → ℝ) (a b : ℝ) :
    bsum gs (fun x => a * f x + b * g x) = a * bsum gs f + b * bsum gs g := by
  unfold bsum
  induction gs with
  | nil => simp
  | cons x gs ih => simp only [List.map_cons, List.sum_cons]; rw [ih]; ring

/-- The two relations between the power sums that hold in every group of the rule. -/
def Rel (n : ℕ) (p : ℕ → ℝ) : Prop :=
  p 2 * p 2 = (10 * p 3 - (n + 1) * p 4) / 9 ∧ p 3 * p 2 = (9 * p 4 - (n + 1) * p 5) / 8

theorem rel_C (n : ℕ) : Rel n fun k => (n + 1) * (1 / (n + 1)) ^ k := by
  constructor <;> (simp only; field_simp; ring)

theorem rel_rs {n : ℕ} (Q : ℝ) (hQ : Q ^ 2 = 15) :
    Rel n fun k => n * ((n + 4 - Q) / (n ^ 2 + 8 * n + 1)) ^ k +
      ((4 * n + 1 + n * Q) / (n ^ 2 + 8 * n + 1)) ^ k := by
  have hD : ((n : ℝ) ^ 2 + 8 * n + 1) ≠ 0 := by positivity
  have Q3 : Q ^ 3 = 15 * Q := by rw [pow_succ, hQ]
  have Q4 : Q ^ 4 = 225 := by rw [pow_succ, Q3]; linear_combination 15 * hQ
  have Q5 : Q ^ 5 = 225 * Q := by rw [pow_succ, Q4]
  constructor <;> simp only <;> generalize (n : ℝ) = m at * <;> field_simp <;> ring_nf <;>
    simp only [hQ, Q3, Q4, Q5] <;> ring

theorem rel_uv {n : ℕ} (hn : 1 ≤ n) (Q : ℝ) (hQ : Q ^ 2 = 15) :
    Rel n fun k => (n - 1 : ℝ) * ((n + 7 + 2 * Q) / (n ^ 2 + 14 * n - 11)) ^ k +
      2 * ((4 * n - 2 - (n - 1) * Q) / (n ^ 2 + 14 * n - 11)) ^ k := by
  have h1 : (1 : ℝ) ≤ n := by exact_mod_cast hn
  have hD : ((n : ℝ) ^ 2 + 14 * n - 11) ≠ 0 := by nlinarith
  have Q3 : Q ^ 3 = 15 * Q := by rw [pow_succ, hQ]
  have Q4 : Q ^ 4 = 225 := by rw [pow_succ, Q3]; linear_combination 15 * hQ
  have Q5 : Q ^ 5 = 225 * Q := by rw [pow_succ, Q4]
  constructor <;> simp only <;> generalize (n : ℝ) = m at * <;> field_simp <;> ring_nf <;>
    simp only [hQ, Q3, Q4, Q5] <;> ring

theorem bconds5_of_rel {n : ℕ} (gs : List BGrp) (c0 : bsum gs (fun _ => 1) = 1)
    (c2 : bsum gs (fun g => g.p 2) = (n + 1) * (n.factorial * (2 : ℕ).factorial / (n + 2).factorial))
    (c3 : bsum gs (fun g => g.p 3) = (n + 1) * (n.factorial * (3 : ℕ).factorial / (n + 3).factorial))
    (c4 : bsum gs (fun g => g.p 4) = (n + 1) * (n.factorial * (4 : ℕ).factorial / (n + 4).factorial))
    (c5 : bsum gs (fun g => g.p 5) = (n + 1) * (n.factorial * (5 : ℕ).factorial / (n + 5).factorial))
    (hrel : ∀ g ∈ gs, Rel n g.p) : BConds n 5 gs := by
  have hf : ((n.factorial : ℕ) : ℝ) ≠ 0 := by positivity
  refine BConds.mk5 c0 ?_ ?_ ?_ ?_ ?_ ?_
  · rw [c2]; push_cast [Nat.factorial]; field_simp; ring
  · rw [c3]; push_cast [Nat.factorial]; field_simp; ring
  · rw [c4]; push_cast [Nat.factorial]; field_simp; ring
  · rw [bsum_congr gs _ (fun g => 10 / 9 * g.p 3 + (-(n + 10) / 9) * g.p 4) fun g hg => by
      rw [(hrel g hg).1]; ring]
    rw [bsum_lin, c3, c4]; push_cast [Nat.factorial]; field_simp; ring
  · rw [c5]; push_cast [Nat.factorial]; field_simp; ring
  · rw [bsum_congr gs _ (fun g => 9 / 8 * g.p 4 + (-(n + 9) / 8) * g.p 5) fun g hg => by
      rw [(hrel g hg).2]; ring]
    rw [bsum_lin, c4, c5]; push_cast [Nat.factorial]; field_simp; ring

theorem forall_mem_four {P : BGrp → Prop} {a b c d : BGrp} (ha : P a) (hb : P b) (hc : P c)
    (hd : P d) : ∀ g ∈ [a, b, c, d], P g := by
  intro g hg
  simp only [List.mem_cons, List.not_mem_nil, or_false] at hg
  rcases hg with rfl | rfl | rfl | rfl <;> assumption

theorem forall_mem_five {P : BGrp → Prop} {a b c d e : BGrp} (ha : P a) (hb : P b) (hc : P c)
    (hd : P d) (he : P e) : ∀ g ∈ [a, b, c, d, e], P g := by
  intro g hg
  simp only [List.mem_cons, List.not_mem_nil, or_false] at hg
  rcases hg with rfl | rfl | rfl | rfl | rfl <;> assumption

/-- Whatever solution of the system `np.linalg.solve` returns, the rule has degree 5, for every
`n ≥ 3`, although no condition on mixed monomials is imposed (and for `n = 3` none on `x^5`). -/
theorem C22_stroud1969 (n : ℕ) (w : List ℝ) (pts : List (List (List ℝ)))
    (hpts : stroud1969Points n = some pts) (hw : stroud1969System n pts w) (S : Scheme)
    (h : stroud1969 n w = some S) : S.ExactOnSimplex n := by
  simp only [stroud1969, hpts, Option.pure_def, Option.bind_eq_bind, Option.bind_eq_some_iff,
    Option.some.injEq, guard_some, exists_eq_left'] at h
  obtain ⟨-, hn, rfl⟩ := h
  have h15 : √(15 : ℝ) ^ 2 = 15 := Real.sq_sqrt (by norm_num)
  have h15' : (-√(15 : ℝ)) ^ 2 = 15 := by rw [neg_sq, h15]
  have hn1 : 1 ≤ n := by omega
  have hc : ((n - 1 : ℕ) : ℝ) = n - 1 := by rw [Nat.cast_sub hn1]; norm_num
  have hD1 : ((n : ℝ) ^ 2 + 8 * n + 1) ≠ 0 := by positivity
  have hD2 : ((n : ℝ) ^ 2 + 14 * n - 11) ≠ 0 := by
    have : (3 : ℝ) ≤ n := by exact_mod_cast hn
    nlinarith
  obtain ⟨hlen, hsys⟩ := hw
  simp only [stroud1969Points, Option.pure_def, Option.bind_eq_bind, Option.bind_eq_some_iff] at hpts
  obtain ⟨L1, hL1, L2, hL2, L3, hL3, hpts⟩ := hpts
  generalize √(15 : ℝ) = q at *
  have ok1 : ∀ w, (bRd w _ L1).Ok n := fun w => bRd_ok w hL1 (by simp; field_simp; ring)
  have ok2 : ∀ w, (bRd w _ L2).Ok n := fun w => bRd_ok w hL2 (by simp; field_simp; ring)
  have ok3 : ∀ w, (bRd w _ L3).Ok n := fun w => bRd_ok w hL3 (by
    simp only [List.map_cons, List.map_nil, List.sum_cons, List.sum_nil, hc]
    rw [← mul_div_assoc, ← mul_div_assoc, add_zero, ← add_div, div_eq_one_iff_eq hD2]
    push_cast; ring)
  have r1 : Rel n (bRd 0 [((n + 4 - 1 * q) / (n ^ 2 + 8 * n + 1), n),
      ((4 * n + 1 + 1 * n * q) / (n ^ 2 + 8 * n + 1), 1)] L1).p := by
    have := rel_rs (n := n) q h15
    simpa [bRd] using this
  have r2 : Rel n (bRd 0 [((n + 4 - -1 * q) / (n ^ 2 + 8 * n + 1), n),
      ((4 * n + 1 + -1 * n * q) / (n ^ 2 + 8 * n + 1), 1)] L2).p := by
    have := rel_rs (n := n) (-q) h15'
    simpa [bRd] using this
  have r3 : Rel n (bRd 0 [((n + 7 + 1 * 2 * q) / (n ^ 2 + 14 * n - 11), n - 1),
      ((4 * n - 2 - 1 * (n - 1) * q) / (n ^ 2 + 14 * n - 11), 2)] L3).p := by
    have := rel_uv (n := n) hn1 q h15
    simpa [bRd, hc] using this
  split_ifs at hpts with h3
  · simp only [Option.bind_eq_some_iff] at hpts
    obtain ⟨L4, hL4, hpts⟩ := hpts
    obtain rfl := Option.some.inj hpts
    have ok4 : ∀ w, (bRd w _ L4).Ok n := fun w => bRd_ok w hL4 (by
    simp only [List.map_cons, List.map_nil, List.sum_cons, List.sum_nil, hc]
    rw [← mul_div_assoc, ← mul_div_assoc, add_zero, ← add_div, div_eq_one_iff_eq hD2]
    push_cast; ring)
    have r4 : Rel n (bRd 0 [((n + 7 + -1 * 2 * q) / (n ^ 2 + 14 * n - 11), n - 1),
        ((4 * n - 2 - -1 * (n - 1) * q) / (n ^ 2 + 14 * n - 11), 2)] L4).p := by
      have := rel_uv (n := n) hn1 (-q) h15'
      rw [show (4 * n - 2 - (n - 1) * -q : ℝ) = 4 * n - 2 - -1 * (n - 1) * q by ring] at this
      simpa [bRd, hc] using this
    match w, hlen with
    | [w0, w1, w2, w3, w4], _ =>
      have hok := bok_cons (bC_ok (n := n) w0 (r := 1 / (n + 1)) (by field_simp)) (bok_cons (ok1 w1)
        (bok_cons (ok2 w2) (bok_cons (ok3 w3) (bok_cons (ok4 w4) (bok_nil n)))))
      refine simplex_schemeOf (by norm_num) [bC n w0 _, bRd w1 _ L1, bRd w2 _ L2, bRd w3 _ L3,
        bRd w4 _ L4] rfl hok ?_
      have hk : stroud1969Ks n = [0, 2, 3, 4, 5] := by simp [stroud1969Ks, h3]
      refine bconds5_of_rel _ (system_row0 hn1 _ (hsys 0 (by simp [hk])))
        (system_row hn1 _ hok 2 (by norm_num) (hsys 2 (by simp [hk])))
        (system_row hn1 _ hok 3 (by norm_num) (hsys 3 (by simp [hk])))
        (system_row hn1 _ hok 4 (by norm_num) (hsys 4 (by simp [hk])))
        (system_row hn1 _ hok 5 (by norm_num) (hsys 5 (by simp [hk])))
        (forall_mem_five (rel_C n) r1 r2 r3 r4)
  · obtain rfl := Option.some.inj hpts
    obtain rfl : n = 3 := by omega
    match w, hlen with
    | [w0, w1, w2, w3], _ =>
      have hok := bok_cons (bC_ok (n := 3) w0 (r := 1 / ((3 : ℕ) + 1)) (by norm_num))
        (bok_cons (ok1 w1) (bok_cons (ok2 w2) (bok_cons (ok3 w3) (bok_nil 3))))
      refine simplex_schemeOf (by norm_num) [bC 3 w0 _, bRd w1 _ L1, bRd w2 _ L2, bRd w3 _ L3]
        rfl hok ?_
      set gs : List BGrp := [_, _, _, _] with hgs
      have hk : stroud1969Ks 3 = [0, 2, 3, 4] := by simp [stroud1969Ks]
      have c0 := system_row0 hn1 gs (hsys 0 (by simp [hk]))
      have c2 := system_row hn1 _ hok 2 (by norm_num) (hsys 2 (by simp [hk]))
      have c3 := system_row hn1 _ hok 3 (by norm_num) (hsys 3 (by simp [hk]))
      have c4 := system_row hn1 _ hok 4 (by norm_num) (hsys 4 (by simp [hk]))
      refine bconds5_of_rel _ c0 c2 c3 c4 ?_ (forall_mem_four (rel_C 3) r1 r2 r3)
      have Q3 : q ^ 3 = 15 * q := by rw [pow_succ, h15]
      have Q4 : q ^ 4 = 225 := by rw [pow_succ, Q3]; linear_combination 15 * h15
      have Q5 : q ^ 5 = 225 * q := by rw [pow_succ, Q4]
      rw [bsum_congr _ _ (fun g => 1 * (-(1 / 34) * 1 + 5 / 17 * g.p 2) +
        1 * (-(55 / 51) * g.p 3 + 355 / 204 * g.p 4)) (forall_mem_four ?_ ?_ ?_ ?_)]
      · rw [bsum_lin, bsum_lin _ (fun _ => 1), bsum_lin _ (fun g => g.p 3)]
        erw [c0, c2, c3, c4]
        norm_num [Nat.factorial]
      · norm_num [bC]
      all_goals
        simp only [bRd, List.map_cons, List.map_nil, List.sum_cons, List.sum_nil]
        norm_num
        ring_nf
        simp only [h15, Q3, Q4, Q5]
        ring

end Quadpy.Tn
