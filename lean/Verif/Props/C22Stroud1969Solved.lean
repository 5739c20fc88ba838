import Verif.Props.C22Stroud1969
import Verif.Props.C22Examples
import Verif.Lemmas.LinalgSolve
import Mathlib.Tactic.LinearCombination

/-!
# C22: the linear system of tn/_stroud_1969.py is nonsingular, for every dimension
-/

namespace Quadpy.Tn
open Finset

namespace St69

/-- `x = r - 1 / (n + 1)` for the first family of points. -/
def RootX (m x : ℝ) : Prop := (m + 1) ^ 2 * (m ^ 2 + 8 * m + 1) * x ^ 2 = -6 * (m - 1) * (m + 1) * x + 6

/-- `y = u - 1 / (n + 1)` for the second family of points. -/
def RootY (m y : ℝ) : Prop :=
  (m + 1) ^ 2 * (m ^ 2 + 14 * m - 11) * y ^ 2 = -12 * (m - 3) * (m + 1) * y + 24

theorem two_eq {a b x y : ℝ} (hxy : x ≠ y) (h1 : a + b = 0) (h2 : a * x + b * y = 0) :
    a = 0 ∧ b = 0 := by
  have hb : b = -a := by linarith
  subst hb
  have : a * (x - y) = 0 := by linear_combination h2
  rcases mul_eq_zero.1 this with h | h
  · simp [h]
  · exact absurd (sub_eq_zero.1 h) hxy

variable {m x1 x2 y1 y2 U1 U2 V1 V2 : ℝ}

theorem core_S (hm : 3 ≤ m) (hx1 : RootX m x1) (hx2 : RootX m x2) (hy1 : RootY m y1)
    (hy2 : RootY m y2) (e1 : U1 + U2 + V1 + V2 = 0)
    (e2 : (m - 1) * (U1 * x1 + U2 * x2) + (m - 3) / 2 * (V1 * y1 + V2 * y2) = 0)
    (e3 : m * (m + 1) * (U1 * x1 ^ 2 + U2 * x2 ^ 2) +
      (m ^ 2 - 1) / 2 * (V1 * y1 ^ 2 + V2 * y2 ^ 2) = 0) :
    U1 + U2 = (m ^ 2 - 1) * (U1 * x1 + U2 * x2) := by
  unfold RootX at hx1 hx2
  unfold RootY at hy1 hy2
  have hk : (m - 2) * (m + 1) ^ 3 ≠ 0 := by
    have : 0 < m - 2 := by linarith
    have : 0 < m + 1 := by linarith
    positivity
  apply sub_eq_zero.1
  apply (mul_eq_zero.1 _).resolve_left hk
  set D1 := m ^ 2 + 8 * m + 1 with hD1
  set D2 := m ^ 2 + 14 * m - 11 with hD2
  have k : m * (m + 1) * D2 * (U1 * (-6 * (m - 1) * (m + 1) * x1 + 6) + U2 * (-6 * (m - 1) * (m + 1) * x2 + 6)) +
      (m ^ 2 - 1) / 2 * D1 * (V1 * (-12 * (m - 3) * (m + 1) * y1 + 24) +
        V2 * (-12 * (m - 3) * (m + 1) * y2 + 24)) = 0 := by
    rw [← hx1, ← hx2, ← hy1, ← hy2]
    linear_combination (m + 1) ^ 2 * D1 * D2 * e3
  have hg : m * D2 - 2 * (m - 1) * D1 = -((m - 2) * (m + 1) ^ 2) := by rw [hD1, hD2]; ring
  linear_combination (-1 / 6) * k + 2 * (m ^ 2 - 1) * D1 * e1 - 2 * (m ^ 2 - 1) * (m + 1) * D1 * e2 -
    (m + 1) * (U1 + U2 - (m ^ 2 - 1) * (U1 * x1 + U2 * x2)) * hg

theorem core_T (hm : 3 ≤ m) (hx1 : RootX m x1) (hx2 : RootX m x2) (hy1 : RootY m y1)
    (hy2 : RootY m y2) (e1 : U1 + U2 + V1 + V2 = 0)
    (e2 : (m - 1) * (U1 * x1 + U2 * x2) + (m - 3) / 2 * (V1 * y1 + V2 * y2) = 0)
    (eS : U1 + U2 = (m ^ 2 - 1) * (U1 * x1 + U2 * x2))
    (e4 : m * (m + 1) * (m - 1) * (U1 * x1 ^ 3 + U2 * x2 ^ 3) +
      (m ^ 2 - 1) / 2 * ((m - 3) / 2) * (V1 * y1 ^ 3 + V2 * y2 ^ 3) = 0) :
    U1 * x1 + U2 * x2 = 0 := by
  unfold RootX at hx1 hx2
  unfold RootY at hy1 hy2
  have h2 : 0 < m - 2 := by linarith
  have h1 : 0 < m + 1 := by linarith
  have h1' : 0 < m - 1 := by linarith
  have hD1 : 0 < m ^ 2 + 8 * m + 1 := by positivity
  have hD2 : 0 < m ^ 2 + 14 * m - 11 := by nlinarith
  have hP : U1 * x1 ^ 2 + U2 * x2 ^ 2 = 0 := by
    apply (mul_eq_zero.1 _).resolve_left (mul_pos (pow_pos h1 2) hD1).ne'
    linear_combination U1 * hx1 + U2 * hx2 + 6 * eS
  have hQ : V1 * y1 ^ 2 + V2 * y2 ^ 2 = 0 := by
    apply (mul_eq_zero.1 _).resolve_left (mul_pos (pow_pos h1 2) hD2).ne'
    linear_combination V1 * hy1 + V2 * hy2 - 24 * (m + 1) * e2 + 24 * e1 - 24 * eS
  have hk : 6 * ((m - 2) * (m + 1) ^ 3 * (m - 1)) ≠ 0 := by positivity
  apply (mul_eq_zero.1 _).resolve_left hk
  set D1 := m ^ 2 + 8 * m + 1 with hD1
  set D2 := m ^ 2 + 14 * m - 11 with hD2
  have hP3 : (m + 1) ^ 2 * D1 * (U1 * x1 ^ 3 + U2 * x2 ^ 3) = 6 * (U1 * x1 + U2 * x2) := by
    linear_combination U1 * x1 * hx1 + U2 * x2 * hx2 - 6 * (m - 1) * (m + 1) * hP
  have hQ3 : (m + 1) ^ 2 * D2 * (V1 * y1 ^ 3 + V2 * y2 ^ 3) = 24 * (V1 * y1 + V2 * y2) := by
    linear_combination V1 * y1 * hy1 + V2 * y2 * hy2 - 12 * (m - 3) * (m + 1) * hQ
  have hg : m * D2 - 2 * (m - 1) * D1 = -((m - 2) * (m + 1) ^ 2) := by rw [hD1, hD2]; ring
  linear_combination (-(m + 1) ^ 2 * D1 * D2) * e4 + m * (m + 1) * (m - 1) * D2 * hP3 +
    (m ^ 2 - 1) / 2 * ((m - 3) / 2) * D1 * hQ3 + 12 * (m ^ 2 - 1) * D1 * e2 - 
    6 * (m + 1) * (m - 1) * (U1 * x1 + U2 * x2) * hg

/-- Power sums of the four families that are not the centroid. -/
theorem reduce {α β : Fin 4 → ℝ} {z W p2 p3 : Fin 4 → ℝ} {t W0 : ℝ}
    (h2 : ∀ i, p2 i = t + α i * z i ^ 2)
    (h3 : ∀ i, p3 i = t ^ 2 + 3 * t * (α i * z i ^ 2) + α i * β i * z i ^ 3)
    (s0 : W0 + ∑ i, W i = 0) (s2 : W0 * t + ∑ i, W i * p2 i = 0)
    (s3 : W0 * t ^ 2 + ∑ i, W i * p3 i = 0) :
    ∑ i, W i * α i * z i ^ 2 = 0 ∧ ∑ i, W i * α i * z i ^ 2 * (β i * z i) = 0 ∧
    (W0 * t ^ 2 + ∑ i, W i * (p2 i * p2 i) = 0 →
      ∑ i, α i * (W i * α i * z i ^ 2 * z i ^ 2) = 0) ∧
    (W0 * t ^ 2 + ∑ i, W i * (p2 i * p2 i) = 0 → W0 * t ^ 3 + ∑ i, W i * (p3 i * p2 i) = 0 →
      ∑ i, α i * (W i * α i * z i ^ 2 * (β i * z i ^ 3)) = 0) := by
  simp only [Fin.sum_univ_four, h2, h3] at *
  have k2 : W 0 * α 0 * z 0 ^ 2 + W 1 * α 1 * z 1 ^ 2 + W 2 * α 2 * z 2 ^ 2 + W 3 * α 3 * z 3 ^ 2 = 0 := by
    linear_combination s2 - t * s0
  have k3 : W 0 * α 0 * z 0 ^ 2 * (β 0 * z 0) + W 1 * α 1 * z 1 ^ 2 * (β 1 * z 1) +
      W 2 * α 2 * z 2 ^ 2 * (β 2 * z 2) + W 3 * α 3 * z 3 ^ 2 * (β 3 * z 3) = 0 := by
    linear_combination s3 - t ^ 2 * s0 - 3 * t * k2
  refine ⟨k2, k3, fun s4 => ?_, fun s4 s5 => ?_⟩
  · linear_combination s4 - t ^ 2 * s0 - 2 * t * k2
  · linear_combination s5 - t ^ 3 * s0 - (t ^ 2 + 3 * t ^ 2) * k2 - t * k3 -
      3 * t * (s4 - t ^ 2 * s0 - 2 * t * k2)

/-- `r - 1 / (n + 1)`, from tn/_stroud_1969.py. -/
noncomputable def zr (n : ℕ) (q : ℝ) : ℝ := (n + 4 - q) / (n ^ 2 + 8 * n + 1) - 1 / (n + 1)

/-- `u - 1 / (n + 1)`, from tn/_stroud_1969.py. -/
noncomputable def zu (n : ℕ) (q : ℝ) : ℝ := (n + 7 + 2 * q) / (n ^ 2 + 14 * n - 11) - 1 / (n + 1)

variable {n : ℕ} {q : ℝ}

theorem den2 (hn : 3 ≤ n) : (0 : ℝ) < n * (n + 14) - 11 := by
  have : (3 : ℝ) ≤ n := by exact_mod_cast hn
  nlinarith

theorem rootX (hq : q ^ 2 = 15) : RootX n (zr n q) := by
  unfold RootX zr
  have : (n : ℝ) ^ 2 + 8 * n + 1 ≠ 0 := by positivity
  field_simp
  linear_combination ((n : ℝ) + 1) ^ 2 * hq

theorem rootY (hn : 3 ≤ n) (hq : q ^ 2 = 15) : RootY n (zu n q) := by
  unfold RootY zu
  have := (den2 hn).ne'
  have h' : (n : ℝ) ^ 2 + 14 * n - 11 = n * (n + 14) - 11 := by ring
  rw [h']
  field_simp
  linear_combination 4 * ((n : ℝ) + 1) ^ 2 * hq

theorem zr_ne (hq : q ^ 2 = 15) : zr n q ≠ 0 := fun h => by
  have := rootX (n := n) hq
  unfold RootX at this
  rw [h] at this
  norm_num at this

theorem zu_ne (hn : 3 ≤ n) (hq : q ^ 2 = 15) : zu n q ≠ 0 := fun h => by
  have := rootY hn hq
  unfold RootY at this
  rw [h] at this
  norm_num at this

theorem zr_ne_zr (hq : 0 < q) : zr n q ≠ zr n (-q) := fun h => by
  have h0 : (n : ℝ) ^ 2 + 8 * n + 1 ≠ 0 := by positivity
  unfold zr at h
  rw [sub_left_inj, div_left_inj' h0] at h
  linarith

theorem zu_ne_zu (hn : 3 ≤ n) (hq : 0 < q) : zu n q ≠ zu n (-q) := fun h => by
  have h0 : (n : ℝ) ^ 2 + 14 * n - 11 ≠ 0 := by have := den2 hn; nlinarith
  unfold zu at h
  rw [sub_left_inj, div_left_inj' h0] at h
  linarith

/-- Power sums of a point with `n` coordinates `r` and one `s`. -/
theorem ps_rs {m r s t : ℝ} (ht : t * (m + 1) = 1) (h : m * r + s = 1) :
    m * r ^ 2 + s ^ 2 = t + m * (m + 1) * (r - t) ^ 2 ∧
    m * r ^ 3 + s ^ 3 = t ^ 2 + 3 * t * (m * (m + 1) * (r - t) ^ 2) +
      m * (m + 1) * -(m - 1) * (r - t) ^ 3 := by
  obtain rfl : s = t - m * (r - t) := by linear_combination h - ht
  constructor
  · linear_combination t * ht
  · linear_combination t ^ 2 * ht

/-- Power sums of a point with `n - 1` coordinates `u` and two `v`. -/
theorem ps_uv {m u v t : ℝ} (ht : t * (m + 1) = 1) (h : (m - 1) * u + 2 * v = 1) :
    (m - 1) * u ^ 2 + 2 * v ^ 2 = t + (m ^ 2 - 1) / 2 * (u - t) ^ 2 ∧
    (m - 1) * u ^ 3 + 2 * v ^ 3 = t ^ 2 + 3 * t * ((m ^ 2 - 1) / 2 * (u - t) ^ 2) +
      (m ^ 2 - 1) / 2 * -((m - 3) / 2) * (u - t) ^ 3 := by
  obtain rfl : v = t - (m - 1) / 2 * (u - t) := by linear_combination (h - ht) / 2
  constructor
  · linear_combination t * ht
  · linear_combination t ^ 2 * ht

/-- The homogeneous system has only the zero solution.  `p2 i`, `p3 i` are the power sums of the
families, `W i` the weight of a family times its number of points. -/
theorem unique (hn : 3 ≤ n) (hq : 0 < q) (hq2 : q ^ 2 = 15) {W p2 p3 : Fin 4 → ℝ} {W0 t : ℝ}
    (ht : t * (n + 1) = 1)
    (r2 : p2 0 = t + n * (n + 1) * zr n q ^ 2) (r2' : p2 1 = t + n * (n + 1) * zr n (-q) ^ 2)
    (u2 : p2 2 = t + (n ^ 2 - 1) / 2 * zu n q ^ 2) (u2' : p2 3 = t + (n ^ 2 - 1) / 2 * zu n (-q) ^ 2)
    (r3 : p3 0 = t ^ 2 + 3 * t * (n * (n + 1) * zr n q ^ 2) + n * (n + 1) * -(n - 1) * zr n q ^ 3)
    (r3' : p3 1 = t ^ 2 + 3 * t * (n * (n + 1) * zr n (-q) ^ 2) + n * (n + 1) * -(n - 1) * zr n (-q) ^ 3)
    (u3 : p3 2 = t ^ 2 + 3 * t * ((n ^ 2 - 1) / 2 * zu n q ^ 2) +
      (n ^ 2 - 1) / 2 * -((n - 3) / 2) * zu n q ^ 3)
    (u3' : p3 3 = t ^ 2 + 3 * t * ((n ^ 2 - 1) / 2 * zu n (-q) ^ 2) +
      (n ^ 2 - 1) / 2 * -((n - 3) / 2) * zu n (-q) ^ 3)
    (s0 : W0 + ∑ i, W i = 0) (s2 : W0 * t + ∑ i, W i * p2 i = 0)
    (s3 : W0 * t ^ 2 + ∑ i, W i * p3 i = 0) (s4 : W0 * t ^ 2 + ∑ i, W i * (p2 i * p2 i) = 0)
    (s5 : n = 3 ∧ W 3 = 0 ∨ 3 < n ∧ W0 * t ^ 3 + ∑ i, W i * (p3 i * p2 i) = 0) :
    W0 = 0 ∧ ∀ i, W i = 0 := by
  have hq2' : (-q) ^ 2 = 15 := by rw [neg_sq, hq2]
  have hm : (3 : ℝ) ≤ n := by exact_mod_cast hn
  obtain ⟨e1, e2, e3, e4⟩ := reduce (α := ![n * (n + 1), n * (n + 1), (n ^ 2 - 1) / 2, (n ^ 2 - 1) / 2])
    (β := ![-(n - 1), -(n - 1), -((n - 3) / 2), -((n - 3) / 2)])
    (z := ![zr n q, zr n (-q), zu n q, zu n (-q)]) (W := W) (p2 := p2) (p3 := p3) (t := t) (W0 := W0)
    (by intro i; fin_cases i <;> assumption) (by intro i; fin_cases i <;> assumption) s0 s2 s3
  have e3 := e3 s4
  have e4 := e4 s4
  simp only [Fin.sum_univ_four, Matrix.cons_val] at e1 e2 e3 e4
  have X1 := rootX (n := n) hq2
  have X2 := rootX (n := n) hq2'
  have Y1 := rootY hn hq2
  have Y2 := rootY hn hq2'
  have eS := core_S hm X1 X2 Y1 Y2 e1 (by linear_combination -e2) (by linear_combination e3)
  have hα : (n : ℝ) * (n + 1) ≠ 0 := by positivity
  have hα' : ((n : ℝ) ^ 2 - 1) / 2 ≠ 0 := by
    have : (0 : ℝ) < (n ^ 2 - 1) / 2 := by nlinarith
    exact this.ne'
  have hx1 := zr_ne (n := n) hq2
  have hx2 := zr_ne (n := n) hq2'
  have hy1 := zu_ne hn hq2
  have hy2 := zu_ne hn hq2'
  have fin : ∀ {w α z : ℝ}, α ≠ 0 → z ≠ 0 → w * α * z ^ 2 = 0 → w = 0 := fun ha hz h =>
    (mul_eq_zero.1 ((mul_eq_zero.1 h).resolve_right (pow_ne_zero 2 hz))).resolve_right ha
  have key : (W 0 = 0 ∧ W 1 = 0) ∧ W 2 = 0 ∧ W 3 = 0 := by
    rcases s5 with ⟨h3, hW⟩ | ⟨h3, s5⟩
    · have h3' : (n : ℝ) = 3 := by exact_mod_cast h3
      have eT : W 0 * (n * (n + 1)) * zr n q ^ 2 * zr n q +
          W 1 * (n * (n + 1)) * zr n (-q) ^ 2 * zr n (-q) = 0 := by
        rw [h3'] at e2 ⊢
        linear_combination (-1 / 2) * e2
      rw [eT, mul_zero] at eS
      obtain ⟨a, b⟩ := two_eq (zr_ne_zr hq) eS eT
      refine ⟨⟨fin hα hx1 a, fin hα hx2 b⟩, ?_, hW⟩
      rw [a, b, hW] at e1
      exact fin hα' hy1 (by linear_combination e1)
    · simp only [Fin.sum_univ_four] at s5
      have e4 := e4 s5
      have eT := core_T hm X1 X2 Y1 Y2 e1 (by linear_combination -e2) eS (by linear_combination -e4)
      rw [eT, mul_zero] at eS
      obtain ⟨a, b⟩ := two_eq (zr_ne_zr hq) eS eT
      have h3' : (n : ℝ) - 3 ≠ 0 := by
        have : (3 : ℝ) < n := by exact_mod_cast h3
        linarith
      obtain ⟨c, d⟩ := two_eq (zu_ne_zu hn hq) (a := W 2 * ((n ^ 2 - 1) / 2) * zu n q ^ 2)
        (b := W 3 * ((n ^ 2 - 1) / 2) * zu n (-q) ^ 2) (by rw [a, b] at e1; linear_combination e1)
        (by
          apply (mul_eq_zero.1 _).resolve_left h3'
          rw [a, b] at e2
          linear_combination -2 * e2)
      exact ⟨⟨fin hα hx1 a, fin hα hx2 b⟩, fin hα' hy1 c, fin hα' hy2 d⟩
  obtain ⟨⟨a, b⟩, c, d⟩ := key
  refine ⟨by simpa [Fin.sum_univ_four, a, b, c, d] using s0, fun i => ?_⟩
  fin_cases i <;> assumption

/-- A row of the homogeneous system. -/
theorem row_zero (gs : List BGrp) (hok : ∀ g ∈ gs, g.Ok n) (k : ℕ) (hk : 1 ≤ k)
    (h : (List.zipWith (fun wi p => wi * (p.map fun row : List ℝ => row.headD 0 ^ k).sum)
        (gs.map BGrp.w) (gs.map BGrp.L)).sum = 0) : bsum gs (fun g => g.p k) = 0 := by
  have : bsum gs (fun g => g.p k) = (n + 1 : ℝ) * (List.zipWith (fun wi p => wi * (p.map fun row :
      List ℝ => row.headD 0 ^ k).sum) (gs.map BGrp.w) (gs.map BGrp.L)).sum := by
    clear h
    unfold bsum
    induction gs with
    | nil => simp
    | cons g gs ih =>
      have := head_pow_sum (hok g (by simp)) k hk
      simp only [List.map_cons, List.sum_cons, List.zipWith_cons_cons]
      rw [ih fun g' hg' => hok g' (by simp [hg'])]
      rw [mul_add]
      linear_combination -g.w * this
  rw [this, h, mul_zero]

theorem row_zero0 (gs : List BGrp)
    (h : (List.zipWith (fun wi p => wi * (p.map fun row : List ℝ => row.headD 0 ^ 0).sum)
        (gs.map BGrp.w) (gs.map BGrp.L)).sum = 0) : bsum gs (fun _ => 1) = 0 := by
  refine Eq.trans ?_ h
  unfold bsum
  clear h
  induction gs with
  | nil => simp
  | cons g gs ih => simp [ih, mul_comm]

theorem uniqueG (hn : 3 ≤ n) (hq : 0 < q) (hq2 : q ^ 2 = 15) {w0 : ℝ} {g1 g2 g3 g4 : BGrp}
    (o0 : (bC n w0 (1 / (n + 1))).Ok n) (o1 : g1.Ok n) (o2 : g2.Ok n) (o3 : g3.Ok n) (o4 : g4.Ok n)
    (p1 : g1.p 2 = 1 / (n + 1) + n * (n + 1) * zr n q ^ 2 ∧
      g1.p 3 = (1 / (n + 1)) ^ 2 + 3 * (1 / (n + 1)) * (n * (n + 1) * zr n q ^ 2) +
        n * (n + 1) * -(n - 1) * zr n q ^ 3)
    (p2 : g2.p 2 = 1 / (n + 1) + n * (n + 1) * zr n (-q) ^ 2 ∧
      g2.p 3 = (1 / (n + 1)) ^ 2 + 3 * (1 / (n + 1)) * (n * (n + 1) * zr n (-q) ^ 2) +
        n * (n + 1) * -(n - 1) * zr n (-q) ^ 3)
    (p3 : g3.p 2 = 1 / (n + 1) + (n ^ 2 - 1) / 2 * zu n q ^ 2 ∧
      g3.p 3 = (1 / (n + 1)) ^ 2 + 3 * (1 / (n + 1)) * ((n ^ 2 - 1) / 2 * zu n q ^ 2) +
        (n ^ 2 - 1) / 2 * -((n - 3) / 2) * zu n q ^ 3)
    (p4 : g4.p 2 = 1 / (n + 1) + (n ^ 2 - 1) / 2 * zu n (-q) ^ 2 ∧
      g4.p 3 = (1 / (n + 1)) ^ 2 + 3 * (1 / (n + 1)) * ((n ^ 2 - 1) / 2 * zu n (-q) ^ 2) +
        (n ^ 2 - 1) / 2 * -((n - 3) / 2) * zu n (-q) ^ 3)
    (r1 : Rel n g1.p) (r2 : Rel n g2.p) (r3 : Rel n g3.p) (r4 : Rel n g4.p)
    (s0 : (List.zipWith (fun wi p => wi * (p.map fun row : List ℝ => row.headD 0 ^ 0).sum)
      [w0, g1.w, g2.w, g3.w, g4.w] [full n (1 / (n + 1)), g1.L, g2.L, g3.L, g4.L]).sum = 0)
    (s2 : (List.zipWith (fun wi p => wi * (p.map fun row : List ℝ => row.headD 0 ^ 2).sum)
      [w0, g1.w, g2.w, g3.w, g4.w] [full n (1 / (n + 1)), g1.L, g2.L, g3.L, g4.L]).sum = 0)
    (s3 : (List.zipWith (fun wi p => wi * (p.map fun row : List ℝ => row.headD 0 ^ 3).sum)
      [w0, g1.w, g2.w, g3.w, g4.w] [full n (1 / (n + 1)), g1.L, g2.L, g3.L, g4.L]).sum = 0)
    (s4 : (List.zipWith (fun wi p => wi * (p.map fun row : List ℝ => row.headD 0 ^ 4).sum)
      [w0, g1.w, g2.w, g3.w, g4.w] [full n (1 / (n + 1)), g1.L, g2.L, g3.L, g4.L]).sum = 0)
    (s5 : n = 3 ∧ g4.w = 0 ∨ 3 < n ∧
      (List.zipWith (fun wi p => wi * (p.map fun row : List ℝ => row.headD 0 ^ 5).sum)
      [w0, g1.w, g2.w, g3.w, g4.w] [full n (1 / (n + 1)), g1.L, g2.L, g3.L, g4.L]).sum = 0) :
    w0 = 0 ∧ g1.w * g1.L.length = 0 ∧ g2.w * g2.L.length = 0 ∧ g3.w * g3.L.length = 0 ∧
      g4.w * g4.L.length = 0 := by
  have hok := bok_cons o0 (bok_cons o1 (bok_cons o2 (bok_cons o3 (bok_cons o4 (bok_nil n)))))
  have c0 := row_zero0 [bC n w0 (1 / (n + 1)), g1, g2, g3, g4] s0
  have c2 := row_zero _ hok 2 (by norm_num) s2
  have c3 := row_zero _ hok 3 (by norm_num) s3
  have c4 := row_zero _ hok 4 (by norm_num) s4
  have ht : (1 / ((n : ℝ) + 1)) * (n + 1) = 1 := by field_simp
  simp only [bsum, bC, List.map_cons, List.map_nil, List.sum_cons, List.sum_nil, List.length_singleton,
    Nat.cast_one, mul_one, add_zero] at c0 c2 c3 c4
  have c5 : n = 3 ∧ g4.w = 0 ∨ 3 < n ∧ w0 * ((n + 1) * (1 / (n + 1)) ^ 5) + (g1.w * g1.L.length * g1.p 5 +
      (g2.w * g2.L.length * g2.p 5 + (g3.w * g3.L.length * g3.p 5 + g4.w * g4.L.length * g4.p 5))) = 0 := by
    rcases s5 with h | ⟨h, s5⟩
    · exact Or.inl h
    · have c5 := row_zero _ hok 5 (by norm_num) s5
      simp only [bsum, bC, List.map_cons, List.map_nil, List.sum_cons, List.sum_nil,
        List.length_singleton, Nat.cast_one, mul_one, add_zero] at c5
      exact Or.inr ⟨h, c5⟩
  clear s0 s2 s3 s4 s5 hok o0 o1 o2 o3 o4
  generalize 1 / ((n : ℝ) + 1) = t at *
  have := unique hn hq hq2 (W := ![g1.w * g1.L.length, g2.w * g2.L.length, g3.w * g3.L.length,
      g4.w * g4.L.length]) (p2 := ![g1.p 2, g2.p 2, g3.p 2, g4.p 2])
    (p3 := ![g1.p 3, g2.p 3, g3.p 3, g4.p 3]) (W0 := w0) ht p1.1 p2.1 p3.1 p4.1 p1.2 p2.2 p3.2 p4.2
    (by simp only [Fin.sum_univ_four, Matrix.cons_val]; linear_combination c0)
    (by simp only [Fin.sum_univ_four, Matrix.cons_val]; linear_combination c2 - w0 * t * ht)
    (by simp only [Fin.sum_univ_four, Matrix.cons_val]; linear_combination c3 - w0 * t ^ 2 * ht)
    (by
      simp only [Fin.sum_univ_four, Matrix.cons_val, r1.1, r2.1, r3.1, r4.1]
      linear_combination 10 / 9 * c3 - ((n : ℝ) + 1) / 9 * c4 -
        w0 * t ^ 2 * (10 / 9 - (t * (n + 1) + 1) / 9) * ht)
    (by
      rcases c5 with ⟨h, hw⟩ | ⟨h, c5⟩
      · exact Or.inl ⟨h, by simp [hw]⟩
      · refine Or.inr ⟨h, ?_⟩
        simp only [Fin.sum_univ_four, Matrix.cons_val, r1.2, r2.2, r3.2, r4.2]
        linear_combination 9 / 8 * c4 - ((n : ℝ) + 1) / 8 * c5 -
          w0 * t ^ 3 * (9 / 8 - (t * (n + 1) + 1) / 8) * ht)
  exact ⟨this.1, this.2 0, this.2 1, this.2 2, this.2 3⟩

end St69

open St69 in
/-- For every `n ≥ 3`, `np.linalg.solve` has a solution to return and the rule has degree 5, although
no condition on mixed monomials is imposed (and for `n = 3` none on `x^5`). -/
theorem C22_stroud1969_all (n : ℕ) (hn : 3 ≤ n) :
    ∃ S, stroud1969Solved n = some S ∧ S.degree = 5 ∧ S.ExactOnSimplex n := by
  have h15 : √(15 : ℝ) ^ 2 = 15 := Real.sq_sqrt (by norm_num)
  have h15' : (-√(15 : ℝ)) ^ 2 = 15 := by rw [neg_sq, h15]
  have hpos : 0 < √(15 : ℝ) := by positivity
  have hn1 : 1 ≤ n := by omega
  have hc : ((n - 1 : ℕ) : ℝ) = n - 1 := by rw [Nat.cast_sub hn1]; norm_num
  have hD1 : ((n : ℝ) ^ 2 + 8 * n + 1) ≠ 0 := by positivity
  have hD2 : ((n : ℝ) ^ 2 + 14 * n - 11) ≠ 0 := by have := den2 hn; nlinarith
  have ht : (1 / ((n : ℝ) + 1)) * (n + 1) = 1 := by field_simp
  obtain ⟨L1, hL1⟩ := rd_defined (n := n + 1) (items := [((n + 4 - 1 * √15) / ((n : ℝ) ^ 2 + 8 * n + 1), n),
    ((4 * n + 1 + 1 * n * √15) / (n ^ 2 + 8 * n + 1), 1)]) (by simp; omega) (by simp)
  obtain ⟨L2, hL2⟩ := rd_defined (n := n + 1) (items := [((n + 4 - -1 * √15) / ((n : ℝ) ^ 2 + 8 * n + 1), n),
    ((4 * n + 1 + -1 * n * √15) / (n ^ 2 + 8 * n + 1), 1)]) (by simp; omega) (by simp)
  obtain ⟨L3, hL3⟩ := rd_defined (n := n + 1) (items := [((n + 7 + 1 * 2 * √15) / ((n : ℝ) ^ 2 + 14 * n - 11), n - 1),
    ((4 * n - 2 - 1 * (n - 1) * √15) / (n ^ 2 + 14 * n - 11), 2)]) (by simp; omega) (by simp; omega)
  obtain ⟨L4, hL4⟩ := rd_defined (n := n + 1) (items := [((n + 7 + -1 * 2 * √15) / ((n : ℝ) ^ 2 + 14 * n - 11), n - 1),
    ((4 * n - 2 - -1 * (n - 1) * √15) / (n ^ 2 + 14 * n - 11), 2)]) (by simp; omega) (by simp; omega)
  have e1 : (n : ℝ) * ((n + 4 - 1 * √15) / (n ^ 2 + 8 * n + 1)) +
      (4 * n + 1 + 1 * n * √15) / (n ^ 2 + 8 * n + 1) = 1 := by field_simp; ring
  have e2 : (n : ℝ) * ((n + 4 - -1 * √15) / (n ^ 2 + 8 * n + 1)) +
      (4 * n + 1 + -1 * n * √15) / (n ^ 2 + 8 * n + 1) = 1 := by field_simp; ring
  have e3 : (n - 1 : ℝ) * ((n + 7 + 1 * 2 * √15) / (n ^ 2 + 14 * n - 11)) +
      2 * ((4 * n - 2 - 1 * (n - 1) * √15) / (n ^ 2 + 14 * n - 11)) = 1 := by
    rw [← mul_div_assoc, ← mul_div_assoc, ← add_div, div_eq_one_iff_eq hD2]; ring
  have e4 : (n - 1 : ℝ) * ((n + 7 + -1 * 2 * √15) / (n ^ 2 + 14 * n - 11)) +
      2 * ((4 * n - 2 - -1 * (n - 1) * √15) / (n ^ 2 + 14 * n - 11)) = 1 := by
    rw [← mul_div_assoc, ← mul_div_assoc, ← add_div, div_eq_one_iff_eq hD2]; ring
  have z1 : zr n (√15) = (n + 4 - 1 * √15) / (n ^ 2 + 8 * n + 1) - 1 / (n + 1) := by
    unfold zr; rw [one_mul]
  have z2 : zr n (-√15) = (n + 4 - -1 * √15) / (n ^ 2 + 8 * n + 1) - 1 / (n + 1) := by
    unfold zr; rw [neg_one_mul]
  have z3 : zu n (√15) = (n + 7 + 1 * 2 * √15) / (n ^ 2 + 14 * n - 11) - 1 / (n + 1) := by
    unfold zu; rw [one_mul]
  have z4 : zu n (-√15) = (n + 7 + -1 * 2 * √15) / (n ^ 2 + 14 * n - 11) - 1 / (n + 1) := by
    unfold zu; rw [show (-1 * 2 * √15 : ℝ) = 2 * -√15 by ring]
  have q1 := ps_rs ht e1
  have q2 := ps_rs ht e2
  have q3 := ps_uv ht e3
  have q4 := ps_uv ht e4
  rw [← z1] at q1
  rw [← z2] at q2
  rw [← z3] at q3
  rw [← z4] at q4
  have l1 : (L1.length : ℝ) ≠ 0 := by rw [rdn1_len hL1]; positivity
  have l2 : (L2.length : ℝ) ≠ 0 := by rw [rdn1_len hL2]; positivity
  have hnr : (0 : ℝ) < n := by exact_mod_cast hn1
  have l3 : (L3.length : ℝ) ≠ 0 := by rw [rdn12_len hL3]; positivity
  have l4 : (L4.length : ℝ) ≠ 0 := by rw [rdn12_len hL4]; positivity
  have ok1 : ∀ w, (bRd w _ L1).Ok n := fun w => bRd_ok w hL1 (by simpa using e1)
  have ok2 : ∀ w, (bRd w _ L2).Ok n := fun w => bRd_ok w hL2 (by simpa using e2)
  have ok3 : ∀ w, (bRd w _ L3).Ok n := fun w => bRd_ok w hL3 (by simpa [hc] using e3)
  have ok4 : ∀ w, (bRd w _ L4).Ok n := fun w => bRd_ok w hL4 (by simpa [hc] using e4)
  have r1 := rel_rs (n := n) _ h15
  have r2 := rel_rs (n := n) _ h15'
  have r3 := rel_uv (n := n) hn1 _ h15
  have r4 := rel_uv (n := n) hn1 _ h15'
  have hrel1 : ∀ w, Rel n (bRd w [((n + 4 - 1 * √15) / ((n : ℝ) ^ 2 + 8 * n + 1), n),
      ((4 * n + 1 + 1 * n * √15) / (n ^ 2 + 8 * n + 1), 1)] L1).p := fun w => by simpa [bRd] using r1
  have hrel2 : ∀ w, Rel n (bRd w [((n + 4 - -1 * √15) / ((n : ℝ) ^ 2 + 8 * n + 1), n),
      ((4 * n + 1 + -1 * n * √15) / (n ^ 2 + 8 * n + 1), 1)] L2).p := fun w => by simpa [bRd] using r2
  have hrel3 : ∀ w, Rel n (bRd w [((n + 7 + 1 * 2 * √15) / ((n : ℝ) ^ 2 + 14 * n - 11), n - 1),
      ((4 * n - 2 - 1 * (n - 1) * √15) / (n ^ 2 + 14 * n - 11), 2)] L3).p := fun w => by
    simpa [bRd, hc] using r3
  have hrel4 : ∀ w, Rel n (bRd w [((n + 7 + -1 * 2 * √15) / ((n : ℝ) ^ 2 + 14 * n - 11), n - 1),
      ((4 * n - 2 - -1 * (n - 1) * √15) / (n ^ 2 + 14 * n - 11), 2)] L4).p := fun w => by
    rw [show (4 * n - 2 - (n - 1) * -√15 : ℝ) = 4 * n - 2 - -1 * (n - 1) * √15 by ring] at r4
    simpa [bRd, hc] using r4
  have okC : ∀ w, (bC n w (1 / (n + 1))).Ok n := fun w => bC_ok w (by field_simp)
  have hm : ∀ (pts : List (List (List ℝ))), stroud1969Points n = some pts →
      pts.length = (stroud1969Ks n).length →
      (∀ w : List ℝ, w.length = pts.length → (∀ k ∈ stroud1969Ks n, (List.zipWith (fun wi
        (p : List (List ℝ)) => wi * (p.map fun x => x.headD 0 ^ k).sum) w pts).sum = 0) →
          ∀ x ∈ w, x = 0) →
      ∃ S, stroud1969Solved n = some S ∧ S.degree = 5 ∧ S.ExactOnSimplex n := by
    intro pts hp hl hu
    obtain ⟨w, hw, hwl, hws⟩ := linalgSolve_some (stroud1969Ks n) pts
      (fun k (p : List (List ℝ)) => (p.map fun x => x.headD 0 ^ k).sum)
      (fun k => monomialOverSimplex (k :: List.replicate (n - 1) 0) /
        monomialOverSimplex (List.replicate n 0)) hl hu
    have hS : stroud1969 n w = some (schemeOf n (List.zip w pts) 5) := by
      simp only [stroud1969, hp, guard, if_pos hn, Option.bind_eq_bind, Option.bind_some]
      rfl
    refine ⟨_, ?_, rfl, C22_stroud1969 n w pts hp ⟨hwl, hws⟩ _ hS⟩
    simp only [stroud1969Solved, hp, guard, if_pos hn, Option.bind_eq_bind, Option.bind_some, hw, hS]
    rfl
  by_cases h3 : 3 < n
  · have hk : stroud1969Ks n = [0, 2, 3, 4, 5] := by simp [stroud1969Ks, h3]
    refine hm [full n (1 / (n + 1)), L1, L2, L3, L4] (by
      simp only [stroud1969Points, hL1, hL2, hL3, hL4, Option.bind_eq_bind, Option.bind_some,
        if_pos h3, Option.pure_def]) (by simp [hk]) ?_
    intro w hw h
    obtain ⟨w0, w1, w2, w3, w4, rfl⟩ : ∃ a b c d e, w = [a, b, c, d, e] := by
      match w, hw with
      | [a, b, c, d, e], _ => exact ⟨a, b, c, d, e, rfl⟩
    have key := uniqueG hn hpos h15 (okC w0) (ok1 w1) (ok2 w2) (ok3 w3) (ok4 w4) (by
      simpa [bRd] using q1) (by simpa [bRd] using q2) (by simpa [bRd, hc] using q3)
      (by simpa [bRd, hc] using q4) (hrel1 w1) (hrel2 w2) (hrel3 w3) (hrel4 w4)
      (h 0 (by simp [hk])) (h 2 (by simp [hk])) (h 3 (by simp [hk])) (h 4 (by simp [hk]))
      (Or.inr ⟨h3, h 5 (by simp [hk])⟩)
    obtain ⟨k0, k1, k2, k3, k4⟩ := key
    have k1 := (mul_eq_zero.1 k1).resolve_right l1
    have k2 := (mul_eq_zero.1 k2).resolve_right l2
    have k3 := (mul_eq_zero.1 k3).resolve_right l3
    have k4 := (mul_eq_zero.1 k4).resolve_right l4
    simp only [bC, bRd] at k0 k1 k2 k3 k4
    simp [k0, k1, k2, k3, k4]
  · have h3n : n = 3 := by omega
    have hk : stroud1969Ks n = [0, 2, 3, 4] := by simp [stroud1969Ks, h3]
    refine hm [full n (1 / (n + 1)), L1, L2, L3] (by
      simp only [stroud1969Points, hL1, hL2, hL3, Option.bind_eq_bind, Option.bind_some,
        if_neg h3, Option.pure_def]) (by simp [hk]) ?_
    intro w hw h
    obtain ⟨w0, w1, w2, w3, rfl⟩ : ∃ a b c d, w = [a, b, c, d] := by
      match w, hw with
      | [a, b, c, d], _ => exact ⟨a, b, c, d, rfl⟩
    have ext : ∀ k, (List.zipWith (fun wi (p : List (List ℝ)) => wi * (p.map fun x =>
        x.headD 0 ^ k).sum) [w0, w1, w2, w3] [full n (1 / (n + 1)), L1, L2, L3]).sum = 0 →
        (List.zipWith (fun wi (p : List (List ℝ)) => wi * (p.map fun x => x.headD 0 ^ k).sum)
          [w0, w1, w2, w3, 0] [full n (1 / (n + 1)), L1, L2, L3, L4]).sum = 0 := by
      intro k hk
      refine Eq.trans ?_ hk
      simp
    have key := uniqueG hn hpos h15 (okC w0) (ok1 w1) (ok2 w2) (ok3 w3) (ok4 0) (by
      simpa [bRd] using q1) (by simpa [bRd] using q2) (by simpa [bRd, hc] using q3)
      (by simpa [bRd, hc] using q4) (hrel1 w1) (hrel2 w2) (hrel3 w3) (hrel4 0)
      (ext _ (h 0 (by simp [hk]))) (ext _ (h 2 (by simp [hk]))) (ext _ (h 3 (by simp [hk])))
      (ext _ (h 4 (by simp [hk]))) (Or.inl ⟨h3n, rfl⟩)
    obtain ⟨k0, k1, k2, k3, -⟩ := key
    have k1 := (mul_eq_zero.1 k1).resolve_right l1
    have k2 := (mul_eq_zero.1 k2).resolve_right l2
    have k3 := (mul_eq_zero.1 k3).resolve_right l3
    simp only [bC, bRd] at k0 k1 k2 k3
    simp [k0, k1, k2, k3]

/-- A concrete case: dimension 9, with five groups of points. -/
example : ∃ S, stroud1969Solved 9 = some S ∧ S.ExactOnSimplex 9 :=
  (C22_stroud1969_all 9 (by norm_num)).imp fun _ h => ⟨h.1, h.2.2⟩

/-- For `n ≤ 2` the assertion fails. -/
theorem C22_stroud1969_assert (n : ℕ) (hn : n ≤ 2) : stroud1969Solved n = none := by
  have : ¬ 3 ≤ n := by omega
  simp [stroud1969Solved, guard, this]

end Quadpy.Tn
