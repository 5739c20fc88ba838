import Verif.Lemmas.StoyanovaRadii
import Verif.Props.C24

/-!
C24, continued: the rule of degree seven in sn/_stoyanova.py.
-/

namespace Quadpy
open Finset Un
namespace Sn
namespace Stoy

/-- The sum of the `k`-th powers of the linear form `y` over a list of points. -/
noncomputable def M {n : ℕ} (y : Fin n → ℝ) (L : List (List ℝ)) (k : ℕ) : ℝ :=
  osum n L fun x => (∑ i, x i * y i) ^ k

section
variable {n : ℕ} (y : Fin n → ℝ)

theorem form_smul (c : ℝ) (x : List ℝ) :
    ∑ i, toVec n (smulRow c x) i * y i = c * ∑ i, toVec n x i * y i := by
  rw [toVec_smulRow, mul_sum]
  exact sum_congr rfl fun i _ => by ring

theorem form_add {x x' : List ℝ} (h : x.length = x'.length) :
    ∑ i, toVec n (addRow x x') i * y i = ∑ i, toVec n x i * y i + ∑ i, toVec n x' i * y i := by
  rw [toVec_addRow _ _ h, ← sum_add_distrib]
  exact sum_congr rfl fun i _ => by ring

theorem M_smul (c : ℝ) (L : List (List ℝ)) (k : ℕ) : M y (L.map (smulRow c)) k = c ^ k * M y L k := by
  unfold M osum
  rw [List.map_map, ← List.sum_map_mul_left]
  congr 1
  refine List.map_congr_left fun x _ => ?_
  simp only [Function.comp, form_smul, mul_pow]

theorem M_append (L L' : List (List ℝ)) (k : ℕ) : M y (L ++ L') k = M y L k + M y L' k := by
  unfold M osum; simp

theorem M_withNeg (L : List (List ℝ)) (k : ℕ) : M y (withNeg L) k = (1 + (-1) ^ k) * M y L k := by
  rw [withNeg, M_append, M_smul]; ring

theorem M_zero (L : List (List ℝ)) : M y L 0 = L.length := by
  unfold M
  rw [osum_const _ _ 1 (fun _ _ => by simp), mul_one]

theorem len_add {x x' : List ℝ} (h : x.length = n) (h' : x'.length = n) : (addRow x x').length = n := by
  simp [addRow, h, h']

theorem M_simplex (k : ℕ) : M y (getNsimplexPoints n) k = ∑ i ∈ range (n + 1), sy y i ^ k := by
  unfold M getNsimplexPoints
  rw [osum_range_map]; rfl

theorem M_edge (k : ℕ) : M y (edgePoints n) k =
    √(n / (2 * (n - 1))) ^ k * ∑ i ∈ range (n + 1), ∑ j ∈ range i, (sy y i + sy y j) ^ k := by
  unfold M edgePoints
  rw [osum_flatMap_range, mul_sum]
  refine sum_congr rfl fun i hi => ?_
  rw [osum_range_map, mul_sum]
  refine sum_congr rfl fun j hj => ?_
  have hi := mem_range.1 hi
  have hj := mem_range.1 hj
  have li := nsimplexRow_length n i (by omega)
  have lj := nsimplexRow_length n j (by omega)
  rw [form_smul, form_add _ (li.trans lj.symm), mul_pow]; rfl

theorem M_face (k : ℕ) : M y (facePoints n) k =
    √(n / (3 * (n - 2))) ^ k * ∑ i ∈ range (n + 1), ∑ j ∈ range i, ∑ l ∈ range j,
      (sy y i + sy y j + sy y l) ^ k := by
  unfold M facePoints
  rw [osum_flatMap_range, mul_sum]
  refine sum_congr rfl fun i hi => ?_
  rw [osum_flatMap_range, mul_sum]
  refine sum_congr rfl fun j hj => ?_
  rw [osum_range_map, mul_sum]
  refine sum_congr rfl fun l hl => ?_
  have hi := mem_range.1 hi
  have hj := mem_range.1 hj
  have hl := mem_range.1 hl
  have li := nsimplexRow_length n i (by omega)
  have lj := nsimplexRow_length n j (by omega)
  have ll := nsimplexRow_length n l (by omega)
  rw [form_smul, form_add _ ((len_add li lj).trans ll.symm), form_add _ (li.trans lj.symm), mul_pow]; rfl

theorem M_quarter (k : ℕ) : M y (quarterPoints n) k =
    √(n / (10 * n - 6)) ^ k * (∑ i ∈ range (n + 1), ∑ j ∈ range i, (sy y i + 3 * sy y j) ^ k +
      ∑ i ∈ range (n + 1), ∑ j ∈ range i, (3 * sy y i + sy y j) ^ k) := by
  unfold quarterPoints
  rw [M_append, mul_add]
  unfold M
  congr 1
  all_goals
    rw [osum_flatMap_range, mul_sum]
    refine sum_congr rfl fun i hi => ?_
    rw [osum_range_map, mul_sum]
    refine sum_congr rfl fun j hj => ?_
    have hi := mem_range.1 hi
    have hj := mem_range.1 hj
    have li := nsimplexRow_length n i (by omega)
    have lj := nsimplexRow_length n j (by omega)
    have li' : (smulRow 3 (nsimplexRow n i)).length = n := by simp [smulRow, li]
    have lj' : (smulRow 3 (nsimplexRow n j)).length = n := by simp [smulRow, lj]
  · rw [form_smul, form_add _ (li.trans lj'.symm), form_smul, mul_pow]; rfl
  · rw [form_smul, form_add _ (li'.trans lj.symm), form_smul, mul_pow]; rfl

/-- For `n = 5` the set of face midpoints is symmetric. -/
theorem face_odd (t : ℕ → ℝ) (h : ∑ i ∈ range 6, t i = 0) {k : ℕ} (hk : Odd k) :
    ∑ i ∈ range 6, ∑ j ∈ range i, ∑ l ∈ range j, (t i + t j + t l) ^ k = 0 := by
  simp only [sum_range_succ, sum_range_zero, zero_add] at h ⊢
  have e : ∀ x z : ℝ, x + z = 0 → x ^ k + z ^ k = 0 := fun x z hx => by
    rw [show x = -z by linarith, hk.neg_pow]; ring
  have e1 := e (t 2 + t 1 + t 0) (t 5 + t 4 + t 3) (by linarith)
  have e2 := e (t 3 + t 1 + t 0) (t 5 + t 4 + t 2) (by linarith)
  have e3 := e (t 4 + t 1 + t 0) (t 5 + t 3 + t 2) (by linarith)
  have e4 := e (t 5 + t 1 + t 0) (t 4 + t 3 + t 2) (by linarith)
  have e5 := e (t 3 + t 2 + t 0) (t 5 + t 4 + t 1) (by linarith)
  have e6 := e (t 4 + t 2 + t 0) (t 5 + t 3 + t 1) (by linarith)
  have e7 := e (t 5 + t 2 + t 0) (t 4 + t 3 + t 1) (by linarith)
  have e8 := e (t 4 + t 3 + t 0) (t 5 + t 2 + t 1) (by linarith)
  have e9 := e (t 5 + t 3 + t 0) (t 4 + t 2 + t 1) (by linarith)
  have e10 := e (t 5 + t 4 + t 0) (t 3 + t 2 + t 1) (by linarith)
  linarith

end

section
variable {n P2 P3 P4 P6 Y SB SC SE : ℝ} (hn : 5 ≤ n) (hP : P2 = (n + 1) / n * Y)
include hn hP

theorem alg2 {D a1 b1 c1 e1 u v w : ℝ} (h : UVW n D a1 b1 c1 e1 u v w)
    (hB : 2 * SB = (2 * (n + 1) - 4) * P2) (hC : 6 * SC = (3 * (n + 1) ^ 2 - 15 * (n + 1) + 18) * P2)
    (hE : SE = (10 * (n + 1) - 16) * P2) :
    a1 * u ^ 2 / (n + 1) * P2 + 2 * (b1 * v ^ 2) / (n * (n + 1)) * (n / (2 * (n - 1)) * SB) +
      6 * (c1 * w ^ 2) / ((n + 1) * n * (n - 1)) * (n / (3 * (n - 2)) * SC) +
      e1 * D ^ 2 / (n * (n + 1)) * (n / (10 * n - 6) * SE) = n / (n + 2) * (1 / n) * Y := by
  have q0 : n ≠ 0 := by linarith
  have q1 : n - 1 ≠ 0 := by linarith
  have q2 : n - 2 ≠ 0 := by linarith
  have p1 : n + 1 ≠ 0 := by linarith
  have p2 : n + 2 ≠ 0 := by linarith
  have q10 : 10 * n - 6 ≠ 0 := by linarith
  have q5 : 5 * n - 3 ≠ 0 := by linarith
  have hB' : SB = (n - 1) * P2 := by linarith
  have hC' : SC = (n - 1) * (n - 2) / 2 * P2 := by linarith
  have hE' : SE = (10 * n - 6) * P2 := by linarith
  have e : a1 * u ^ 2 / (n + 1) * P2 + 2 * (b1 * v ^ 2) / (n * (n + 1)) * (n / (2 * (n - 1)) * SB) +
      6 * (c1 * w ^ 2) / ((n + 1) * n * (n - 1)) * (n / (3 * (n - 2)) * SC) +
      e1 * D ^ 2 / (n * (n + 1)) * (n / (10 * n - 6) * SE) =
      (a1 * u ^ 2 + b1 * v ^ 2 + c1 * w ^ 2 + e1 * D ^ 2) / (n + 1) * P2 := by
    rw [hB', hC', hE']
    generalize hr : 10 * n - 6 = r at *
    field_simp
    ring
  rw [e, h.quad, hP]
  field_simp

theorem alg4 {D a1 b1 c1 e1 u v w : ℝ} (h : UVW n D a1 b1 c1 e1 u v w)
    (hB : 2 * SB = (2 * (n + 1) - 16) * P4 + 6 * P2 ^ 2)
    (hC : 6 * SC = (3 * (n + 1) ^ 2 - 51 * (n + 1) + 162) * P4 + (18 * (n + 1) - 72) * P2 ^ 2)
    (hE : SE = (82 * (n + 1) - 256) * P4 + 54 * P2 ^ 2) :
    a1 * u / (n + 1) * P4 + 2 * (b1 * v) / (n * (n + 1)) * ((n / (2 * (n - 1))) ^ 2 * SB) +
      6 * (c1 * w) / ((n + 1) * n * (n - 1)) * ((n / (3 * (n - 2))) ^ 2 * SC) +
      e1 * D / (n * (n + 1)) * ((n / (10 * n - 6)) ^ 2 * SE) =
      n / (n + 4) * (1 / n * (3 / (n + 2))) * Y ^ 2 := by
  have q0 : n ≠ 0 := by linarith
  have q1 : n - 1 ≠ 0 := by linarith
  have q2 : n - 2 ≠ 0 := by linarith
  have p1 : n + 1 ≠ 0 := by linarith
  have p2 : n + 2 ≠ 0 := by linarith
  have p4 : n + 4 ≠ 0 := by linarith
  have q10 : 10 * n - 6 ≠ 0 := by linarith
  have hB' : SB = (n - 7) * P4 + 3 * P2 ^ 2 := by linarith
  have hC' : SC = (3 * n ^ 2 - 45 * n + 114) / 6 * P4 + (18 * n - 54) / 6 * P2 ^ 2 := by linarith
  have hE' : SE = (82 * n - 174) * P4 + 54 * P2 ^ 2 := by linarith
  have e : a1 * u / (n + 1) * P4 + 2 * (b1 * v) / (n * (n + 1)) * ((n / (2 * (n - 1))) ^ 2 * SB) +
      6 * (c1 * w) / ((n + 1) * n * (n - 1)) * ((n / (3 * (n - 2))) ^ 2 * SC) +
      e1 * D / (n * (n + 1)) * ((n / (10 * n - 6)) ^ 2 * SE) =
      (a1 * u + b1 * v * (n * (n - 7) / (4 * (n - 1) ^ 2)) * 2 +
        c1 * w * (n / (9 * (n - 2) ^ 2 * (n - 1))) * (3 * n ^ 2 - 45 * n + 114) +
        e1 * D * (n / (10 * n - 6) ^ 2) * (82 * n - 174)) / (n + 1) * P4 +
      (b1 * v * (6 / (4 * (n - 1) ^ 2)) + c1 * w * (18 * n - 54) / (9 * (n - 2) ^ 2 * (n - 1)) +
        e1 * D * (54 / (10 * n - 6) ^ 2)) * (n / (n + 1)) * P2 ^ 2 := by
    rw [hB', hC', hE']
    generalize hr : 10 * n - 6 = r at *
    field_simp
    ring
  rw [e, h.mixed, h.pure, hP]
  field_simp
  ring

theorem alg6 (hB : 2 * SB = (2 * (n + 1) - 64) * P6 + 30 * P2 * P4 + 20 * P3 ^ 2)
    (hC : 6 * SC = (3 * (n + 1) ^ 2 - 195 * (n + 1) + 1458) * P6 + (90 * (n + 1) - 900) * P2 * P4 +
      (60 * (n + 1) - 480) * P3 ^ 2 + 90 * P2 ^ 3)
    (hE : SE = (730 * (n + 1) - 4096) * P6 + 1350 * P2 * P4 + 540 * P3 ^ 2) :
    A1 n / (n + 1) * P6 + 2 * B1 n / (n * (n + 1)) * ((n / (2 * (n - 1))) ^ 3 * SB) +
      6 * C1 n / ((n + 1) * n * (n - 1)) * ((n / (3 * (n - 2))) ^ 3 * SC) +
      E1 n / (n * (n + 1)) * ((n / (10 * n - 6)) ^ 3 * SE) =
      n / (n + 6) * (1 / n * (3 / (n + 2)) * (5 / (n + 4))) * Y ^ 3 := by
  have q0 : n ≠ 0 := by linarith
  have q1 : n - 1 ≠ 0 := by linarith
  have q2 : n - 2 ≠ 0 := by linarith
  have p1 : n + 1 ≠ 0 := by linarith
  have p2 : n + 2 ≠ 0 := by linarith
  have p4 : n + 4 ≠ 0 := by linarith
  have p6 : n + 6 ≠ 0 := by linarith
  have q5 : 5 * n - 3 ≠ 0 := by linarith
  have hB' : SB = (n - 31) * P6 + 15 * P2 * P4 + 10 * P3 ^ 2 := by linarith
  have hC' : SC = ((3 * (n + 1) ^ 2 - 195 * (n + 1) + 1458) * P6 + (90 * (n + 1) - 900) * P2 * P4 +
      (60 * (n + 1) - 480) * P3 ^ 2 + 90 * P2 ^ 3) / 6 := by linarith
  have hY : Y = n / (n + 1) * P2 := by rw [hP]; field_simp
  have eE : E1 n / (n * (n + 1)) * ((n / (10 * n - 6)) ^ 3 * SE) =
      n ^ 3 / (18 * ((n + 1) ^ 3 * (n + 2) * (n + 4) * (n + 6))) * SE := by
    unfold E1
    rw [show 10 * n - 6 = 2 * (5 * n - 3) by ring]
    generalize 5 * n - 3 = r at *
    field_simp
    ring
  rw [eE, hB', hC', hE, hY]
  unfold A1 B1 C1
  clear hP hY hB hB' hC hC' hE eE
  field_simp
  ring

end

theorem wt {A K u L : ℝ} (hu : u ≠ 0) (hL : L ^ 2 = 1 / u) :
    A / K / (1 / u) ^ 3 * L ^ 2 = A * u ^ 2 / K ∧ A / K / (1 / u) ^ 3 * L ^ 4 = A * u / K ∧
      A / K / (1 / u) ^ 3 * L ^ 6 = A / K := by
  rw [show L ^ 4 = (L ^ 2) ^ 2 by ring, show L ^ 6 = (L ^ 2) ^ 3 by ring, hL]
  refine ⟨?_, ?_, ?_⟩ <;> rw [div_div] <;> field_simp

theorem withNeg_len {n : ℕ} {L : List (List ℝ)} (h : ∀ x ∈ L, x.length = n) :
    ∀ x ∈ withNeg L, x.length = n := by
  intro x hx
  rcases List.mem_append.1 hx with hx | hx
  · exact h x hx
  · obtain ⟨x', hx', rfl⟩ := List.mem_map.1 hx
    simpa [smulRow] using h x' hx'

theorem facePoints_len (n : ℕ) : ∀ x ∈ facePoints n, x.length = n := by
  intro x hx
  simp only [facePoints, List.mem_flatMap, List.mem_map, List.mem_range] at hx
  obtain ⟨k, hk, l, hl, j, hj, rfl⟩ := hx
  simp [smulRow, addRow, nsimplexRow_length n k (by omega), nsimplexRow_length n l (by omega),
    nsimplexRow_length n j (by omega)]

theorem quarterPoints_len (n : ℕ) : ∀ x ∈ quarterPoints n, x.length = n := by
  intro x hx
  simp only [quarterPoints, List.mem_append, List.mem_flatMap, List.mem_map, List.mem_range] at hx
  rcases hx with ⟨k, hk, l, hl, rfl⟩ | ⟨k, hk, l, hl, rfl⟩ <;>
  simp [smulRow, addRow, nsimplexRow_length n k (by omega), nsimplexRow_length n l (by omega)]

/-- The number of face midpoints, `n3` in the source (lines 79, the same for both cases up to the factor
by which the list is doubled). -/
theorem n3_cast {n : ℕ} (hn : 5 ≤ n) :
    (((if n = 5 then (n + 1) * n * (n - 1) / 6 else (n + 1) * n * (n - 1) / 3 : ℕ)) : ℝ) =
      (if 5 < n then (2 : ℝ) else 1) * ((n + 1) * n * (n - 1) / 6) := by
  rcases hn.eq_or_lt with rfl | h
  · norm_num
  · rw [if_neg (by omega), if_pos h, Nat.cast_div]
    · rw [Nat.cast_mul, Nat.cast_mul, Nat.cast_sub (by omega)]; push_cast; ring
    · obtain ⟨m, rfl⟩ : ∃ m, n = m + 1 := ⟨n - 1, by omega⟩
      rw [Nat.add_sub_cancel]
      have := Nat.mod_lt m (show 3 > 0 by norm_num)
      apply Nat.dvd_of_mod_eq_zero
      rw [Nat.mul_mod, Nat.mul_mod (m + 1 + 1), Nat.add_mod (m + 1) 1, Nat.add_mod m 1]
      interval_cases m % 3 <;> rfl
    · norm_num

end Stoy

open Stoy in
/-- sn/_stoyanova.py: whenever the function returns a scheme, it is exact up to degree seven. -/
theorem C24_stoyanova {n : ℕ} {delta : Option ℝ} {vp : Bool} {S : Scheme}
    (h : stoyanova n delta vp = some S) : S.degree = 7 ∧ S.ExactOnBall n := by
  unfold stoyanova at h
  generalize delta.getD (stoyanovaDelta n vp) = δ at h
  by_cases hn : 5 ≤ n
  swap
  · simp [stoyanovaWith, hn] at h
  have hnR : (5 : ℝ) ≤ n := by exact_mod_cast hn
  simp only [stoyanovaWith, guard, hn, if_true, Option.bind_eq_bind, Option.bind_eq_some_iff,
    Option.pure_def, weights_eq hnR, Option.some.injEq, divO_some, exists_eq_left',
    Option.ite_none_right_eq_some, Option.failure_eq_none] at h
  obtain ⟨-, -, -, ⟨⟨lA, lB, lC, lE⟩, -⟩, ⟨u, v, w⟩, huvw, l2, ⟨hu, rfl⟩, b2, ⟨hv, rfl⟩, g2, ⟨hw, rfl⟩, la, hla,
    be, hbe, ga, hga, rfl⟩ := h
  have sq : ∀ {x r : ℝ}, sqrtO x = some r → r ^ 2 = x := fun {x r} hx => by
    unfold sqrtO at hx
    split_ifs at hx with h0
    rw [← Option.some.inj hx, Real.sq_sqrt h0]
  dsimp only at hu hv hw hla hbe hga
  replace hla := sq hla
  replace hbe := sq hbe
  replace hga := sq hga
  obtain ⟨hδ, hU⟩ := uvw_of hnR huvw
  obtain ⟨a2, a4, a6⟩ := wt (A := A1 n) (K := ((2 * (n + 1) : ℕ) : ℝ)) hu hla
  obtain ⟨b2, b4, b6⟩ := wt (A := B1 n) (K := ((n * (n + 1) : ℕ) : ℝ)) hv hbe
  obtain ⟨c2, c4, c6⟩ := wt (A := C1 n) (K := (((if n = 5 then (n + 1) * n * (n - 1) / 6 else
    (n + 1) * n * (n - 1) / 3 : ℕ)) : ℝ)) hw hga
  have hD0 : 1 / δ ^ 2 ≠ 0 := by positivity
  obtain ⟨e2, e4, e6⟩ := wt (A := E1 n) (K := ((2 * n * (n + 1) : ℕ) : ℝ)) (L := δ) hD0
    (by field_simp)
  rw [show (1 : ℝ) / (1 / δ ^ 2) = δ ^ 2 by field_simp] at e2 e4 e6
  generalize hnC : (if n = 5 then (n + 1) * n * (n - 1) / 6 else (n + 1) * n * (n - 1) / 3 : ℕ) = n3 at *
  have hn3 : (n3 : ℝ) = (if 5 < n then (2 : ℝ) else 1) * ((n + 1) * n * (n - 1) / 6) := by
    rw [← hnC, n3_cast hn]
  generalize ha : A1 n / ((2 * (n + 1) : ℕ) : ℝ) / (1 / u) ^ 3 = a at *
  generalize hb : B1 n / ((n * (n + 1) : ℕ) : ℝ) / (1 / v) ^ 3 = b at *
  generalize hc : C1 n / (n3 : ℝ) / (1 / w) ^ 3 = c at *
  generalize he : E1 n / ((2 * n * (n + 1) : ℕ) : ℝ) / (δ ^ 2) ^ 3 = e at *
  refine ⟨rfl, ballPow_zero_rel ?_⟩
  have hn0 : 0 < n := by omega
  have hnR0 : -(n : ℝ) < 0 := by linarith
  have hdot : ∀ (y : Fin n → ℝ) (k : ℕ), dot n (schemeOf n
      [(a, (withNeg (getNsimplexPoints n)).map (smulRow la)), (b, (withNeg (edgePoints n)).map (smulRow be)),
        (c, (if 5 < n then withNeg (facePoints n) else facePoints n).map (smulRow ga)),
        (e, (withNeg (quarterPoints n)).map (smulRow δ)),
        (1 - ((2 * (n + 1) : ℕ) : ℝ) * a - ((n * (n + 1) : ℕ) : ℝ) * b - n3 * c -
          ((2 * n * (n + 1) : ℕ) : ℝ) * e, z n)] 7).weights (schemeOf n
      [(a, (withNeg (getNsimplexPoints n)).map (smulRow la)), (b, (withNeg (edgePoints n)).map (smulRow be)),
        (c, (if 5 < n then withNeg (facePoints n) else facePoints n).map (smulRow ga)),
        (e, (withNeg (quarterPoints n)).map (smulRow δ)),
        (1 - ((2 * (n + 1) : ℕ) : ℝ) * a - ((n * (n + 1) : ℕ) : ℝ) * b - n3 * c -
          ((2 * n * (n + 1) : ℕ) : ℝ) * e, z n)] 7).points (fun x => (∑ i, x i * y i) ^ k) =
      a * (la ^ k * M y (withNeg (getNsimplexPoints n)) k) + b * (be ^ k * M y (withNeg (edgePoints n)) k) +
      c * (ga ^ k * M y (if 5 < n then withNeg (facePoints n) else facePoints n) k) +
      e * (δ ^ k * M y (withNeg (quarterPoints n)) k) +
      (1 - ((2 * (n + 1) : ℕ) : ℝ) * a - ((n * (n + 1) : ℕ) : ℝ) * b - n3 * c -
          ((2 * n * (n + 1) : ℕ) : ℝ) * e) * 0 ^ k := fun y k => by
    rw [dot_schemeOf]
    simp only [List.map_cons, List.map_nil, List.sum_cons, List.sum_nil]
    rw [show osum n (z n) (fun x => (∑ i, x i * y i) ^ k) = 0 ^ k by
      unfold z; rw [osum_zero_row]; simp]
    rw [← M_smul, ← M_smul, ← M_smul, ← M_smul]
    unfold M
    ring
  refine radial_exact_of_powers hn0 (ballPow_linOnMono hn0 hnR0) (ballPow_mono hn0 hnR0) _
    (schemeOf_wellShaped _ _ _ ?_) (fun k hk _ y => ?_) (fun m hm y => ?_)
  · have hmap : ∀ (r : ℝ) (L : List (List ℝ)), (∀ x ∈ L, x.length = n) →
        ∀ x ∈ L.map (smulRow r), x.length = n := fun r L hL x hx => by
      obtain ⟨x', hx', rfl⟩ := List.mem_map.1 hx
      simpa [smulRow] using hL x' hx'
    simp only [List.mem_cons, List.not_mem_nil, or_false]
    rintro g (rfl | rfl | rfl | rfl | rfl)
    · exact hmap _ _ (withNeg_len (nsimplex_length' n))
    · exact hmap _ _ (withNeg_len (edgePoints_length' n))
    · refine hmap _ _ ?_
      split_ifs
      · exact withNeg_len (facePoints_len n)
      · exact facePoints_len n
    · exact hmap _ _ (withNeg_len (quarterPoints_len n))
    · simp [z]
  · rw [hdot, M_withNeg, M_withNeg, M_withNeg, hk.neg_one_pow, zero_pow hk.pos.ne']
    have : M y (if 5 < n then withNeg (facePoints n) else facePoints n) k = 0 := by
      split_ifs with h5
      · rw [M_withNeg, hk.neg_one_pow]; ring
      · have h5' : n = 5 := by omega
        rw [M_face]
        have e6 : n + 1 = 6 := by omega
        have := face_odd (sy y) (by have := sy_sum y; rwa [e6] at this) hk
        rw [e6, this, mul_zero]
    rw [this]; ring
  · have hmC : ∀ k, Even k → M y (if 5 < n then withNeg (facePoints n) else facePoints n) k =
        (if 5 < n then (2 : ℝ) else 1) * M y (facePoints n) k := fun k hk => by
      split_ifs with h5
      · rw [M_withNeg, hk.neg_one_pow]; ring
      · ring
    have hs1 := sy_sum y
    have hP := sy_sq y
    have cast1 : (((n + 1 : ℕ)) : ℝ) = n + 1 := by push_cast; ring
    have q1 : (n : ℝ) - 1 ≠ 0 := by linarith
    have q2 : (n : ℝ) - 2 ≠ 0 := by linarith
    have sB : √((n : ℝ) / (2 * (n - 1))) ^ 2 = n / (2 * (n - 1)) :=
      Real.sq_sqrt (div_nonneg (by linarith) (by linarith))
    have sC : √((n : ℝ) / (3 * (n - 2))) ^ 2 = n / (3 * (n - 2)) :=
      Real.sq_sqrt (div_nonneg (by linarith) (by linarith))
    have sE : √((n : ℝ) / (10 * n - 6)) ^ 2 = n / (10 * n - 6) :=
      Real.sq_sqrt (div_nonneg (by linarith) (by linarith))
    have hκ : (if 5 < n then (2 : ℝ) else 1) ≠ 0 := by split_ifs <;> norm_num
    have kC : ∀ X : ℝ, (if 5 < n then (2 : ℝ) else 1) * (X / n3) =
        6 * X / ((n + 1) * n * (n - 1)) := fun X => by
      rw [hn3]; field_simp
    have kA : ∀ X : ℝ, 2 * (X / ((2 * (n + 1) : ℕ) : ℝ)) = X / (n + 1) := fun X => by
      push_cast; field_simp
    have kB : ∀ X : ℝ, 2 * (X / ((n * (n + 1) : ℕ) : ℝ)) = 2 * X / (n * (n + 1)) := fun X => by
      push_cast; ring
    have kE : ∀ X : ℝ, 2 * (X / ((2 * n * (n + 1) : ℕ) : ℝ)) = X / (n * (n + 1)) := fun X => by
      push_cast; field_simp
    generalize (if 5 < n then (2 : ℝ) else 1) = κ at *
    rw [hdot]
    have h7 : 2 * m ≤ 7 := hm
    have hm3 : m ≤ 3 := by omega
    interval_cases m
    · rw [M_zero, M_zero, M_zero, M_zero, lA, lB, lC, lE]
      have : (n : ℝ) ≠ 0 := by linarith
      simp only [mul_zero, pow_zero, one_mul, sphK, ballRho, range_zero, prod_empty, add_zero, mul_one,
        Nat.cast_zero]
      rw [div_self this]
      ring
    · have tB := Frame.pairs2 hs1
      have tC := Frame.triples2 hs1
      have tE := Frame.quarter2 hs1
      rw [cast1] at tB tC tE
      have g := alg2 hnR hP hU tB tC tE
      rw [hmC _ (by decide), M_withNeg, M_withNeg, M_withNeg, M_simplex, M_edge, M_face, M_quarter]
      rw [pow_mul (√_), pow_mul (√_), pow_mul (√_), sB, sC, sE]
      simp only [sphK, ballRho, prod_range_succ, prod_range_zero]
      rw [← kA, ← kB, ← kC, ← kE, ← a2, ← b2, ← c2, ← e2] at g
      norm_num [Frame.P] at g ⊢
      linear_combination g
    · have tB := Frame.pairs4 hs1
      have tC := Frame.triples4 hs1
      have tE := Frame.quarter4 hs1
      rw [cast1] at tB tC tE
      have g := alg4 hnR hP hU tB tC tE
      rw [hmC _ (by decide), M_withNeg, M_withNeg, M_withNeg, M_simplex, M_edge, M_face, M_quarter]
      rw [pow_mul (√_), pow_mul (√_), pow_mul (√_), sB, sC, sE]
      simp only [sphK, ballRho, prod_range_succ, prod_range_zero]
      rw [← kA, ← kB, ← kC, ← kE, ← a4, ← b4, ← c4, ← e4] at g
      norm_num [Frame.P] at g ⊢
      linear_combination g
    · have tB := Frame.pairs6 hs1
      have tC := Frame.triples6 hs1
      have tE := Frame.quarter6 hs1
      rw [cast1] at tB tC tE
      have g := alg6 hnR hP tB tC tE
      rw [hmC _ (by decide), M_withNeg, M_withNeg, M_withNeg, M_simplex, M_edge, M_face, M_quarter]
      rw [pow_mul (√_), pow_mul (√_), pow_mul (√_), sB, sC, sE]
      simp only [sphK, ballRho, prod_range_succ, prod_range_zero]
      rw [← kA, ← kB, ← kC, ← kE, ← a6, ← b6, ← c6, ← e6] at g
      norm_num [Frame.P] at g ⊢
      linear_combination g
end Sn
end Quadpy
