/-
C25, continued: Stroud's rule of degree 11 on the sphere, un/_stroud_1969.py, for every `n ≥ 3`, and
the rule `stroud_u3_11_2` made from it (C48).
-/
import Verif.Lemmas.LinalgSolve
import Verif.Lemmas.SphereReduce
import Verif.Lemmas.SphereAlgebra
import Verif.Lemmas.Rel
import Verif.Lemmas.Radii
import Verif.Props.C15

namespace Quadpy
open Finset Un

namespace St69

/-- The points `(±s, ±r, ..., ±r)` and permutations. -/
noncomputable def gR (n : ℕ) (w : ℝ) (L : List (List ℝ)) (ρ : ℝ) : SGrp where
  w := w
  L := L
  z2 := (n - 1) / n * ρ ^ 2
  z3 := (n - 1) * (n - 2) / n ^ 2 * ρ ^ 3
  z4 := (n - 1) * (n ^ 2 - 3 * n + 3) / n ^ 3 * ρ ^ 4
  z5 := (n - 1) * (n - 2) * (n ^ 2 - 2 * n + 2) / n ^ 4 * ρ ^ 5

/-- The points `(±v, ±v, ±u, ..., ±u)` and permutations. -/
noncomputable def gV (n : ℕ) (w : ℝ) (L : List (List ℝ)) (σ : ℝ) : SGrp where
  w := w
  L := L
  z2 := 2 * (n - 2) / n * σ ^ 2
  z3 := 2 * (n - 2) * (n - 4) / n ^ 2 * σ ^ 3
  z4 := 2 * (n - 2) * (n ^ 2 - 6 * n + 12) / n ^ 3 * σ ^ 4
  z5 := 2 * (n - 2) * (n - 4) * (n ^ 2 - 4 * n + 8) / n ^ 4 * σ ^ 5

/-- The points `(±t, ..., ±t)`. -/
def gT (w : ℝ) (L : List (List ℝ)) : SGrp := ⟨w, L, 0, 0, 0, 0⟩

theorem constPow_fsd2 {n : ℕ} {a b A B : ℝ} {i j : ℕ} {L : List (List ℝ)}
    (h : fsd n [(a, i), (b, j)] = some L) (ha : a ^ 2 = A) (hb : b ^ 2 = B) (k : ℕ) (hk : k ≠ 0)
    {p : ℝ} (hp : i * A ^ k + j * B ^ k = p) : ConstPow n L (2 * k) p := by
  intro x hx
  rw [fsd_powersum h (2 * k) (even_two_mul k) (by omega) x hx]
  simp only [List.map_cons, List.map_nil, List.sum_cons, List.sum_nil, add_zero, pow_mul, ha, hb]
  exact hp

theorem gR_ok {n : ℕ} (hn : 3 ≤ n) (w : ℝ) {s r : ℝ} {L : List (List ℝ)}
    (h : fsd n [(s, 1), (r, n - 1)] = some L) (ρ : ℝ) (hs : s ^ 2 = 1 / n + (n - 1) / n * ρ)
    (hr : r ^ 2 = 1 / n - ρ / n) : (gR n w L ρ).Ok n := by
  have hn0 : (n : ℝ) ≠ 0 := by positivity
  have c : ((n - 1 : ℕ) : ℝ) = n - 1 := by push_cast [show 1 ≤ n by omega]; ring
  refine ⟨fsd_FS h, constPow_fsd2 h hs hr 1 (by norm_num) ?_,
    constPow_fsd2 h hs hr 2 (by norm_num) ?_, constPow_fsd2 h hs hr 3 (by norm_num) ?_,
    constPow_fsd2 h hs hr 4 (by norm_num) ?_, constPow_fsd2 h hs hr 5 (by norm_num) ?_⟩
  all_goals simp only [gR, c, Nat.cast_one]; field_simp; ring

theorem gV_ok {n : ℕ} (hn : 3 ≤ n) (w : ℝ) {s r : ℝ} {L : List (List ℝ)}
    (h : fsd n [(s, 2), (r, n - 2)] = some L) (σ : ℝ) (hs : s ^ 2 = 1 / n + (n - 2) / n * σ)
    (hr : r ^ 2 = 1 / n - 2 * σ / n) : (gV n w L σ).Ok n := by
  have hn0 : (n : ℝ) ≠ 0 := by positivity
  have c : ((n - 2 : ℕ) : ℝ) = n - 2 := by push_cast [show 2 ≤ n by omega]; ring
  refine ⟨fsd_FS h, constPow_fsd2 h hs hr 1 (by norm_num) ?_,
    constPow_fsd2 h hs hr 2 (by norm_num) ?_, constPow_fsd2 h hs hr 3 (by norm_num) ?_,
    constPow_fsd2 h hs hr 4 (by norm_num) ?_, constPow_fsd2 h hs hr 5 (by norm_num) ?_⟩
  all_goals simp only [gV, c, Nat.cast_ofNat]; field_simp; ring

theorem gT_ok {n : ℕ} (hn : 3 ≤ n) (w : ℝ) :
    (gT w (pm (List.replicate n (√(1 / n))))).Ok n := by
  have hn0 : (n : ℝ) ≠ 0 := by positivity
  have h0 : √(1 / (n : ℝ)) ≠ 0 := by positivity
  have p1 : (0 : ℝ) ≤ 1 / n := by positivity
  have key : ∀ k : ℕ, (n : ℝ) * √(1 / n) ^ (2 * k) = n * (1 / n) ^ k := fun k => by
    rw [pow_mul, Real.sq_sqrt p1]
  rw [pm_replicate n h0]
  have cp : ∀ k : ℕ, ∀ p : ℝ, n * (1 / n : ℝ) ^ k = p →
      ConstPow n (orbit n .a [√(1 / (n : ℝ))]) (2 * k) p := fun k p h => by
    rw [← h, ← key]; exact a_pow n _ (even_two_mul k)
  refine ⟨a_FS n _, cp 1 _ ?_, cp 2 _ ?_, cp 3 _ ?_, cp 4 _ ?_, cp 5 _ ?_⟩
  all_goals try simp only [gT]
  all_goals field_simp
  all_goals try ring

/-! The rows of the linear system. -/

theorem head_pow {n : ℕ} (hn : 0 < n) {L : List (List ℝ)} (hL : FS n L) {k : ℕ} {p : ℝ}
    (h : ConstPow n L k p) : n * (L.map fun x => x.headD 0 ^ k).sum = L.length * p := by
  have h1 := hL.mom1 h ⟨0, hn⟩
  rw [← h1]
  congr 2
  refine List.map_congr_left fun x hx => ?_
  rw [mono_e1]
  have hl := hL.len x hx
  cases x with
  | nil => simp at hl; omega
  | cons a x => simp [toVec]

/-- The rows of order 4, 6, ... of the system and what they say. -/
theorem row_eq {n : ℕ} (hn : 0 < n) (gs : List SGrp) (k : ℕ) (φ : SGrp → ℝ)
    (hφ : ∀ g ∈ gs, FS n g.L ∧ ConstPow n g.L k (φ g)) :
    n * (List.zipWith (fun wi (p : List (List ℝ)) => wi * (p.map fun x => x.headD 0 ^ k).sum)
      (gs.map SGrp.w) (gs.map SGrp.L)).sum = ssum gs φ := by
  rw [ssum]
  induction gs with
  | nil => simp
  | cons g gs ih =>
    simp only [List.zipWith_cons_cons, List.sum_cons, List.map_cons, mul_add]
    rw [← ih fun g hg => hφ g (List.mem_cons_of_mem _ hg)]
    obtain ⟨h1, h2⟩ := hφ g (List.mem_cons_self ..)
    have := head_pow hn h1 h2
    linear_combination g.w * this

theorem row_zero (gs : List SGrp) :
    (List.zipWith (fun wi (p : List (List ℝ)) => wi * (p.map fun x => x.headD 0 ^ 0).sum)
      (gs.map SGrp.w) (gs.map SGrp.L)).sum = ssum gs fun _ => 1 := by
  rw [ssum]
  induction gs with
  | nil => simp
  | cons g gs ih =>
    simp only [List.zipWith_cons_cons, List.sum_cons, List.map_cons]
    rw [← ih]; simp

/-- The rows of the system, divided by `n`, `n`, ... as far as needed. -/
structure Rows (n : ℕ) (c : ℝ) (ks : List ℕ) (gs : List SGrp) : Prop where
  eq : ∀ k ∈ ks, (List.zipWith (fun wi (p : List (List ℝ)) => wi * (p.map fun x => x.headD 0 ^ k).sum)
      (gs.map SGrp.w) (gs.map SGrp.L)).sum = c * (oddFac (k / 2) / stepFac n (k / 2))

section rows
variable {n : ℕ} {c : ℝ} {ks : List ℕ} {gs : List SGrp}

theorem Rows.c0 (h : Rows n c ks gs) (hk : 0 ∈ ks) : ssum gs (fun _ => 1) = c := by
  rw [← row_zero, h.eq 0 hk]; simp [oddFac, stepFac]

theorem Rows.c2 (h : Rows n c ks gs) (hn : 0 < n) (hok : ∀ g ∈ gs, g.Ok n) (hk : 0 ∈ ks)
    (hk4 : 4 ∈ ks) : ssum gs (fun g => g.z2) = c * (2 * (n - 1) / (n * (n + 2))) := by
  have h1 := row_eq hn gs 4 _ fun g hg => ⟨(hok g hg).fs, (hok g hg).h4⟩
  rw [h.eq 4 hk4, ssum_add, ssum_const, h.c0 hk] at h1
  have hn0 : (n : ℝ) ≠ 0 := by positivity
  rw [← sub_eq_iff_eq_add'.2 h1]
  simp only [oddFac, stepFac]; push_cast; field_simp; ring

theorem Rows.c3 (h : Rows n c ks gs) (hn : 0 < n) (hok : ∀ g ∈ gs, g.Ok n) (hk : 0 ∈ ks)
    (hk4 : 4 ∈ ks) (hk6 : 6 ∈ ks) : ssum gs (fun g => g.z3) =
      c * (8 * (n - 1) * (n - 2) / (n ^ 2 * (n + 2) * (n + 4))) := by
  have h1 := row_eq hn gs 6 _ fun g hg => ⟨(hok g hg).fs, (hok g hg).h6⟩
  rw [h.eq 6 hk6, ssum_add, ssum_add, ssum_mul, ssum_const, h.c0 hk, h.c2 hn hok hk hk4] at h1
  have hn0 : (n : ℝ) ≠ 0 := by positivity
  rw [← sub_eq_iff_eq_add'.2 h1]
  simp only [oddFac, stepFac]; push_cast; field_simp; ring

theorem Rows.c4 (h : Rows n c ks gs) (hn : 0 < n) (hok : ∀ g ∈ gs, g.Ok n) (hk : 0 ∈ ks)
    (hk4 : 4 ∈ ks) (hk6 : 6 ∈ ks) (hk8 : 8 ∈ ks) : ssum gs (fun g => g.z4) =
      c * ((60 * n ^ 3 - 216 * n ^ 2 + 300 * n - 144) / (n ^ 3 * (n + 2) * (n + 4) * (n + 6))) := by
  have h1 := row_eq hn gs 8 _ fun g hg => ⟨(hok g hg).fs, (hok g hg).h8⟩
  rw [h.eq 8 hk8, ssum_add, ssum_add, ssum_add, ssum_mul, ssum_mul, ssum_const, h.c0 hk,
    h.c2 hn hok hk hk4, h.c3 hn hok hk hk4 hk6] at h1
  have hn0 : (n : ℝ) ≠ 0 := by positivity
  rw [← sub_eq_iff_eq_add'.2 h1]
  simp only [oddFac, stepFac]; push_cast; field_simp; ring

theorem Rows.c5 (h : Rows n c ks gs) (hn : 0 < n) (hok : ∀ g ∈ gs, g.Ok n) (hk : 0 ∈ ks)
    (hk4 : 4 ∈ ks) (hk6 : 6 ∈ ks) (hk8 : 8 ∈ ks) (hk10 : 10 ∈ ks) : ssum gs (fun g => g.z5) =
      c * ((544 * n ^ 4 - 2560 * n ^ 3 + 4640 * n ^ 2 - 4160 * n + 1536) /
        (n ^ 4 * (n + 2) * (n + 4) * (n + 6) * (n + 8))) := by
  have h1 := row_eq hn gs 10 _ fun g hg => ⟨(hok g hg).fs, (hok g hg).h10⟩
  rw [h.eq 10 hk10, ssum_add, ssum_add, ssum_add, ssum_add, ssum_mul, ssum_mul, ssum_mul, ssum_const,
    h.c0 hk, h.c2 hn hok hk hk4, h.c3 hn hok hk hk4 hk6, h.c4 hn hok hk hk4 hk6 hk8] at h1
  have hn0 : (n : ℝ) ≠ 0 := by positivity
  rw [← sub_eq_iff_eq_add'.2 h1]
  simp only [oddFac, stepFac]; push_cast; field_simp; ring

end rows

/-- The quadratic equations for the parameters. -/
def RootR (n : ℕ) (ρ : ℝ) : Prop := ((n : ℝ) ^ 2 + 12 * n - 12) * ρ ^ 2 = 12 * (n - 2) * ρ + 12
/-- The quadratic equations for the parameters. -/
def RootV (n : ℕ) (σ : ℝ) : Prop := ((n : ℝ) ^ 2 + 24 * n - 48) * σ ^ 2 = 12 * (n - 4) * σ + 12

theorem vandermonde2 {a b x y : ℝ} (hx : x ≠ 0) (hy : y ≠ 0) (hxy : x ≠ y)
    (h0 : a * x ^ 2 + b * y ^ 2 = 0) (h1 : a * x ^ 3 + b * y ^ 3 = 0) : a = 0 ∧ b = 0 := by
  have e : a * (x ^ 2 * (x - y)) = 0 := by linear_combination h1 - y * h0
  have e' : b * (y ^ 2 * (x - y)) = 0 := by linear_combination x * h0 - h1
  have h := sub_ne_zero.2 hxy
  exact ⟨(mul_eq_zero.1 e).resolve_right (mul_ne_zero (pow_ne_zero 2 hx) h),
    (mul_eq_zero.1 e').resolve_right (mul_ne_zero (pow_ne_zero 2 hy) h)⟩

theorem RootR.ne_zero {n : ℕ} {ρ : ℝ} (h : RootR n ρ) : ρ ≠ 0 := by
  rintro rfl; norm_num [RootR] at h
theorem RootV.ne_zero {n : ℕ} {ρ : ℝ} (h : RootV n ρ) : ρ ≠ 0 := by
  rintro rfl; norm_num [RootV] at h

section cases
variable {n : ℕ} {c w0 w1 w2 w3 w4 ρ1 ρ2 σ1 σ2 : ℝ} {L0 L1 L2 L3 L4 : List (List ℝ)}

/-- The case `n ≥ 5`. -/
theorem sys5 (hn : 5 ≤ n) (r1 : RootR n ρ1) (r2 : RootR n ρ2) (v1 : RootV n σ1) (v2 : RootV n σ2)
    {gs : List SGrp} (hgs : gs = [gT w0 L0, gR n w1 L1 ρ1, gR n w2 L2 ρ2, gV n w3 L3 σ1, gV n w4 L4 σ2])
    (hok : ∀ g ∈ gs, g.Ok n) (h : Rows n c [0, 4, 6, 8, 10] gs) :
    Centred n c gs ∧ Sys n c (w1 * L1.length * ρ1 ^ 2 + w2 * L2.length * ρ2 ^ 2)
      (w1 * L1.length * ρ1 ^ 3 + w2 * L2.length * ρ2 ^ 3)
      (w1 * L1.length * ρ1 ^ 4 + w2 * L2.length * ρ2 ^ 4)
      (w1 * L1.length * ρ1 ^ 5 + w2 * L2.length * ρ2 ^ 5)
      (w3 * L3.length * σ1 ^ 2 + w4 * L4.length * σ2 ^ 2)
      (w3 * L3.length * σ1 ^ 3 + w4 * L4.length * σ2 ^ 3)
      (w3 * L3.length * σ1 ^ 4 + w4 * L4.length * σ2 ^ 4)
      (w3 * L3.length * σ1 ^ 5 + w4 * L4.length * σ2 ^ 5) := by
  have hn0 : 0 < n := by omega
  have hc : Centred n c gs := ⟨h.c0 (by simp), h.c2 hn0 hok (by simp) (by simp),
    h.c3 hn0 hok (by simp) (by simp) (by simp), h.c4 hn0 hok (by simp) (by simp) (by simp) (by simp),
    h.c5 hn0 hok (by simp) (by simp) (by simp) (by simp) (by simp)⟩
  refine ⟨hc, ?_⟩
  obtain ⟨-, c2, c3, c4, c5⟩ := hc
  subst hgs
  simp only [ssum, gT, gR, gV, List.map_cons, List.map_nil, List.sum_cons, List.sum_nil] at c2 c3 c4 c5
  simp only [RootR, RootV] at r1 r2 v1 v2
  constructor
  · rw [← c2]; ring
  · rw [← c3]; ring
  · rw [← c4]; ring
  · rw [← c5]; ring
  · linear_combination w1 * L1.length * ρ1 ^ 2 * r1 + w2 * L2.length * ρ2 ^ 2 * r2
  · linear_combination w1 * L1.length * ρ1 ^ 3 * r1 + w2 * L2.length * ρ2 ^ 3 * r2
  · linear_combination w3 * L3.length * σ1 ^ 2 * v1 + w4 * L4.length * σ2 ^ 2 * v2
  · linear_combination w3 * L3.length * σ1 ^ 3 * v1 + w4 * L4.length * σ2 ^ 3 * v2

theorem mixed5 (hn : 5 ≤ n) (r1 : RootR n ρ1) (r2 : RootR n ρ2) (v1 : RootV n σ1) (v2 : RootV n σ2)
    {gs : List SGrp} (hgs : gs = [gT w0 L0, gR n w1 L1 ρ1, gR n w2 L2 ρ2, gV n w3 L3 σ1, gV n w4 L4 σ2])
    (hok : ∀ g ∈ gs, g.Ok n) (h : Rows n c [0, 4, 6, 8, 10] gs) : Mixed n c gs := by
  obtain ⟨-, hs⟩ := sys5 hn r1 r2 v1 v2 hgs hok h
  obtain ⟨m1, m2⟩ := hs.mixed hn
  subst hgs
  constructor
  · rw [← m1]
    simp only [ssum, gT, gR, gV, List.map_cons, List.map_nil, List.sum_cons, List.sum_nil]
    ring
  · rw [← m2]
    simp only [ssum, gT, gR, gV, List.map_cons, List.map_nil, List.sum_cons, List.sum_nil]
    ring

theorem unique5 (hn : 5 ≤ n) (r1 : RootR n ρ1) (r2 : RootR n ρ2) (hr : ρ1 ≠ ρ2) (v1 : RootV n σ1)
    (v2 : RootV n σ2) (hv : σ1 ≠ σ2) (l0 : (L0.length : ℝ) ≠ 0) (l1 : (L1.length : ℝ) ≠ 0)
    (l2 : (L2.length : ℝ) ≠ 0) (l3 : (L3.length : ℝ) ≠ 0) (l4 : (L4.length : ℝ) ≠ 0)
    {gs : List SGrp} (hgs : gs = [gT w0 L0, gR n w1 L1 ρ1, gR n w2 L2 ρ2, gV n w3 L3 σ1, gV n w4 L4 σ2])
    (hok : ∀ g ∈ gs, g.Ok n) (h : Rows n 0 [0, 4, 6, 8, 10] gs) :
    w0 = 0 ∧ w1 = 0 ∧ w2 = 0 ∧ w3 = 0 ∧ w4 = 0 := by
  obtain ⟨hc, hs⟩ := sys5 hn r1 r2 v1 v2 hgs hok h
  obtain ⟨s0, s1, -, -, t0, t1, -, -⟩ := hs.unique (by exact_mod_cast hn)
  obtain ⟨a, b⟩ := vandermonde2 r1.ne_zero r2.ne_zero hr s0 s1
  obtain ⟨d, e⟩ := vandermonde2 v1.ne_zero v2.ne_zero hv t0 t1
  have h1 := (mul_eq_zero.1 a).resolve_right l1
  have h2 := (mul_eq_zero.1 b).resolve_right l2
  have h3 := (mul_eq_zero.1 d).resolve_right l3
  have h4 := (mul_eq_zero.1 e).resolve_right l4
  refine ⟨?_, h1, h2, h3, h4⟩
  have h0 := hc.c0
  subst hgs
  simp only [ssum, gT, gR, gV, List.map_cons, List.map_nil, List.sum_cons, List.sum_nil, h1, h2, h3,
    h4, zero_mul, add_zero, mul_one] at h0
  exact (mul_eq_zero.1 h0).resolve_right l0

/-- The case `n = 4`. -/
theorem sys4 (hn : n = 4) (r1 : RootR n ρ1) (r2 : RootR n ρ2) (v1 : RootV n σ1)
    {gs : List SGrp} (hgs : gs = [gT w0 L0, gR n w1 L1 ρ1, gR n w2 L2 ρ2, gV n w3 L3 σ1])
    (hok : ∀ g ∈ gs, g.Ok n) (h : Rows n c [0, 4, 6, 8] gs) :
    (Centred n c gs ∧ Mixed n c gs) ∧
      w1 * L1.length * ρ1 ^ 2 + w2 * L2.length * ρ2 ^ 2 = 11 / 45 * c ∧
      w1 * L1.length * ρ1 ^ 3 + w2 * L2.length * ρ2 ^ 3 = c / 6 ∧
      w3 * L3.length * σ1 ^ 2 = c / 15 := by
  have hn0 : 0 < n := by omega
  have c0 := h.c0 (by simp)
  have c2 := h.c2 hn0 hok (by simp) (by simp)
  have c3 := h.c3 hn0 hok (by simp) (by simp) (by simp)
  have c4 := h.c4 hn0 hok (by simp) (by simp) (by simp) (by simp)
  have d2 := c2
  have d3 := c3
  have d4 := c4
  subst hgs
  simp only [ssum, gT, gR, gV, List.map_cons, List.map_nil, List.sum_cons, List.sum_nil, hn] at d2 d3 d4
  simp only [RootR, RootV, hn] at r1 r2 v1
  have s2 : 52 * (w1 * L1.length * ρ1 ^ 4 + w2 * L2.length * ρ2 ^ 4) =
      24 * (w1 * L1.length * ρ1 ^ 3 + w2 * L2.length * ρ2 ^ 3) +
      12 * (w1 * L1.length * ρ1 ^ 2 + w2 * L2.length * ρ2 ^ 2) := by
    push_cast at r1 r2
    linear_combination w1 * L1.length * ρ1 ^ 2 * r1 + w2 * L2.length * ρ2 ^ 2 * r2
  have s3 : 52 * (w1 * L1.length * ρ1 ^ 5 + w2 * L2.length * ρ2 ^ 5) =
      24 * (w1 * L1.length * ρ1 ^ 4 + w2 * L2.length * ρ2 ^ 4) +
      12 * (w1 * L1.length * ρ1 ^ 3 + w2 * L2.length * ρ2 ^ 3) := by
    push_cast at r1 r2
    linear_combination w1 * L1.length * ρ1 ^ 3 * r1 + w2 * L2.length * ρ2 ^ 3 * r2
  have t2 : 64 * (w3 * L3.length * σ1 ^ 4) = 12 * (w3 * L3.length * σ1 ^ 2) := by
    push_cast at v1
    linear_combination w3 * L3.length * σ1 ^ 2 * v1
  norm_num at d2 d3 d4
  refine ⟨⟨⟨c0, c2, c3, c4, ?_⟩, ?_, ?_⟩, ?_, ?_, ?_⟩
  · simp only [ssum, gT, gR, gV, List.map_cons, List.map_nil, List.sum_cons, List.sum_nil, hn]
    norm_num
    linarith
  · simp only [ssum, gT, gR, gV, List.map_cons, List.map_nil, List.sum_cons, List.sum_nil, hn]
    norm_num
    ring_nf at d2 d3 d4 s2 s3 t2 ⊢
    linarith
  · simp only [ssum, gT, gR, gV, List.map_cons, List.map_nil, List.sum_cons, List.sum_nil, hn]
    norm_num
    ring_nf at d2 d3 d4 s2 s3 t2 ⊢
    linarith
  · linarith
  · linarith
  · linarith

/-- The case `n = 3`. -/
theorem sys3 (hn : n = 3) (r1 : RootR n ρ1) (r2 : RootR n ρ2)
    {gs : List SGrp} (hgs : gs = [gT w0 L0, gR n w1 L1 ρ1, gR n w2 L2 ρ2])
    (hok : ∀ g ∈ gs, g.Ok n) (h : Rows n c [0, 4, 6] gs) :
    (Centred n c gs ∧ Mixed n c gs) ∧
      w1 * L1.length * ρ1 ^ 2 + w2 * L2.length * ρ2 ^ 2 = 2 / 5 * c ∧
      w1 * L1.length * ρ1 ^ 3 + w2 * L2.length * ρ2 ^ 3 = 8 / 35 * c := by
  have hn0 : 0 < n := by omega
  have c0 := h.c0 (by simp)
  have c2 := h.c2 hn0 hok (by simp) (by simp)
  have c3 := h.c3 hn0 hok (by simp) (by simp) (by simp)
  have d2 := c2
  have d3 := c3
  subst hgs
  simp only [ssum, gT, gR, List.map_cons, List.map_nil, List.sum_cons, List.sum_nil, hn] at d2 d3
  simp only [RootR, hn] at r1 r2
  have s2 : 33 * (w1 * L1.length * ρ1 ^ 4 + w2 * L2.length * ρ2 ^ 4) =
      12 * (w1 * L1.length * ρ1 ^ 3 + w2 * L2.length * ρ2 ^ 3) +
      12 * (w1 * L1.length * ρ1 ^ 2 + w2 * L2.length * ρ2 ^ 2) := by
    push_cast at r1 r2
    linear_combination w1 * L1.length * ρ1 ^ 2 * r1 + w2 * L2.length * ρ2 ^ 2 * r2
  have s3 : 33 * (w1 * L1.length * ρ1 ^ 5 + w2 * L2.length * ρ2 ^ 5) =
      12 * (w1 * L1.length * ρ1 ^ 4 + w2 * L2.length * ρ2 ^ 4) +
      12 * (w1 * L1.length * ρ1 ^ 3 + w2 * L2.length * ρ2 ^ 3) := by
    push_cast at r1 r2
    linear_combination w1 * L1.length * ρ1 ^ 3 * r1 + w2 * L2.length * ρ2 ^ 3 * r2
  norm_num at d2 d3
  refine ⟨⟨⟨c0, c2, c3, ?_, ?_⟩, ?_, ?_⟩, ?_, ?_⟩
  · simp only [ssum, gT, gR, List.map_cons, List.map_nil, List.sum_cons, List.sum_nil, hn]
    norm_num
    linarith
  · simp only [ssum, gT, gR, List.map_cons, List.map_nil, List.sum_cons, List.sum_nil, hn]
    norm_num
    linarith
  · simp only [ssum, gT, gR, List.map_cons, List.map_nil, List.sum_cons, List.sum_nil, hn]
    norm_num
    ring_nf at d2 d3 s2 s3 ⊢
    linarith
  · simp only [ssum, gT, gR, List.map_cons, List.map_nil, List.sum_cons, List.sum_nil, hn]
    norm_num
    ring_nf at d2 d3 s2 s3 ⊢
    linarith
  · linarith
  · linarith

end cases

/-! The parameters. -/

/-- `ρ = s^2 - r^2`. -/
noncomputable def rho (n : ℕ) (i : ℝ) : ℝ := (6 * (n - 2) + i * 4 * n * √3) / (n ^ 2 + 12 * n - 12)
/-- `σ = v^2 - u^2`. -/
noncomputable def sig (n : ℕ) (i : ℝ) : ℝ := (6 * (n - 4) - i * 4 * n * √3) / (n ^ 2 + 24 * n - 48)

theorem sqrt3_sq : √(3 : ℝ) ^ 2 = 3 := Real.sq_sqrt (by norm_num)
theorem sqrt3_lt : √(3 : ℝ) < 7 / 4 := by
  rw [Real.sqrt_lt' (by norm_num)]; norm_num
theorem lt_sqrt3 : (3 : ℝ) / 2 < √3 := by
  rw [Real.lt_sqrt (by norm_num)]; norm_num

section par
variable {n : ℕ} {i : ℝ}

theorem denN (hn : 3 ≤ n) : (0 : ℝ) < (n : ℝ) ^ 2 + 12 * n - 12 := by
  have : (3 : ℝ) ≤ n := by exact_mod_cast hn
  nlinarith
theorem denK (hn : 3 ≤ n) : (0 : ℝ) < (n : ℝ) ^ 2 + 24 * n - 48 := by
  have : (3 : ℝ) ≤ n := by exact_mod_cast hn
  nlinarith

theorem rootR (hn : 3 ≤ n) (hi : i ^ 2 = 1) : RootR n (rho n i) := by
  have h := (denN hn).ne'
  have e : ((n : ℝ) ^ 2 + 12 * n - 12) * rho n i = 6 * (n - 2) + i * 4 * n * √3 :=
    mul_div_cancel₀ _ h
  apply mul_left_cancel₀ h
  linear_combination (((n : ℝ) ^ 2 + 12 * n - 12) * rho n i + i * 4 * n * √3 - 6 * (n - 2)) * e +
    16 * n ^ 2 * i ^ 2 * sqrt3_sq + 48 * n ^ 2 * hi

theorem rootV (hn : 3 ≤ n) (hi : i ^ 2 = 1) : RootV n (sig n i) := by
  have h := (denK hn).ne'
  have e : ((n : ℝ) ^ 2 + 24 * n - 48) * sig n i = 6 * (n - 4) - i * 4 * n * √3 :=
    mul_div_cancel₀ _ h
  apply mul_left_cancel₀ h
  linear_combination (((n : ℝ) ^ 2 + 24 * n - 48) * sig n i - i * 4 * n * √3 - 6 * (n - 4)) * e +
    16 * n ^ 2 * i ^ 2 * sqrt3_sq + 48 * n ^ 2 * hi

theorem rho_ne (hn : 3 ≤ n) : rho n 1 ≠ rho n (-1) := by
  have h := (denN hn).ne'
  have h3 : (3 : ℝ) ≤ n := by exact_mod_cast hn
  have := lt_sqrt3
  unfold rho
  intro e
  rw [div_left_inj' h] at e
  nlinarith

theorem sig_ne (hn : 3 ≤ n) : sig n 1 ≠ sig n (-1) := by
  have h := (denK hn).ne'
  have h3 : (3 : ℝ) ≤ n := by exact_mod_cast hn
  have := lt_sqrt3
  unfold sig
  intro e
  rw [div_left_inj' h] at e
  nlinarith

/-- The parameters of the code exist, and their squares are as in Stroud's article. -/
theorem param (hn : 3 ≤ n) (hi : i = 1 ∨ i = -1) : ∃ r s u v, stroud1969Param n i = some (r, s, u, v) ∧
    s ^ 2 = 1 / n + (n - 1) / n * rho n i ∧ r ^ 2 = 1 / n - rho n i / n ∧
    v ^ 2 = 1 / n + (n - 2) / n * sig n i ∧ u ^ 2 = 1 / n - 2 * sig n i / n := by
  have hN := denN hn
  have hK := denK hn
  have h3 : (3 : ℝ) ≤ n := by exact_mod_cast hn
  have hn0 : (n : ℝ) ≠ 0 := by linarith
  have hN' : (n : ℝ) * (n + 12) - 12 ≠ 0 := by nlinarith
  have hK' : (n : ℝ) * (n + 24) - 48 ≠ 0 := by nlinarith
  have a := sqrt3_lt
  have b := lt_sqrt3
  have p1 : (0 : ℝ) ≤ (n + 6 - i * 4 * √3) / (n ^ 2 + 12 * n - 12) := by
    apply div_nonneg _ hN.le
    rcases hi with rfl | rfl <;> nlinarith
  have p2 : (0 : ℝ) ≤ (7 * n - 6 + i * 4 * (n - 1) * √3) / (n ^ 2 + 12 * n - 12) := by
    apply div_nonneg _ hN.le
    rcases hi with rfl | rfl <;> nlinarith
  have p3 : (0 : ℝ) ≤ (n + 12 + i * 8 * √3) / (n ^ 2 + 24 * n - 48) := by
    apply div_nonneg _ hK.le
    rcases hi with rfl | rfl <;> nlinarith
  have p4 : (0 : ℝ) ≤ (7 * n - 12 - i * 4 * (n - 2) * √3) / (n ^ 2 + 24 * n - 48) := by
    apply div_nonneg _ hK.le
    rcases hi with rfl | rfl <;> nlinarith
  refine ⟨_, _, _, _, by
    simp only [stroud1969Param, sqrtO_some p1, sqrtO_some p2, sqrtO_some p3, sqrtO_some p4]
    rfl, ?_, ?_, ?_, ?_⟩
  · rw [Real.sq_sqrt p2]; unfold rho; field_simp; ring
  · rw [Real.sq_sqrt p1]; unfold rho; field_simp; ring
  · rw [Real.sq_sqrt p4]; unfold sig; field_simp; ring
  · rw [Real.sq_sqrt p3]; unfold sig; field_simp; ring

end par

/-! The right-hand side and the volume. -/

theorem volume_eq {n : ℕ} (hn : 0 < n) : nsphereVolume n 1 = sphereArea n := by
  rw [C15_sphere_volume hn, one_pow, one_mul, one_eq_mono, sphere_mono' hn]
  have := (radial_symMom hn (fun _ => 1) rfl).zero
  simp only [radMom, one_mul] at this
  rw [this, mul_one]

/-- `ndim.nsphere.integrate_monomial([k, 0, ..., 0])`. -/
theorem monomial_eq {n : ℕ} (hn : 0 < n) (k : ℕ) :
    nsphereMonomial (2 * k :: List.replicate (n - 1) 0) =
      sphereArea n * (oddFac k / stepFac n k) := by
  rw [← sphMom_e1 hn ⟨0, hn⟩ k, ← sphere_mono' hn, sphere_mono hn]
  have e : ∀ a ∈ (2 * k :: List.replicate (n - 1) 0), Even a := by
    intro a ha
    rcases List.mem_cons.1 ha with rfl | ha
    · exact even_two_mul k
    · rw [List.eq_of_mem_replicate ha]; exact Even.zero
  rw [nsphereMonomial, if_pos e, prod_e1 (fun _ k => g1 k) (fun _ => g1_zero)]
  have hs : ∑ i, ((e1 (⟨0, hn⟩ : Fin n) (2 * k) i : ℕ) : ℝ) = ((2 * k : ℕ) : ℝ) := by
    exact_mod_cast sum_e1 (⟨0, hn⟩ : Fin n) (2 * k)
  have hπ : √Real.pi ≠ 0 := (Real.sqrt_pos.2 Real.pi_pos).ne'
  rw [hs, g1, if_pos (even_two_mul k)]
  obtain ⟨m, rfl⟩ : ∃ m, n = m + 1 := ⟨n - 1, by omega⟩
  have hG : Real.Gamma ((((0 : ℕ) : ℝ) + 1) / 2) = √Real.pi := by
    rw [← Real.Gamma_one_half_eq]; norm_num
  have hl : (((2 * k :: List.replicate (m + 1 - 1) 0 : List ℕ).sum : ℝ) +
      ((2 * k :: List.replicate (m + 1 - 1) 0 : List ℕ).length : ℝ)) = ((m + 1 : ℕ) : ℝ) + ((2 * k : ℕ) : ℝ) := by
    simp; ring
  rw [hl]
  simp only [List.map_cons, List.map_replicate, List.prod_cons, List.prod_replicate,
    Nat.add_sub_cancel, hG]
  rw [pow_succ]
  field_simp

/-! Putting it together. -/

theorem zip_groups {w : List ℝ} {pts : List (List (List ℝ))} (gs : List SGrp)
    (hw : w = gs.map SGrp.w) (hp : pts = gs.map SGrp.L) :
    List.zip w pts = gs.map fun g => (g.w, g.L) := by
  subst hw hp
  induction gs with
  | nil => rfl
  | cons g gs ih => simp [ih]

/-- The scheme that the last lines of `stroud_1969` build. -/
theorem exact_of_groups {n : ℕ} (hn : 0 < n) (gs : List SGrp) (hok : ∀ g ∈ gs, g.Ok n)
    (hc : Centred n (sphereArea n) gs) (hm : Mixed n (sphereArea n) gs) {w : List ℝ}
    {pts : List (List (List ℝ))} (hw : w = gs.map SGrp.w) (hp : pts = gs.map SGrp.L) :
    Scheme.ExactOnSphere ⟨n, (untangle (List.zip w pts)).2.map (· / nsphereVolume n 1),
      (untangle (List.zip w pts)).1, 11⟩ n := by
  have hz := zip_groups gs hw hp
  have hA := (sphereArea_pos hn).ne'
  refine ⟨⟨rfl, ?_, ?_⟩, ?_⟩
  · simp only [List.length_map]; exact C04_untangle_length _
  · intro x hx
    simp only [hz, untangle, List.map_map, List.mem_flatten, List.mem_map] at hx
    obtain ⟨l, ⟨g, hg, rfl⟩, hx⟩ := hx
    exact (hok g hg).fs.len x hx
  · apply exactUpTo_of_mono ((dot_linOnMono _ _).const_mul _) sphere_linOnMono
    intro α hα
    beta_reduce
    have := sphere_groups11 gs hok hc hm hn α hα
    have e : (fun x : ℝ => x / nsphereVolume n 1) = fun x => (1 / sphereArea n) * x := by
      funext x; rw [volume_eq hn]; ring
    simp only [e]
    rw [dot_map_weights, C04_untangle_dot, hz, sphere_mono' hn, ← this]
    have hone : Spec.sphere n (fun _ => 1) = sphereArea n := by
      rw [one_eq_mono, sphere_mono' hn]
      have := (radial_symMom hn (fun _ => 1) rfl).zero
      simp only [radMom, one_mul] at this
      rw [this, mul_one]
    rw [hone, ← mul_assoc, mul_one_div_cancel hA, one_mul]
    simp [Function.comp_def, osum]

theorem rows_of_solve {n : ℕ} (hn : 0 < n) {ks : List ℕ} (hk : ∀ k ∈ ks, Even k) (gs : List SGrp)
    {w : List ℝ} {pts : List (List (List ℝ))} (hw : w = gs.map SGrp.w) (hp : pts = gs.map SGrp.L)
    (h : ∀ k ∈ ks, (List.zipWith (fun wi (p : List (List ℝ)) => wi * (p.map fun x => x.headD 0 ^ k).sum)
      w pts).sum = nsphereMonomial (k :: List.replicate (n - 1) 0)) : Rows n (sphereArea n) ks gs := by
  refine ⟨fun k hk' => ?_⟩
  have h1 := h k hk'
  obtain ⟨m, hm⟩ := hk k hk'
  obtain rfl : k = 2 * m := by omega
  rw [hw, hp, monomial_eq hn] at h1
  rw [h1, Nat.mul_div_cancel_left m (by norm_num)]

theorem rows_of_zero {n : ℕ} {ks : List ℕ} (gs : List SGrp)
    {w : List ℝ} {pts : List (List (List ℝ))} (hw : w = gs.map SGrp.w) (hp : pts = gs.map SGrp.L)
    (h : ∀ k ∈ ks, (List.zipWith (fun wi (p : List (List ℝ)) => wi * (p.map fun x => x.headD 0 ^ k).sum)
      w pts).sum = 0) : Rows n 0 ks gs :=
  ⟨fun k hk' => by rw [zero_mul, ← hw, ← hp, h k hk']⟩

theorem fsd2n_len {n : ℕ} {a b : ℝ} {L : List (List ℝ)} (hn : 2 ≤ n)
    (h : fsd n [(a, 2), (b, n - 2)] = some L) : (L.length : ℝ) ≠ 0 := by
  have h1 := fsd_count h
  intro h0
  rw [h0, mul_zero] at h1
  have : (0 : ℝ) < (n.factorial : ℝ) * 2 ^ (([(a, 2), (b, n - 2)] : List (ℝ × ℕ)).map Prod.snd).sum := by
    positivity
  linarith

end St69

open St69 in
/-- Stroud's rule for the sphere: for every `n ≥ 3` the square roots are real, the linear system has a
solution, and the rule has degree 11 although only the powers of one coordinate are imposed. -/
theorem C25_stroud1969 (n : ℕ) (hn : 3 ≤ n) :
    ∃ S, stroud1969 n = some S ∧ S.degree = 11 ∧ S.ExactOnSphere n := by
  have hn0 : 0 < n := by omega
  obtain ⟨r1, s1, u1, v1, hp1, es1, er1, ev1, eu1⟩ := param hn (i := 1) (Or.inl rfl)
  obtain ⟨r2, s2, u2, v2, hp2, es2, er2, ev2, eu2⟩ := param hn (i := -1) (Or.inr rfl)
  obtain ⟨L1, h1⟩ := fsd_some2 (show 1 + (n - 1) ≤ n by omega) s1 r1
  obtain ⟨L2, h2⟩ := fsd_some2 (show 1 + (n - 1) ≤ n by omega) s2 r2
  obtain ⟨L3, h3⟩ := fsd_some2 (show 2 + (n - 2) ≤ n by omega) v1 u1
  obtain ⟨L4, h4⟩ := fsd_some2 (show 2 + (n - 2) ≤ n by omega) v2 u2
  set L0 := pm (List.replicate n (√(1 / (n : ℝ)))) with hL0
  have R1 := rootR hn (i := 1) (by norm_num)
  have R2 := rootR hn (i := -1) (by norm_num)
  have V1 := rootV hn (i := 1) (by norm_num)
  have V2 := rootV hn (i := -1) (by norm_num)
  have o0 : ∀ w, (gT w L0).Ok n := fun w => gT_ok hn w
  have o1 : ∀ w, (gR n w L1 (rho n 1)).Ok n := fun w => gR_ok hn w h1 _ es1 er1
  have o2 : ∀ w, (gR n w L2 (rho n (-1))).Ok n := fun w => gR_ok hn w h2 _ es2 er2
  have o3 : ∀ w, (gV n w L3 (sig n 1)).Ok n := fun w => gV_ok hn w h3 _ ev1 eu1
  have o4 : ∀ w, (gV n w L4 (sig n (-1))).Ok n := fun w => gV_ok hn w h4 _ ev2 eu2
  have hnr : (0 : ℝ) < n := by exact_mod_cast hn0
  have l0 : (L0.length : ℝ) ≠ 0 := by
    have h0 : √(1 / (n : ℝ)) ≠ 0 := by positivity
    rw [hL0, pm_replicate n h0]
    simp [length_orbit_a]
  have l1 : (L1.length : ℝ) ≠ 0 := by rw [fsd1n_len (by omega) h1]; positivity
  have l2 : (L2.length : ℝ) ≠ 0 := by rw [fsd1n_len (by omega) h2]; positivity
  have l3 := fsd2n_len (by omega) h3
  have l4 := fsd2n_len (by omega) h4
  have huni : ∀ (pts : List (List (List ℝ))) (ks : List ℕ), stroud1969Groups n = some (pts, ks) →
      pts.length = ks.length →
      (∀ w : List ℝ, w.length = pts.length → (∀ k ∈ ks, (List.zipWith (fun wi (p : List (List ℝ)) =>
        wi * (p.map fun x => x.headD 0 ^ k).sum) w pts).sum = 0) → ∀ x ∈ w, x = 0) →
      (∀ w : List ℝ, w.length = pts.length → (∀ k ∈ ks, (List.zipWith (fun wi (p : List (List ℝ)) =>
        wi * (p.map fun x => x.headD 0 ^ k).sum) w pts).sum =
          nsphereMonomial (k :: List.replicate (n - 1) 0)) → Scheme.ExactOnSphere
          ⟨n, (untangle (List.zip w pts)).2.map (· / nsphereVolume n 1),
            (untangle (List.zip w pts)).1, 11⟩ n) →
      ∃ S, stroud1969 n = some S ∧ S.degree = 11 ∧ S.ExactOnSphere n := by
    intro pts ks hg hl hu he
    obtain ⟨w, hw, hwl, hws⟩ := linalgSolve_some ks pts
      (fun k (p : List (List ℝ)) => (p.map fun x => x.headD 0 ^ k).sum)
      (fun k => nsphereMonomial (k :: List.replicate (n - 1) 0)) hl hu
    refine ⟨_, ?_, rfl, he w hwl hws⟩
    have : 2 < n := by omega
    simp only [stroud1969, hg, guard, if_pos this, Option.bind_eq_bind, Option.bind_some, hw]
    rfl
  rcases (show n = 3 ∨ n = 4 ∨ 5 ≤ n by omega) with e | e | e
  · have n4 : ¬ 4 ≤ n := by omega
    have n5 : ¬ 5 ≤ n := by omega
    refine huni [L0, L1, L2] [0, 4, 6] (by
      simp only [stroud1969Groups, hp1, hp2, h1, h2, if_neg n4, if_neg n5, Option.bind_eq_bind,
        Option.bind_some, ← hL0]) rfl ?_ ?_
    · intro w hw h
      obtain ⟨w0, w1, w2, rfl⟩ := List.length_eq_three.1 hw
      have ok : ∀ g ∈ [gT w0 L0, gR n w1 L1 (rho n 1), gR n w2 L2 (rho n (-1))], g.Ok n := by
        simpa using ⟨o0 w0, o1 w1, o2 w2⟩
      obtain ⟨⟨hc, -⟩, a, b⟩ := sys3 e R1 R2 rfl ok (rows_of_zero _ rfl rfl h)
      rw [mul_zero] at a b
      obtain ⟨a, b⟩ := vandermonde2 R1.ne_zero R2.ne_zero (rho_ne hn) a b
      have e1 := (mul_eq_zero.1 a).resolve_right l1
      have e2 := (mul_eq_zero.1 b).resolve_right l2
      have e0 := hc.c0
      simp only [ssum, gT, gR, List.map_cons, List.map_nil, List.sum_cons, List.sum_nil, e1, e2,
        zero_mul, add_zero, mul_one] at e0
      have e0 := (mul_eq_zero.1 e0).resolve_right l0
      simp [e0, e1, e2]
    · intro w hw h
      obtain ⟨w0, w1, w2, rfl⟩ := List.length_eq_three.1 hw
      have ok : ∀ g ∈ [gT w0 L0, gR n w1 L1 (rho n 1), gR n w2 L2 (rho n (-1))], g.Ok n := by
        simpa using ⟨o0 w0, o1 w1, o2 w2⟩
      obtain ⟨⟨hc, hm⟩, -⟩ := sys3 e R1 R2 rfl ok (rows_of_solve hn0 (by decide) _ rfl rfl h)
      exact exact_of_groups hn0 _ ok hc hm rfl rfl
  · have n4 : 4 ≤ n := by omega
    have n5 : ¬ 5 ≤ n := by omega
    have l4' : ∀ w : List ℝ, w.length = 4 → ∃ a b c d, w = [a, b, c, d] := fun w h => by
      match w, h with
      | [a, b, c, d], _ => exact ⟨a, b, c, d, rfl⟩
    refine huni [L0, L1, L2, L3] [0, 4, 6, 8] (by
      simp only [stroud1969Groups, hp1, hp2, h1, h2, h3, if_pos n4, if_neg n5, Option.bind_eq_bind,
        Option.bind_some, ← hL0, Option.map_some]; rfl) rfl ?_ ?_
    · intro w hw h
      obtain ⟨w0, w1, w2, w3, rfl⟩ := l4' w hw
      have ok : ∀ g ∈ [gT w0 L0, gR n w1 L1 (rho n 1), gR n w2 L2 (rho n (-1)),
          gV n w3 L3 (sig n 1)], g.Ok n := by
        simpa using ⟨o0 w0, o1 w1, o2 w2, o3 w3⟩
      obtain ⟨⟨hc, -⟩, a, b, d⟩ := sys4 e R1 R2 V1 rfl ok (rows_of_zero _ rfl rfl h)
      rw [mul_zero] at a
      rw [zero_div] at b d
      obtain ⟨a, b⟩ := vandermonde2 R1.ne_zero R2.ne_zero (rho_ne hn) a b
      have e1 := (mul_eq_zero.1 a).resolve_right l1
      have e2 := (mul_eq_zero.1 b).resolve_right l2
      have e3 := (mul_eq_zero.1 ((mul_eq_zero.1 d).resolve_right (pow_ne_zero 2 V1.ne_zero))).resolve_right l3
      have e0 := hc.c0
      simp only [ssum, gT, gR, gV, List.map_cons, List.map_nil, List.sum_cons, List.sum_nil, e1, e2, e3,
        zero_mul, add_zero, mul_one] at e0
      have e0 := (mul_eq_zero.1 e0).resolve_right l0
      simp [e0, e1, e2, e3]
    · intro w hw h
      obtain ⟨w0, w1, w2, w3, rfl⟩ := l4' w hw
      have ok : ∀ g ∈ [gT w0 L0, gR n w1 L1 (rho n 1), gR n w2 L2 (rho n (-1)),
          gV n w3 L3 (sig n 1)], g.Ok n := by
        simpa using ⟨o0 w0, o1 w1, o2 w2, o3 w3⟩
      obtain ⟨⟨hc, hm⟩, -⟩ := sys4 e R1 R2 V1 rfl ok (rows_of_solve hn0 (by decide) _ rfl rfl h)
      exact exact_of_groups hn0 _ ok hc hm rfl rfl
  · have n4 : 4 ≤ n := by omega
    have l5' : ∀ w : List ℝ, w.length = 5 → ∃ a b c d e, w = [a, b, c, d, e] := fun w h => by
      match w, h with
      | [a, b, c, d, e], _ => exact ⟨a, b, c, d, e, rfl⟩
    refine huni [L0, L1, L2, L3, L4] [0, 4, 6, 8, 10] (by
      simp only [stroud1969Groups, hp1, hp2, h1, h2, h3, h4, if_pos n4, if_pos e, Option.bind_eq_bind,
        Option.bind_some, ← hL0, Option.map_some]; rfl) rfl ?_ ?_
    · intro w hw h
      obtain ⟨w0, w1, w2, w3, w4, rfl⟩ := l5' w hw
      have ok : ∀ g ∈ [gT w0 L0, gR n w1 L1 (rho n 1), gR n w2 L2 (rho n (-1)),
          gV n w3 L3 (sig n 1), gV n w4 L4 (sig n (-1))], g.Ok n := by
        simpa using ⟨o0 w0, o1 w1, o2 w2, o3 w3, o4 w4⟩
      obtain ⟨e0, e1, e2, e3, e4⟩ := unique5 e R1 R2 (rho_ne hn) V1 V2 (sig_ne hn) l0 l1 l2 l3 l4 rfl ok
        (rows_of_zero _ rfl rfl h)
      simp [e0, e1, e2, e3, e4]
    · intro w hw h
      obtain ⟨w0, w1, w2, w3, w4, rfl⟩ := l5' w hw
      have ok : ∀ g ∈ [gT w0 L0, gR n w1 L1 (rho n 1), gR n w2 L2 (rho n (-1)),
          gV n w3 L3 (sig n 1), gV n w4 L4 (sig n (-1))], g.Ok n := by
        simpa using ⟨o0 w0, o1 w1, o2 w2, o3 w3, o4 w4⟩
      have hr := rows_of_solve hn0 (ks := [0, 4, 6, 8, 10]) (by decide)
        [gT w0 L0, gR n w1 L1 (rho n 1), gR n w2 L2 (rho n (-1)), gV n w3 L3 (sig n 1),
          gV n w4 L4 (sig n (-1))] rfl rfl h
      exact exact_of_groups hn0 _ ok (sys5 e R1 R2 V1 V2 rfl ok hr).1 (mixed5 e R1 R2 V1 V2 rfl ok hr)
        rfl rfl

/-- A concrete case: the mixed moment `x^4 y^4 z^2` on the sphere of `ℝ^7`. -/
example : ∃ S, stroud1969 7 = some S ∧
    Spec.sphere 7 (fun _ => 1) * dot 7 S.weights S.points (fun x => x 0 ^ 4 * x 1 ^ 4 * x 2 ^ 2) =
      Spec.sphere 7 (fun x => x 0 ^ 4 * x 1 ^ 4 * x 2 ^ 2) := by
  obtain ⟨S, h, hd, hS⟩ := C25_stroud1969 7 (by norm_num)
  refine ⟨S, h, ?_⟩
  have := hS.2 (MvPolynomial.X 0 ^ 4 * MvPolynomial.X 1 ^ 4 * MvPolynomial.X 2 ^ 2)
    ((MvPolynomial.totalDegree_mul _ _).trans (by
      have := MvPolynomial.totalDegree_mul (R := ℝ) (MvPolynomial.X (0 : Fin 7) ^ 4)
        (MvPolynomial.X 1 ^ 4)
      rw [MvPolynomial.totalDegree_X_pow, MvPolynomial.totalDegree_X_pow] at this
      rw [hd, MvPolynomial.totalDegree_X_pow]; omega))
  simpa using this

/-- For `n ≤ 2` the assertion fails. -/
theorem C25_stroud1969_assert (n : ℕ) (hn : n ≤ 2) : stroud1969 n = none := by
  have : ¬ 2 < n := by omega
  simp [stroud1969, guard, this]

theorem plain_expand (n : ℕ) (w : List ℝ) (p : List (List ℝ)) (d : ℕ) (h : w.length = p.length) :
    schemeOfSym n [⟨.plain, w, p⟩] d = ⟨n, w, p, d⟩ := by
  unfold schemeOfSym expandSymmetries
  cases p with
  | nil =>
    obtain rfl : w = [] := List.length_eq_zero_iff.1 h
    simp [entryPoints, entryWeights]
  | cons a p => simp [entryPoints, entryWeights, orbit]

/-- The rule `stroud_u3_11_2` has degree 11. -/
theorem C48_u3_stroud_11_2 : ∃ S, U3.stroudU3_11_2 = some S ∧ S.degree = 11 ∧ S.ExactOnSphere 3 := by
  obtain ⟨S, h, hd, hS⟩ := C25_stroud1969 3 (by norm_num)
  refine ⟨S, ?_, hd, hS⟩
  simp only [U3.stroudU3_11_2, h, Option.bind_eq_bind, Option.bind_some]
  rw [plain_expand _ _ _ _ hS.1.2.1, ← hS.1.1]
  rfl

end Quadpy
