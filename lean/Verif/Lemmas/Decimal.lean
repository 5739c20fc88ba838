import Verif.Spec.Approx
import Verif.Lemmas.FixedSimplex

/-! Rules whose points and weights are decimal numbers: the moments are computed with integers, and the
kernel compares them with the exact ones. -/

namespace Quadpy
open Finset

theorem approxUpTo_of_mono {n d : ℕ} {eps : ℝ} {Q J : Spec.Functional n} (hQ : LinOnMono Q)
    (hJ : LinOnMono J) (h : ∀ α : Fin n → ℕ, ∑ i, α i ≤ d → |Q (mono α) - J (mono α)| ≤ eps) :
    Spec.ApproxUpTo d eps Q J := by
  intro p hp
  have e : (fun x => MvPolynomial.eval x p) =
      fun x => ∑ a ∈ p.support, p.coeff a * mono a x := by
    funext x
    rw [MvPolynomial.eval_eq']
    rfl
  rw [e, hQ, hJ, ← sum_sub_distrib, mul_sum]
  refine (abs_sum_le_sum_abs _ _).trans (sum_le_sum fun a ha => ?_)
  rw [← mul_sub, abs_mul, mul_comm]
  refine mul_le_mul_of_nonneg_right (h a ?_) (abs_nonneg _)
  have := MvPolynomial.le_totalDegree ha
  rw [Finsupp.sum_fintype _ _ (fun _ => rfl)] at this
  exact le_trans this hp

namespace Dec

/-- Powers, with the fast powers of natural numbers. -/
def ipow : ℤ → ℕ → ℤ
  | .ofNat m, a => .ofNat (Nat.pow m a)
  | .negSucc m, a => bif Nat.beq (a % 2) 0 then .ofNat (Nat.pow (m + 1) a)
      else -.ofNat (Nat.pow (m + 1) a)

theorem ipow_eq (x : ℤ) (a : ℕ) : ipow x a = x ^ a := by
  cases x with
  | ofNat m => simp [ipow]
  | negSucc m =>
    have e : ipow (.negSucc m) a = bif Nat.beq (a % 2) 0 then .ofNat (Nat.pow (m + 1) a)
      else -.ofNat (Nat.pow (m + 1) a) := rfl
    rw [e, Int.negSucc_eq]
    rcases Nat.even_or_odd a with h | h
    · rw [Nat.even_iff.1 h, h.neg_pow]
      simp
    · rw [Nat.odd_iff.1 h, h.neg_pow]
      have : Nat.beq 1 0 = false := rfl
      simp [this]

/-- A monomial. -/
def zmono : List ℤ → List ℕ → ℤ
  | x :: xs, a :: as => ipow x a * zmono xs as
  | _, _ => 1

/-- The moment of a rule. -/
def zdot (Z : List (ℤ × List ℤ)) (α : List ℕ) : ℤ :=
  Z.foldr (fun p s => p.1 * zmono p.2 α + s) 0

/-- All exponents of length `n` and sum at most `d`. -/
def exps : ℕ → ℕ → List (List ℕ)
  | 0, _ => [[]]
  | n + 1, d => (List.range (d + 1)).flatMap fun k => (exps n (d - k)).map (k :: ·)

theorem mem_exps : ∀ {n d : ℕ} (α : Fin n → ℕ), ∑ i, α i ≤ d → List.ofFn α ∈ exps n d
  | 0, d, α, _ => by simp [exps]
  | n + 1, d, α, h => by
    rw [Fin.sum_univ_succ] at h
    rw [List.ofFn_succ, exps, List.mem_flatMap]
    refine ⟨α 0, by rw [List.mem_range]; omega, List.mem_map.2 ⟨_, mem_exps _ ?_, rfl⟩⟩
    omega

/-- An integer as a multiple of `1 / D`. -/
noncomputable def rz (D : ℕ) (x : ℤ) : ℝ := (x : ℝ) / D

theorem mono_rz (D : ℕ) : ∀ {n : ℕ} (α : Fin n → ℕ) (x : List ℤ), x.length = n →
    mono α (toVec n (x.map (rz D))) = zmono x (List.ofFn α) / (D : ℝ) ^ ∑ i, α i
  | 0, α, [], _ => by simp [mono, zmono]
  | n + 1, α, a :: x, h => by
    have ih := mono_rz D (fun i => α i.succ) x (by simpa using h)
    have e : ∀ i : Fin n, toVec (n + 1) ((a :: x).map (rz D)) i.succ = toVec n (x.map (rz D)) i := by
      intro i
      simp [toVec]
    have e0 : toVec (n + 1) ((a :: x).map (rz D)) 0 = rz D a := by simp [toVec]
    simp only [mono] at ih ⊢
    rw [Fin.prod_univ_succ, Fin.sum_univ_succ, e0, List.ofFn_succ, zmono, ipow_eq]
    simp only [e]
    rw [ih, rz, div_pow, pow_add]
    push_cast
    rw [div_mul_div_comm]

/-- The moments agree up to `1 / T`, that is `zdot / (Dw D^|α|)` with `mom α = p / q`. -/
def check (n d : ℕ) (mom : List ℕ → ℕ × ℕ) (Dw D T : ℕ) (pre : List ℕ) (Z : List (ℤ × List ℤ)) : Bool :=
  (exps n d).all fun α =>
    Nat.ble (Int.natAbs (zdot Z (pre ++ α) * (mom α).2 - (mom α).1 * (Dw * D ^ α.sum : ℕ)) * T)
      ((mom α).2 * (Dw * D ^ α.sum))

theorem check_sound {n d : ℕ} {mom : List ℕ → ℕ × ℕ} {Dw D T : ℕ} {pre : List ℕ}
    {Z : List (ℤ × List ℤ)} (hDw : 0 < Dw) (hD : 0 < D) (hT : 0 < T)
    (h : check n d mom Dw D T pre Z = true) (α : Fin n → ℕ) (hq : 0 < (mom (List.ofFn α)).2)
    (hα : ∑ i, α i ≤ d) :
    |(zdot Z (pre ++ List.ofFn α) : ℝ) / (Dw * (D : ℝ) ^ ∑ i, α i) -
      ((mom (List.ofFn α)).1 : ℝ) / (mom (List.ofFn α)).2| ≤ 1 / T := by
  have h1 := List.all_eq_true.1 h _ (mem_exps α hα)
  rw [Nat.ble_eq, List.sum_ofFn] at h1
  set q := (mom (List.ofFn α)).2
  set p := (mom (List.ofFn α)).1
  set s := zdot Z (pre ++ List.ofFn α)
  set e := ∑ i, α i
  have hq' : (0 : ℝ) < q := by exact_mod_cast hq
  have hs : (0 : ℝ) < Dw * (D : ℝ) ^ e := by positivity
  have hT' : (0 : ℝ) < T := by exact_mod_cast hT
  have h2 : |(s : ℝ) * q - p * (Dw * (D : ℝ) ^ e)| * T ≤ q * (Dw * (D : ℝ) ^ e) := by
    have h3 : ((Int.natAbs (s * q - p * (Dw * D ^ e : ℕ)) * T : ℕ) : ℝ) ≤
        (q * (Dw * D ^ e) : ℕ) := by exact_mod_cast h1
    push_cast [Nat.cast_natAbs] at h3
    exact h3
  rw [div_sub_div _ _ hs.ne' hq'.ne', abs_div, abs_of_pos (mul_pos hs hq'), div_le_div_iff₀
    (mul_pos hs hq') hT', one_mul]
  rw [show (s : ℝ) * q - Dw * (D : ℝ) ^ e * p = s * q - p * (Dw * (D : ℝ) ^ e) by ring]
  linarith

/-- One entry of a symmetry dictionary with integers. -/
structure ZEntry where
  key : SymKey
  weights : List ℤ
  cols : List (List ℤ)

/-- The entry with decimal numbers. -/
noncomputable def ZEntry.toEntry (Dw D : ℕ) (e : ZEntry) : SymEntry :=
  ⟨e.key, e.weights.map (rz Dw), e.cols.map fun c => c.map (rz D)⟩

/-- Orbits whose coordinates are multiples of `1 / D`. -/
def orbitZ (D : ℤ) (dim : ℕ) : SymKey → List ℤ → List (List ℤ)
  | .zero, _ => [List.replicate dim 0]
  | .d4_aa, [a] => [[a, a], [-a, a], [a, -a], [-a, -a]]
  | .d4_a0, [a] => [[a, 0], [-a, 0], [0, a], [0, -a]]
  | .c4, [a, b] => [[a, b], [-a, -b], [-b, a], [b, -a]]
  | .d4_ab, [s, t] =>
      [[s, t], [-s, t], [s, -t], [-s, -t], [t, s], [-t, s], [t, -s], [-t, -s]]
  | .c2_a0, [r] => [[r, 0], [-r, 0]]
  | .c2_0a, [a] => [[0, a], [0, -a]]
  | .sxy, [x, y] => [[x, y], [x, -y], [-x, y], [-x, -y]]
  | .c2, [x, y] => [[x, y], [-x, -y]]
  | .sx, [x, y] => [[x, y], [-x, y]]
  | .centroid, _ => [[D / 3, D / 3, D / 3]]
  | .vertex, _ => [[D, 0, 0], [0, D, 0], [0, 0, D]]
  | .d3_ab, [a, b] =>
      [[a, b, D - a - b], [D - a - b, a, b], [b, D - a - b, a], [b, a, D - a - b], [D - a - b, b, a],
        [a, D - a - b, b]]
  | .d3_aa, [a] => [[a, a, D - 2 * a], [a, D - 2 * a, a], [D - 2 * a, a, a]]
  | .c3_ab, [a, b] => [[a, b, D - a - b], [D - a - b, a, b], [b, D - a - b, a]]
  | .swap_ab, [a, b] => [[a, b, D - a - b], [b, a, D - a - b]]
  | .s2_static, [a] => [[a, a, D - 2 * a]]
  | .symm_r00, [r] => [[r, 0, 0], [-r, 0, 0], [0, r, 0], [0, -r, 0], [0, 0, r], [0, 0, -r]]
  | .symm_rr0, [a] =>
      [[a, a, 0], [a, 0, a], [0, a, a], [a, -a, 0], [a, 0, -a], [0, a, -a],
       [-a, a, 0], [-a, 0, a], [0, -a, a], [-a, -a, 0], [-a, 0, -a], [0, -a, -a]]
  | .symm_rs0_roll, [r, s] =>
      [[r, s, 0], [r, -s, 0], [-r, s, 0], [-r, -s, 0],
       [0, r, s], [0, r, -s], [0, -r, s], [0, -r, -s],
       [s, 0, r], [s, 0, -r], [-s, 0, r], [-s, 0, -r]]
  | .symm_rrr, [a] =>
      [[a, a, a], [-a, a, a], [a, -a, a], [-a, -a, a],
       [a, a, -a], [-a, a, -a], [a, -a, -a], [-a, -a, -a]]
  | .symm_rrs, [a, b] =>
      [[a, a, b], [a, b, a], [b, a, a], [a, -a, b], [a, b, -a], [b, a, -a],
       [-a, a, b], [-a, b, a], [b, -a, a], [-a, -a, b], [-a, b, -a], [b, -a, -a],
       [a, a, -b], [a, -b, a], [-b, a, a], [a, -a, -b], [a, -b, -a], [-b, a, -a],
       [-a, a, -b], [-a, -b, a], [-b, -a, a], [-a, -a, -b], [-a, -b, -a], [-b, -a, -a]]
  | .plain, c => [c]
  | .s4, _ => [[D / 4, D / 4, D / 4, D / 4]]
  | .s31, [a] =>
      [[a, a, a, D - 3 * a], [a, a, D - 3 * a, a], [a, D - 3 * a, a, a], [D - 3 * a, a, a, a]]
  | .s22, [a] =>
      [[a, a, D / 2 - a, D / 2 - a], [a, D / 2 - a, a, D / 2 - a], [D / 2 - a, a, a, D / 2 - a],
       [a, D / 2 - a, D / 2 - a, a], [D / 2 - a, a, D / 2 - a, a], [D / 2 - a, D / 2 - a, a, a]]
  | .s211, [a, b] =>
      [[a, a, b, D - 2 * a - b], [a, b, a, D - 2 * a - b], [b, a, a, D - 2 * a - b],
       [a, b, D - 2 * a - b, a], [b, a, D - 2 * a - b, a], [b, D - 2 * a - b, a, a],
       [a, a, D - 2 * a - b, b], [a, D - 2 * a - b, a, b], [D - 2 * a - b, a, a, b],
       [a, D - 2 * a - b, b, a], [D - 2 * a - b, a, b, a], [D - 2 * a - b, b, a, a]]
  | _, _ => []

/-- The keys of `orbitZ` with their number of parameters. -/
def zkey : SymKey → ℕ → Bool
  | .zero, 0 | .centroid, 0 | .vertex, 0 | .s4, 0 => true
  | .d4_aa, 1 | .d4_a0, 1 | .c2_a0, 1 | .c2_0a, 1 | .d3_aa, 1 | .s2_static, 1 | .symm_r00, 1
  | .symm_rr0, 1 | .symm_rrr, 1 | .s31, 1 | .s22, 1 => true
  | .c4, 2 | .d4_ab, 2 | .sxy, 2 | .c2, 2 | .sx, 2 | .d3_ab, 2 | .c3_ab, 2 | .swap_ab, 2
  | .symm_rs0_roll, 2 | .symm_rrs, 2 | .s211, 2 => true
  | .plain, _ => true
  | _, _ => false

theorem rz_neg (D : ℕ) (x : ℤ) : rz D (-x) = -rz D x := by simp [rz, neg_div]
theorem rz_zero (D : ℕ) : rz D 0 = 0 := by simp [rz]

theorem rz_sub (D : ℕ) (x y : ℤ) : rz D (x - y) = rz D x - rz D y := by simp [rz, sub_div]
theorem rz_two (D : ℕ) (x : ℤ) : rz D (2 * x) = 2 * rz D x := by simp [rz, mul_div_assoc]
theorem rz_three (D : ℕ) (x : ℤ) : rz D (3 * x) = 3 * rz D x := by simp [rz, mul_div_assoc]
theorem rz_self {D : ℕ} (h : 0 < D) : rz D D = 1 := by
  have : (D : ℝ) ≠ 0 := by exact_mod_cast h.ne'
  simp [rz, this]
theorem rz_div {D : ℕ} (h : 0 < D) (k : ℕ) (hk : 0 < k) (hd : k ∣ D) : rz D ((D : ℤ) / k) = 1 / k := by
  obtain ⟨m, rfl⟩ := hd
  have h1 : (k : ℝ) ≠ 0 := by exact_mod_cast hk.ne'
  have h2 : (m : ℝ) ≠ 0 := by
    rintro h'
    have : m = 0 := by exact_mod_cast h'
    simp [this] at h
  rw [rz, show ((k * m : ℕ) : ℤ) / k = m by
    push_cast; exact Int.mul_ediv_cancel_left _ (by exact_mod_cast hk.ne')]
  push_cast
  field_simp

theorem orbit_rz {D : ℕ} (hD : 0 < D) (h12 : 12 ∣ D) (dim : ℕ) (k : SymKey) (c : List ℤ)
    (hk : zkey k c.length = true) :
    orbit dim k (c.map (rz D)) = (orbitZ D dim k c).map fun x => x.map (rz D) := by
  have e3 : rz D ((D : ℤ) / 3) = 1 / 3 := by
    have := rz_div hD 3 (by norm_num) (Dvd.dvd.trans (by norm_num) h12)
    exact_mod_cast this
  have e4 : rz D ((D : ℤ) / 4) = 1 / 4 := by
    have := rz_div hD 4 (by norm_num) (Dvd.dvd.trans (by norm_num) h12)
    exact_mod_cast this
  have e2 : rz D ((D : ℤ) / 2) = 1 / 2 := by
    have := rz_div hD 2 (by norm_num) (Dvd.dvd.trans (by norm_num) h12)
    exact_mod_cast this
  have e22 : ∀ x : ℝ, (1 - 2 * x) / 2 = 1 / 2 - x := fun x => by ring
  match k, c, hk with
  | .zero, [], _ | .centroid, [], _ | .vertex, [], _ | .s4, [], _
  | .d4_aa, [_], _ | .d4_a0, [_], _ | .c2_a0, [_], _ | .c2_0a, [_], _ | .d3_aa, [_], _
  | .s2_static, [_], _ | .symm_r00, [_], _ | .symm_rr0, [_], _ | .symm_rrr, [_], _ | .s31, [_], _
  | .s22, [_], _ | .c4, [_, _], _ | .d4_ab, [_, _], _ | .sxy, [_, _], _ | .c2, [_, _], _
  | .sx, [_, _], _ | .d3_ab, [_, _], _ | .c3_ab, [_, _], _ | .swap_ab, [_, _], _
  | .symm_rs0_roll, [_, _], _ | .symm_rrs, [_, _], _ | .s211, [_, _], _ =>
    simp only [orbit, orbitZ, List.map_cons, List.map_nil, List.map_replicate, rz_neg, rz_zero, rz_sub,
      rz_two, rz_three, rz_self hD, e2, e3, e4, e22]
  | .plain, c, _ => simp [orbit, orbitZ]

/-- The rule as a list of weights and points. -/
def flatZ (D : ℤ) (dim : ℕ) (Z : List ZEntry) : List (ℤ × List ℤ) :=
  Z.flatMap fun e => (List.zip e.weights e.cols).flatMap fun wc =>
    (orbitZ D dim e.key wc.2).map fun x => (wc.1, x)

theorem accepts_of_zkey {k : SymKey} {c : List ℤ} {D : ℕ} (h : zkey k c.length = true) :
    k.Accepts (c.map (rz D)) := by
  rw [SymKey.Accepts, List.length_map]
  revert h
  generalize c.length = m
  intro h
  match k, m, h with
  | .zero, 0, _ | .centroid, 0, _ | .vertex, 0, _ | .s4, 0, _
  | .d4_aa, 1, _ | .d4_a0, 1, _ | .c2_a0, 1, _ | .c2_0a, 1, _ | .d3_aa, 1, _
  | .s2_static, 1, _ | .symm_r00, 1, _ | .symm_rr0, 1, _ | .symm_rrr, 1, _ | .s31, 1, _
  | .s22, 1, _ | .c4, 2, _ | .d4_ab, 2, _ | .sxy, 2, _ | .c2, 2, _
  | .sx, 2, _ | .d3_ab, 2, _ | .c3_ab, 2, _ | .swap_ab, 2, _
  | .symm_rs0_roll, 2, _ | .symm_rrs, 2, _ | .s211, 2, _ => right; simp [SymKey.arities]
  | .plain, _, _ => exact .inl rfl

/-- Weights and columns correspond, the keys fit, and every point satisfies `P`. -/
def shape (D : ℤ) (dim : ℕ) (P : List ℤ → Bool) (Z : List ZEntry) : Bool :=
  Z.all fun e => Nat.beq e.weights.length e.cols.length &&
    e.cols.all fun c => zkey e.key c.length && (orbitZ D dim e.key c).all P

theorem shape_regular {Dw D dim : ℕ} {P : List ℤ → Bool} {Z : List ZEntry}
    (h : shape D dim P Z = true) : ∀ e ∈ Z.map (ZEntry.toEntry Dw D), e.Regular := by
  intro e he
  obtain ⟨z, hz, rfl⟩ := List.mem_map.1 he
  have h1 := List.all_eq_true.1 h z hz
  rw [Bool.and_eq_true] at h1
  refine ⟨by simpa [ZEntry.toEntry] using Nat.eq_of_beq_eq_true h1.1, fun c hc => ?_⟩
  obtain ⟨c, hc', rfl⟩ := List.mem_map.1 hc
  have h2 := List.all_eq_true.1 h1.2 c hc'
  rw [Bool.and_eq_true] at h2
  exact accepts_of_zkey h2.1

theorem shape_points {Dw D dim : ℕ} (hD : 0 < D) (h12 : 12 ∣ D) {P : List ℤ → Bool} {Z : List ZEntry}
    (h : shape D dim P Z = true) : ∀ e ∈ Z.map (ZEntry.toEntry Dw D), ∀ c ∈ e.cols,
      ∀ x ∈ orbit dim e.key c, ∃ y : List ℤ, x = y.map (rz D) ∧ P y = true := by
  intro e he c hc x hx
  obtain ⟨z, hz, rfl⟩ := List.mem_map.1 he
  obtain ⟨c, hc', rfl⟩ := List.mem_map.1 hc
  have h1 := List.all_eq_true.1 h z hz
  rw [Bool.and_eq_true] at h1
  have h2 := List.all_eq_true.1 h1.2 c hc'
  rw [Bool.and_eq_true] at h2
  have hx' : x ∈ orbit dim z.key (c.map (rz D)) := hx
  rw [orbit_rz hD h12 dim _ _ h2.1] at hx'
  obtain ⟨y, hy, rfl⟩ := List.mem_map.1 hx'
  exact ⟨y, rfl, List.all_eq_true.1 h2.2 y hy⟩

theorem zdot_append (A B : List (ℤ × List ℤ)) (α : List ℕ) :
    zdot (A ++ B) α = zdot A α + zdot B α := by
  induction A with
  | nil => simp [zdot]
  | cons p A ih =>
    simp only [zdot, List.cons_append, List.foldr_cons] at ih ⊢
    rw [ih]
    ring

theorem zdot_orbit (w : ℤ) (L : List (List ℤ)) (α : List ℕ) :
    zdot (L.map fun x => (w, x)) α = w * (L.map fun x => zmono x α).sum := by
  induction L with
  | nil => simp [zdot]
  | cons x L ih =>
    simp only [zdot, List.map_cons, List.foldr_cons, List.sum_cons] at ih ⊢
    rw [ih]
    ring

theorem osum_rz (D : ℕ) {m : ℕ} (α : Fin m → ℕ) (L : List (List ℤ)) (h : ∀ x ∈ L, x.length = m) :
    osum m (L.map fun x => x.map (rz D)) (mono α) =
      ((L.map fun x => zmono x (List.ofFn α)).sum : ℤ) / (D : ℝ) ^ ∑ i, α i := by
  induction L with
  | nil => simp [osum]
  | cons x L ih =>
    have := ih fun y hy => h y (by simp [hy])
    simp only [osum, List.map_cons, List.sum_cons] at this ⊢
    rw [this, mono_rz D α x (h x (by simp))]
    push_cast
    rw [add_div]

theorem symSum_rz {Dw D dim m : ℕ} (hD : 0 < D) (h12 : 12 ∣ D) {P : List ℤ → Bool} {Z : List ZEntry}
    (h : shape D dim P Z = true) (hP : ∀ x, P x = true → x.length = m) (α : Fin m → ℕ) :
    symSum dim m (Z.map (ZEntry.toEntry Dw D)) (mono α) =
      zdot (flatZ D dim Z) (List.ofFn α) / (Dw * (D : ℝ) ^ ∑ i, α i) := by
  induction Z with
  | nil => simp [symSum, flatZ, zdot]
  | cons e Z ih =>
    have h0 := Bool.and_eq_true_iff.1 (show (Nat.beq e.weights.length e.cols.length &&
      e.cols.all fun c => zkey e.key c.length && (orbitZ D dim e.key c).all P) = true from
        List.all_eq_true.1 h e (by simp))
    have h1 := ih (List.all_eq_true.2 fun z hz => List.all_eq_true.1 h z (by simp [hz]))
    have hf : flatZ D dim (e :: Z) = ((List.zip e.weights e.cols).flatMap fun wc =>
      (orbitZ D dim e.key wc.2).map fun x => (wc.1, x)) ++ flatZ D dim Z := by
      simp [flatZ]
    rw [hf, zdot_append]
    simp only [symSum, List.map_cons, List.sum_cons] at h1 ⊢
    rw [h1]
    push_cast
    rw [add_div]
    congr 1
    obtain ⟨k, ws, cs⟩ := e
    have h2 := h0.2
    simp only [ZEntry.toEntry] at h2 ⊢
    clear h0 h1 hf ih h
    induction ws generalizing cs with
    | nil => simp [zdot]
    | cons w ws ihw =>
      cases cs with
      | nil => simp [zdot]
      | cons c cs =>
        rw [List.all_cons, Bool.and_eq_true, Bool.and_eq_true] at h2
        have h3 := ihw cs h2.2
        simp only [List.map_cons, List.zipWith_cons_cons, List.sum_cons, List.zip_cons_cons,
          List.flatMap_cons] at h3 ⊢
        rw [h3, zdot_append, zdot_orbit, orbit_rz hD h12 dim _ _ h2.1.1,
          osum_rz D α _ fun x hx => hP x (List.all_eq_true.1 h2.1.2 x hx), rz]
        push_cast
        rw [add_div, div_mul_div_comm]

/-- The relative moments are the given fractions. -/
structure RatMom {n : ℕ} (J : Spec.Functional n) (mom : List ℕ → ℕ × ℕ) : Prop where
  lin : LinOnMono J
  pos : 0 ≤ J fun _ => 1
  den : ∀ α : Fin n → ℕ, 0 < (mom (List.ofFn α)).2
  mom : ∀ α : Fin n → ℕ, J (Quadpy.mono α) =
    J (fun _ => 1) * ((mom (List.ofFn α)).1 / (mom (List.ofFn α)).2)

theorem approx_sym {n : ℕ} {J : Spec.Functional n} {mom : List ℕ → ℕ × ℕ} (hJ : RatMom J mom)
    {Dw D T deg : ℕ} (hDw : 0 < Dw) (hD : 0 < D) (h12 : 12 ∣ D) (hT : 0 < T) {Z : List ZEntry}
    (hs : shape D n (fun x => Nat.beq x.length n) Z = true)
    (hc : check n deg mom Dw D T [] (flatZ D n Z) = true) :
    (schemeOfSym n (Z.map (ZEntry.toEntry Dw D)) deg).ApproxRel n J (1 / T) := by
  have hr := shape_regular (Dw := Dw) hs
  refine ⟨schemeOfSym_wellShaped n n _ deg hr (fun e he c hc x hx => ?_) rfl, ?_⟩
  · obtain ⟨y, rfl, hy⟩ := shape_points hD h12 hs e he c hc x hx
    simpa using Nat.eq_of_beq_eq_true hy
  · refine approxUpTo_of_mono ((dot_linOnMono _ _).const_mul _) hJ.lin fun α hα => ?_
    have h1 := check_sound hDw hD hT hc α (hJ.den α) hα
    rw [hJ.mom, ← mul_sub, abs_mul, abs_of_nonneg hJ.pos]
    refine mul_le_mul_of_nonneg_left ?_ hJ.pos
    have h2 : dot n (schemeOfSym n (Z.map (ZEntry.toEntry Dw D)) deg).weights
      (schemeOfSym n (Z.map (ZEntry.toEntry Dw D)) deg).points (Quadpy.mono α) =
      symSum n n (Z.map (ZEntry.toEntry Dw D)) (Quadpy.mono α) := expand_dot n n _ hr _
    rw [h2, symSum_rz hD h12 hs (fun x hx => Nat.eq_of_beq_eq_true hx)]
    exact h1

/-- `n! ∏ α! / (n + ∑ α)!` -/
def momSimplex (n : ℕ) (α : List ℕ) : ℕ × ℕ :=
  (n.factorial * (α.map Nat.factorial).prod, (n + α.sum).factorial)

theorem approx_simplex {n : ℕ} {Dw D T deg : ℕ} (hDw : 0 < Dw) (hD : 0 < D) (h12 : 12 ∣ D)
    (hT : 0 < T) {Z : List ZEntry}
    (hs : shape D n (fun x => Nat.beq x.length (n + 1) && decide (x.sum = D)) Z = true)
    (hc : check n deg (momSimplex n) Dw D T [0] (flatZ D n Z) = true) :
    (schemeOfSym n (Z.map (ZEntry.toEntry Dw D)) deg).ApproxOnSimplex n (1 / T) := by
  have hr := shape_regular (Dw := Dw) hs
  have hP : ∀ x : List ℤ, (Nat.beq x.length (n + 1) && decide (x.sum = D)) = true →
      x.length = n + 1 := fun x hx => Nat.eq_of_beq_eq_true (Bool.and_eq_true_iff.1 hx).1
  refine ⟨⟨rfl, expand_length n _ fun e he => (hr e he).1, fun x hx => ?_⟩, ?_⟩
  · obtain ⟨e, he, c, hc, hx⟩ := mem_expand hr hx
    obtain ⟨y, rfl, hy⟩ := shape_points hD h12 hs e he c hc x hx
    refine ⟨by simpa using hP y hy, ?_⟩
    have h1 : y.sum = D := by simpa using (Bool.and_eq_true_iff.1 hy).2
    have h2 : ∀ l : List ℤ, (l.map (rz D)).sum = rz D l.sum := by
      intro l
      induction l with
      | nil => simp [rz]
      | cons a l ih => simp [ih, rz, add_div]
    rw [h2, h1, rz_self hD]
  · have h0 : (0 : ℝ) ≤ 1 / (n.factorial : ℝ) := by positivity
    refine approxUpTo_of_mono ((linOnMono_bary _ _).const_mul _) (simplex_linOnMono n) fun α hα => ?_
    have h1 := check_sound hDw hD hT hc α (Nat.factorial_pos _) hα
    rw [simplex_baryMom, mono_cons_zero, ← mul_sub, abs_mul, abs_of_nonneg h0]
    refine mul_le_mul_of_nonneg_left ?_ h0
    have h2 : dot (n + 1) (schemeOfSym n (Z.map (ZEntry.toEntry Dw D)) deg).weights
      (schemeOfSym n (Z.map (ZEntry.toEntry Dw D)) deg).points
        (Quadpy.mono (Fin.cons 0 α : Fin (n + 1) → ℕ)) =
      symSum n (n + 1) (Z.map (ZEntry.toEntry Dw D)) (Quadpy.mono (Fin.cons 0 α)) :=
        expand_dot n (n + 1) _ hr _
    rw [h2, symSum_rz hD h12 hs hP]
    have e1 : List.ofFn (Fin.cons 0 α : Fin (n + 1) → ℕ) = [0] ++ List.ofFn α := by
      simp [List.ofFn_succ]
    have e2 : ∑ i, (Fin.cons 0 α : Fin (n + 1) → ℕ) i = ∑ i, α i := by simp [Fin.sum_univ_succ]
    have e3 : baryMom (Fin.cons 0 α : Fin (n + 1) → ℕ) =
        ((momSimplex n (List.ofFn α)).1 : ℝ) / (momSimplex n (List.ofFn α)).2 := by
      simp only [baryMom, momSimplex, Fin.prod_univ_succ, Fin.sum_univ_succ, List.sum_ofFn,
        List.map_ofFn, List.prod_ofFn]
      simp
    rw [e1, e2, e3]
    exact h1

/-! Moments of the domains. -/

/-- Whether all exponents are even. -/
def allEven (α : List ℕ) : Bool := α.all fun a => Nat.beq (a % 2) 0

/-- `1 * 3 * ... * (2 p - 1)` -/
def oddFacN : ℕ → ℕ
  | 0 => 1
  | p + 1 => (2 * p + 1) * oddFacN p

/-- `n * (n + 2) * ... * (n + 2 s - 2)` -/
def stepFacN (n : ℕ) : ℕ → ℕ
  | 0 => 1
  | s + 1 => stepFacN n s * (n + 2 * s)

def halves (α : List ℕ) : List ℕ := α.map (· / 2)

def momCube (α : List ℕ) : ℕ × ℕ :=
  bif allEven α then (1, (α.map (· + 1)).prod) else (0, 1)

def momSphere (n : ℕ) (α : List ℕ) : ℕ × ℕ :=
  bif allEven α then (((halves α).map oddFacN).prod, stepFacN n (halves α).sum) else (0, 1)

def momBall (n : ℕ) (α : List ℕ) : ℕ × ℕ :=
  bif allEven α then (n * ((halves α).map oddFacN).prod, (n + α.sum) * stepFacN n (halves α).sum)
  else (0, 1)

def momEnr2 (α : List ℕ) : ℕ × ℕ :=
  bif allEven α then (((halves α).map oddFacN).prod, 2 ^ (halves α).sum) else (0, 1)

def momEnr (n : ℕ) (α : List ℕ) : ℕ × ℕ :=
  bif allEven α then ((n - 1 + α.sum).factorial * ((halves α).map oddFacN).prod,
    (n - 1).factorial * stepFacN n (halves α).sum) else (0, 1)

theorem oddFacN_cast (p : ℕ) : (oddFacN p : ℝ) = oddFac p := by
  induction p with
  | zero => simp [oddFacN, oddFac]
  | succ p ih => simp [oddFacN, oddFac, ih]

theorem stepFacN_cast (n s : ℕ) : (stepFacN n s : ℝ) = stepFac n s := by
  induction s with
  | zero => simp [stepFacN, stepFac]
  | succ p ih => simp [stepFacN, stepFac, ih, mul_comm]

theorem allEven_ofFn {n : ℕ} (α : Fin n → ℕ) :
    (allEven (List.ofFn α) = true ∧ ∃ p : Fin n → ℕ, α = fun i => 2 * p i) ∨
      (allEven (List.ofFn α) = false ∧ ∃ i, Odd (α i)) := by
  by_cases h : ∃ i, Odd (α i)
  · right
    refine ⟨?_, h⟩
    obtain ⟨i, hi⟩ := h
    rw [allEven, List.all_eq_false]
    refine ⟨α i, List.mem_ofFn.2 ⟨i, rfl⟩, ?_⟩
    rw [Nat.odd_iff.1 hi]
    decide
  · left
    push Not at h
    refine ⟨?_, fun i => α i / 2, ?_⟩
    · rw [allEven, List.all_eq_true]
      intro a ha
      obtain ⟨i, rfl⟩ := List.mem_ofFn.1 ha
      rw [Nat.even_iff.1 (Nat.not_odd_iff_even.1 (h i))]
      rfl
    · funext i
      have := Nat.even_iff.1 (Nat.not_odd_iff_even.1 (h i))
      simp only
      omega

theorem ratMom_of_even {n : ℕ} {J : Spec.Functional n} {E : (Fin n → ℕ) → ℝ} (hJ : EvenMom J E)
    (h0 : 0 ≤ J fun _ => 1) {num den : List ℕ → ℕ} (hd : ∀ p : Fin n → ℕ,
      0 < den (List.ofFn fun i => 2 * p i))
    (hE : ∀ p : Fin n → ℕ, E p = (num (List.ofFn fun i => 2 * p i) : ℝ) /
      den (List.ofFn fun i => 2 * p i)) :
    RatMom J fun α => bif allEven α then (num α, den α) else (0, 1) where
  lin := hJ.lin
  pos := h0
  den := fun α => by
    rcases allEven_ofFn α with ⟨h, p, rfl⟩ | ⟨h, hi⟩
    · rw [h]
      exact hd p
    · rw [h]
      exact Nat.one_pos
  mom := fun α => by
    rcases allEven_ofFn α with ⟨h, p, rfl⟩ | ⟨h, hi⟩
    · rw [h, hJ.even, hE]
      rfl
    · rw [h, hJ.odd α hi]
      simp

theorem halves_ofFn {n : ℕ} (p : Fin n → ℕ) : halves (List.ofFn fun i => 2 * p i) = List.ofFn p := by
  simp only [halves, List.map_ofFn]
  congr 1
  funext i
  simp

theorem stepFacN_pos {n : ℕ} (hn : 0 < n) (s : ℕ) : 0 < stepFacN n s := by
  induction s with
  | zero => simp [stepFacN]
  | succ s ih => exact Nat.mul_pos ih (by omega)

theorem cube_nonneg (n : ℕ) : 0 ≤ Spec.cube n fun _ => 1 :=
  MeasureTheory.integral_nonneg fun _ => zero_le_one

theorem sphere_nonneg (n : ℕ) : 0 ≤ Spec.sphere n fun _ => 1 :=
  MeasureTheory.integral_nonneg fun _ => zero_le_one

theorem ball_nonneg (n : ℕ) : 0 ≤ Spec.ball n fun _ => 1 :=
  MeasureTheory.integral_nonneg fun _ => zero_le_one

theorem enr_nonneg (n : ℕ) : 0 ≤ Spec.enr n fun _ => 1 :=
  MeasureTheory.integral_nonneg fun _ => mul_nonneg zero_le_one (Real.exp_pos _).le

theorem enr2_nonneg (n : ℕ) : 0 ≤ Spec.enr2 n fun _ => 1 :=
  MeasureTheory.integral_nonneg fun _ => mul_nonneg zero_le_one (Real.exp_pos _).le

theorem ratMom_cube (n : ℕ) : RatMom (Spec.cube n) momCube := by
  refine ratMom_of_even (cube_even n) (cube_nonneg n) (num := fun _ => 1) (den := fun α => (α.map (· + 1)).prod)
    (fun p => ?_) fun p => ?_
  · simp only [List.map_ofFn, List.prod_ofFn]
    exact prod_pos fun i _ => by simp
  · simp only [List.map_ofFn, List.prod_ofFn]
    simp

theorem ratMom_sphere {n : ℕ} (hn : 0 < n) :
    RatMom (Spec.sphere n) (momSphere n) := by
  refine ratMom_of_even (sphere_even hn) (sphere_nonneg n) (num := fun α => ((halves α).map oddFacN).prod)
    (den := fun α => stepFacN n (halves α).sum) (fun p => stepFacN_pos hn _) fun p => ?_
  simp only [halves_ofFn, List.map_ofFn, List.prod_ofFn, List.sum_ofFn, stepFacN_cast]
  simp [oddFacN_cast]

theorem ratMom_ball {n : ℕ} (hn : 0 < n) :
    RatMom (Spec.ball n) (momBall n) := by
  refine ratMom_of_even (ball_even hn) (ball_nonneg n) (num := fun α => n * ((halves α).map oddFacN).prod)
    (den := fun α => (n + α.sum) * stepFacN n (halves α).sum)
    (fun p => Nat.mul_pos (by omega) (stepFacN_pos hn _)) fun p => ?_
  simp only [halves_ofFn, List.map_ofFn, List.prod_ofFn, List.sum_ofFn, Nat.cast_mul, stepFacN_cast]
  simp [oddFacN_cast, div_mul_div_comm, mul_sum]

theorem ratMom_enr2 (n : ℕ) : RatMom (Spec.enr2 n) momEnr2 := by
  refine ratMom_of_even (enr2_even n) (enr2_nonneg n) (num := fun α => ((halves α).map oddFacN).prod)
    (den := fun α => 2 ^ (halves α).sum) (fun p => by positivity) fun p => ?_
  simp only [halves_ofFn, List.map_ofFn, List.prod_ofFn, List.sum_ofFn]
  simp [oddFacN_cast]

theorem ratMom_enr {n : ℕ} (hn : 0 < n) :
    RatMom (Spec.enr n) (momEnr n) := by
  refine ratMom_of_even (enr_even hn) (enr_nonneg n)
    (num := fun α => (n - 1 + α.sum).factorial * ((halves α).map oddFacN).prod)
    (den := fun α => (n - 1).factorial * stepFacN n (halves α).sum)
    (fun p => Nat.mul_pos (Nat.factorial_pos _) (stepFacN_pos hn _)) fun p => ?_
  simp only [halves_ofFn, List.map_ofFn, List.prod_ofFn, List.sum_ofFn, Nat.cast_mul, stepFacN_cast]
  simp [oddFacN_cast, div_mul_div_comm, mul_sum]

end Dec
end Quadpy
