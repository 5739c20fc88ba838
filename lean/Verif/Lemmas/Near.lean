import Verif.Lemmas.DecimalCheck

/-! Rules close to a rule with rational points and weights. -/

namespace Quadpy
open Finset

namespace Dec

theorem sqrt_near {x a e : ℝ} (h0 : 0 ≤ a - e) (h1 : (a - e) ^ 2 ≤ x) (h2 : x ≤ (a + e) ^ 2) (he : 0 ≤ e) :
    |√x - a| ≤ e := by
  rw [abs_le]
  constructor
  · have := Real.le_sqrt' (x := a - e) (y := x)
    rcases h0.eq_or_lt with h | h
    · have := Real.sqrt_nonneg x
      linarith
    · have := (Real.le_sqrt' h).2 h1
      linarith
  · have := (Real.sqrt_le_left (y := a + e) (by linarith)).2 h2
    linarith

/-- The sum of a rule given as a list of weights and points. -/
noncomputable def fsum (n : ℕ) (L : List (ℝ × List ℝ)) (f : (Fin n → ℝ) → ℝ) : ℝ :=
  (L.map fun p => p.1 * f (toVec n p.2)).sum

/-- Coordinates differ from the multiples of `1 / D` by at most `e`. -/
def NearL (D : ℕ) (e : ℝ) : List ℝ → List ℤ → Prop := List.Forall₂ fun x z => |x - rz D z| ≤ e

/-- Weights differ by at most `ew`, coordinates by at most `e`. -/
def NearF (Dw D : ℕ) (ew e : ℝ) : List (ℝ × List ℝ) → List (ℤ × List ℤ) → Prop :=
  List.Forall₂ fun p z => |p.1 - rz Dw z.1| ≤ ew ∧ NearL D e p.2 z.2

theorem pow_near {x y M e : ℝ} (hM : 1 ≤ M) (hx : |x| ≤ M) (hy : |y| ≤ M) (h : |x - y| ≤ e) (a : ℕ) :
    |x ^ a - y ^ a| ≤ a * M ^ a * e := by
  have he : 0 ≤ e := (abs_nonneg _).trans h
  induction a with
  | zero => simp
  | succ a ih =>
    have h1 : x ^ (a + 1) - y ^ (a + 1) = x * (x ^ a - y ^ a) + (x - y) * y ^ a := by ring
    have h2 : |y ^ a| ≤ M ^ a := by
      rw [abs_pow]
      exact pow_le_pow_left₀ (abs_nonneg _) hy a
    have h3 : M ^ a ≤ M ^ (a + 1) := pow_le_pow_right₀ hM (Nat.le_succ a)
    rw [h1]
    refine (abs_add_le _ _).trans ?_
    rw [abs_mul, abs_mul]
    have h4 : |x| * |x ^ a - y ^ a| ≤ M * (a * M ^ a * e) :=
      mul_le_mul hx ih (abs_nonneg _) (by linarith)
    have h5 : |x - y| * |y ^ a| ≤ e * M ^ (a + 1) :=
      mul_le_mul h (h2.trans h3) (abs_nonneg _) he
    push_cast
    calc _ ≤ M * (a * M ^ a * e) + e * M ^ (a + 1) := add_le_add h4 h5
      _ = _ := by ring

theorem mono_bound {M : ℝ} : ∀ {n : ℕ} (α : Fin n → ℕ) (y : List ℝ),
    y.length = n → (∀ z ∈ y, |z| ≤ M) → |mono α (toVec n y)| ≤ M ^ ∑ i, α i
  | 0, α, [], _, _ => by simp [mono]
  | n + 1, α, a :: y, h, hM => by
    have ih := mono_bound (M := M) (fun i => α i.succ) y (by simpa using h)
      fun z hz => hM z (by simp [hz])
    have e : ∀ i : Fin n, toVec (n + 1) (a :: y) i.succ = toVec n y i := by
      intro i
      simp [toVec]
    have e0 : toVec (n + 1) (a :: y) 0 = a := by simp [toVec]
    simp only [mono] at ih ⊢
    rw [Fin.prod_univ_succ, Fin.sum_univ_succ, e0]
    simp only [e]
    rw [abs_mul, abs_pow, pow_add]
    have h0 := hM a (by simp)
    exact mul_le_mul (pow_le_pow_left₀ (abs_nonneg _) h0 _) ih (abs_nonneg _)
      (pow_nonneg ((abs_nonneg _).trans h0) _)

theorem mono_near {M e : ℝ} (hM : 1 ≤ M) : ∀ {n : ℕ} (α : Fin n → ℕ) (x y : List ℝ),
    y.length = n → (∀ z ∈ x, |z| ≤ M) → (∀ z ∈ y, |z| ≤ M) →
    List.Forall₂ (fun x y => |x - y| ≤ e) x y → 0 ≤ e →
    |mono α (toVec n x) - mono α (toVec n y)| ≤ (∑ i, α i : ℕ) * M ^ (∑ i, α i) * e
  | 0, α, [], [], _, _, _, _, _ => by simp [mono]
  | 0, _, _ :: _, [], _, _, _, h, _ => by cases h
  | _ + 1, _, _, [], h, _, _, _, _ => by simp at h
  | n + 1, α, b :: x, a :: y, h, hx, hy, hn, he => by
    obtain ⟨h0, hn'⟩ := List.forall₂_cons.1 hn
    have ih := mono_near hM (fun i => α i.succ) x y (by simpa using h)
      (fun z hz' => hx z (by simp [hz'])) (fun z hz' => hy z (by simp [hz'])) hn' he
    have ey : ∀ i : Fin n, toVec (n + 1) (a :: y) i.succ = toVec n y i := by
      intro i
      simp [toVec]
    have e0 : toVec (n + 1) (a :: y) 0 = a := by simp [toVec]
    have ex : ∀ i : Fin n, toVec (n + 1) (b :: x) i.succ = toVec n x i := by
      intro i
      simp [toVec]
    have ex0 : toVec (n + 1) (b :: x) 0 = b := by simp [toVec]
    have hb := mono_bound (M := M) (fun i => α i.succ) y (by simpa using h)
      fun z hz' => hy z (by simp [hz'])
    have ha1 : |a| ≤ M := hy a (by simp)
    have hb1 : |b| ≤ M := hx b (by simp)
    simp only [mono] at ih hb ⊢
    rw [Fin.prod_univ_succ, Fin.prod_univ_succ, Fin.sum_univ_succ, e0, ex0]
    simp only [ey, ex]
    generalize ∏ i : Fin n, toVec n x i ^ α i.succ = X at ih
    generalize ∏ i : Fin n, toVec n y i ^ α i.succ = Y at ih hb
    generalize ∑ i : Fin n, α i.succ = s at ih hb
    have h1 : b ^ α 0 * X - a ^ α 0 * Y = b ^ α 0 * (X - Y) + (b ^ α 0 - a ^ α 0) * Y := by ring
    rw [h1]
    refine (abs_add_le _ _).trans ?_
    rw [abs_mul, abs_mul, abs_pow]
    have hMp : 0 ≤ M := by linarith
    have h2 : |b| ^ α 0 * |X - Y| ≤ M ^ α 0 * (s * M ^ s * e) :=
      mul_le_mul (pow_le_pow_left₀ (abs_nonneg _) hb1 _) ih (abs_nonneg _) (pow_nonneg hMp _)
    have h3 : |b ^ α 0 - a ^ α 0| * |Y| ≤ (α 0 * M ^ α 0 * e) * M ^ s :=
      mul_le_mul (pow_near hM hb1 ha1 h0 _) hb (abs_nonneg _) (by positivity)
    push_cast
    calc _ ≤ M ^ α 0 * (s * M ^ s * e) + (α 0 * M ^ α 0 * e) * M ^ s := add_le_add h2 h3
      _ = _ := by ring

theorem nearL_bound {D : ℕ} {e B M : ℝ} (hB : B + e ≤ M) : ∀ {x : List ℝ} {y : List ℤ}, NearL D e x y →
    (∀ z ∈ y, |rz D z| ≤ B) → (∀ z ∈ x, |z| ≤ M)
  | _, _, .nil, _ => by simp
  | b :: x, a :: y, .cons h hs, hy => by
    have ih := nearL_bound hB hs fun z hz => hy z (by simp [hz])
    intro z hz
    rcases List.mem_cons.1 hz with rfl | hz
    · have h1 : |z| ≤ |z - rz D a| + |rz D a| := by
        calc |z| = |(z - rz D a) + rz D a| := by rw [sub_add_cancel]
          _ ≤ _ := abs_add_le _ _
      linarith [hy a (by simp)]
    · exact ih z hz

theorem nearL_map {D : ℕ} {e : ℝ} : ∀ {x : List ℝ} {y : List ℤ}, NearL D e x y →
    List.Forall₂ (fun x y => |x - y| ≤ e) x (y.map (rz D))
  | _, _, .nil => .nil
  | _, _, .cons h hs => .cons h (nearL_map hs)

/-- The sum of the absolute values of the weights. -/
def wsum (Z : List (ℤ × List ℤ)) : ℕ := Z.foldr (fun p s => p.1.natAbs + s) 0

theorem fsum_near {Dw D n : ℕ} {B M ew e : ℝ} (hM : 1 ≤ M) (hB : B + e ≤ M) (hew : 0 ≤ ew) (he : 0 ≤ e)
    (α : Fin n → ℕ) :
    ∀ {L : List (ℝ × List ℝ)} {Z : List (ℤ × List ℤ)}, NearF Dw D ew e L Z →
    (∀ p ∈ Z, p.2.length = n ∧ ∀ z ∈ p.2, |rz D z| ≤ B) →
    |fsum n L (mono α) - zdot Z (List.ofFn α) / (Dw * (D : ℝ) ^ ∑ i, α i)| ≤
      (Z.length * ew + wsum Z / Dw * ((∑ i, α i : ℕ) * e)) * M ^ ∑ i, α i
  | _, _, .nil, _ => by simp [fsum, zdot, wsum]
  | p :: L, q :: Z, .cons h hs, hZ => by
    have ih := fsum_near hM hB hew he α hs fun r hr => hZ r (by simp [hr])
    obtain ⟨hl, hz⟩ := hZ q (by simp)
    have hx := nearL_bound hB h.2 hz
    have hy : ∀ z ∈ q.2.map (rz D), |z| ≤ M := by
      intro z hz'
      obtain ⟨z', hz2, rfl⟩ := List.mem_map.1 hz'
      linarith [hz z' hz2]
    have hlx : p.2.length = n := by rw [← hl]; exact h.2.length_eq
    have h1 := mono_near hM α p.2 (q.2.map (rz D)) (by simpa using hl) hx hy (nearL_map h.2) he
    have h2 := mono_bound α p.2 hlx hx
    have h3 := mono_rz D α q.2 hl
    have e1 : fsum n (p :: L) (mono α) = p.1 * mono α (toVec n p.2) + fsum n L (mono α) := by
      simp [fsum]
    have e2 : (zdot (q :: Z) (List.ofFn α) : ℝ) / (Dw * (D : ℝ) ^ ∑ i, α i) =
        rz Dw q.1 * mono α (toVec n (q.2.map (rz D))) +
          zdot Z (List.ofFn α) / (Dw * (D : ℝ) ^ ∑ i, α i) := by
      have : zdot (q :: Z) (List.ofFn α) = q.1 * zmono q.2 (List.ofFn α) + zdot Z (List.ofFn α) := rfl
      rw [this, h3, rz]
      push_cast
      rw [add_div, div_mul_div_comm]
    have e3 : (wsum (q :: Z) : ℝ) / Dw = |rz Dw q.1| + wsum Z / Dw := by
      have : wsum (q :: Z) = q.1.natAbs + wsum Z := rfl
      rw [this, rz, abs_div, abs_of_nonneg (Nat.cast_nonneg (α := ℝ) Dw)]
      push_cast
      rw [Nat.cast_natAbs, add_div]
      push_cast
      rfl
    rw [e1, e2, e3, List.length_cons]
    generalize mono α (toVec n p.2) = X at h1 h2
    generalize mono α (toVec n (q.2.map (rz D))) = Y at h1
    generalize fsum n L (mono α) = F at ih
    generalize (zdot Z (List.ofFn α) : ℝ) / (Dw * (D : ℝ) ^ ∑ i, α i) = G at ih
    generalize ∑ i, α i = s at ih h1 h2
    have h4 : p.1 * X + F - (rz Dw q.1 * Y + G) =
        ((p.1 - rz Dw q.1) * X + rz Dw q.1 * (X - Y)) + (F - G) := by ring
    rw [h4]
    refine (abs_add_le _ _).trans ?_
    have h5 : |(p.1 - rz Dw q.1) * X + rz Dw q.1 * (X - Y)| ≤
        ew * M ^ s + |rz Dw q.1| * (s * M ^ s * e) := by
      refine (abs_add_le _ _).trans ?_
      rw [abs_mul, abs_mul]
      exact add_le_add (mul_le_mul h.1 h2 (abs_nonneg _) hew)
        (mul_le_mul_of_nonneg_left h1 (abs_nonneg _))
    push_cast
    calc _ ≤ _ := add_le_add h5 ih
      _ = _ := by ring

/-- The rule as a list of weights and points. -/
noncomputable def flatS (dim : ℕ) (d : List SymEntry) : List (ℝ × List ℝ) :=
  d.flatMap fun e => (List.zip e.weights e.cols).flatMap fun wc =>
    (orbit dim e.key wc.2).map fun x => (wc.1, x)

theorem fsum_append (n : ℕ) (A B : List (ℝ × List ℝ)) (f : (Fin n → ℝ) → ℝ) :
    fsum n (A ++ B) f = fsum n A f + fsum n B f := by
  simp [fsum]

theorem fsum_orbit (n : ℕ) (w : ℝ) (L : List (List ℝ)) (f : (Fin n → ℝ) → ℝ) :
    fsum n (L.map fun x => (w, x)) f = w * osum n L f := by
  simp only [fsum, osum, List.map_map, Function.comp_def]
  rw [List.sum_map_mul_left]

theorem symSum_flat (dim m : ℕ) (d : List SymEntry) (f : (Fin m → ℝ) → ℝ) :
    symSum dim m d f = fsum m (flatS dim d) f := by
  induction d with
  | nil => simp [symSum, flatS, fsum]
  | cons e d ih =>
    have h1 : flatS dim (e :: d) = ((List.zip e.weights e.cols).flatMap fun wc =>
      (orbit dim e.key wc.2).map fun x => (wc.1, x)) ++ flatS dim d := rfl
    have h2 : symSum dim m (e :: d) f = (List.zipWith (fun w c => w * osum m (orbit dim e.key c) f)
      e.weights e.cols).sum + symSum dim m d f := by simp [symSum]
    rw [h1, h2, fsum_append, ih]
    congr 1
    generalize e.weights = ws
    generalize e.cols = cs
    induction ws generalizing cs with
    | nil => simp [fsum]
    | cons w ws ihw =>
      cases cs with
      | nil => simp [fsum]
      | cons c cs =>
        rw [List.zipWith_cons_cons, List.sum_cons, List.zip_cons_cons, List.flatMap_cons, fsum_append,
          fsum_orbit, ihw]

/-- An entry close to an entry with integers. -/
def NearE (Dw D : ℕ) (ew e : ℝ) (E : SymEntry) (z : ZEntry) : Prop :=
  E.key = z.key ∧ List.Forall₂ (fun w v => |w - rz Dw v| ≤ ew) E.weights z.weights ∧
    List.Forall₂ (NearL D e) E.cols z.cols

section
variable {D : ℕ} {e a b : ℝ} {x y : ℤ}

theorem near_zero (he : 0 ≤ 3 * e) : |0 - rz D 0| ≤ 3 * e := by simpa [rz_zero] using he

theorem near_pos (h : |a - rz D x| ≤ e) : |a - rz D x| ≤ 3 * e := by
  linarith [abs_nonneg (a - rz D x)]

theorem near_neg (h : |a - rz D x| ≤ e) : |-a - rz D (-x)| ≤ 3 * e := by
  rw [rz_neg, show -a - -rz D x = -(a - rz D x) by ring, abs_neg]
  exact near_pos h

theorem near_one_sub_two (hD : 0 < D) (h : |a - rz D x| ≤ e) : |1 - 2 * a - rz D (D - 2 * x)| ≤ 3 * e := by
  rw [rz_sub, rz_two, rz_self hD]
  rw [abs_le] at h ⊢
  constructor <;> linarith

theorem near_one_sub_three (hD : 0 < D) (h : |a - rz D x| ≤ e) :
    |1 - 3 * a - rz D (D - 3 * x)| ≤ 3 * e := by
  rw [rz_sub, rz_three, rz_self hD]
  rw [abs_le] at h ⊢
  constructor <;> linarith

theorem near_half_sub (hD : rz D ((D : ℤ) / 2) = 1 / 2) (h : |a - rz D x| ≤ e) :
    |(1 - 2 * a) / 2 - rz D ((D : ℤ) / 2 - x)| ≤ 3 * e := by
  rw [rz_sub, hD]
  rw [abs_le] at h ⊢
  constructor <;> linarith

theorem near_one_sub_sub (hD : 0 < D) (h : |a - rz D x| ≤ e) (h' : |b - rz D y| ≤ e) :
    |1 - a - b - rz D (D - x - y)| ≤ 3 * e := by
  rw [rz_sub, rz_sub, rz_self hD]
  rw [abs_le] at h h' ⊢
  constructor <;> linarith

theorem near_one_sub_two_sub (hD : 0 < D) (h : |a - rz D x| ≤ e) (h' : |b - rz D y| ≤ e) :
    |1 - 2 * a - b - rz D (D - 2 * x - y)| ≤ 3 * e := by
  rw [rz_sub, rz_sub, rz_two, rz_self hD]
  rw [abs_le] at h h' ⊢
  constructor <;> linarith

end

/-- The orbits are Lipschitz functions of the parameters. -/
theorem orbit_near {D : ℕ} (hD : 0 < D) (h12 : 12 ∣ D) {e : ℝ} (he : 0 ≤ e) (dim : ℕ) (k : SymKey)
    {c : List ℝ} {z : List ℤ} (hk : zkey k z.length = true) (h : NearL D e c z) :
    List.Forall₂ (NearL D (3 * e)) (orbit dim k c) (orbitZ D dim k z) := by
  have e3 : rz D ((D : ℤ) / 3) = 1 / 3 := by
    have := rz_div hD 3 (by norm_num) (Dvd.dvd.trans (by norm_num) h12)
    exact_mod_cast this
  have e4 : rz D ((D : ℤ) / 4) = 1 / 4 := by
    have := rz_div hD 4 (by norm_num) (Dvd.dvd.trans (by norm_num) h12)
    exact_mod_cast this
  have e2 : rz D ((D : ℤ) / 2) = 1 / 2 := by
    have := rz_div hD 2 (by norm_num) (Dvd.dvd.trans (by norm_num) h12)
    exact_mod_cast this
  have e0 : (0 : ℝ) ≤ 3 * e := by linarith
  match k, c, z, hk, h with
  | .zero, _, [], _, .nil =>
    refine List.forall₂_cons.2 ⟨?_, .nil⟩
    induction dim with
    | zero => exact .nil
    | succ n ih => exact .cons (by simpa [rz] using e0) ih
  | .centroid, _, [], _, .nil | .vertex, _, [], _, .nil | .s4, _, [], _, .nil =>
    simp [orbit, orbitZ, NearL, e3, e4, rz_zero, rz_self hD, he]
  | .d4_aa, _, [_], _, .cons h .nil | .d4_a0, _, [_], _, .cons h .nil | .c2_a0, _, [_], _, .cons h .nil
  | .c2_0a, _, [_], _, .cons h .nil | .d3_aa, _, [_], _, .cons h .nil | .s2_static, _, [_], _, .cons h .nil
  | .symm_r00, _, [_], _, .cons h .nil | .symm_rr0, _, [_], _, .cons h .nil
  | .symm_rrr, _, [_], _, .cons h .nil | .s31, _, [_], _, .cons h .nil | .s22, _, [_], _, .cons h .nil =>
    have p0 := near_zero (D := D) e0
    have p1 := near_pos h
    have p2 := near_neg h
    have p3 := near_one_sub_two hD h
    have p4 := near_one_sub_three hD h
    have p5 := near_half_sub e2 h
    simp only [orbit, orbitZ, NearL, List.forall₂_cons, List.forall₂_nil_left_iff, and_true, p0, p1, p2,
      p3, p4, p5]
  | .c4, _, [_, _], _, .cons h (.cons h' .nil) | .d4_ab, _, [_, _], _, .cons h (.cons h' .nil)
  | .sxy, _, [_, _], _, .cons h (.cons h' .nil) | .c2, _, [_, _], _, .cons h (.cons h' .nil)
  | .sx, _, [_, _], _, .cons h (.cons h' .nil) | .d3_ab, _, [_, _], _, .cons h (.cons h' .nil)
  | .c3_ab, _, [_, _], _, .cons h (.cons h' .nil) | .swap_ab, _, [_, _], _, .cons h (.cons h' .nil)
  | .symm_rs0_roll, _, [_, _], _, .cons h (.cons h' .nil)
  | .symm_rrs, _, [_, _], _, .cons h (.cons h' .nil) | .s211, _, [_, _], _, .cons h (.cons h' .nil) =>
    have p0 := near_zero (D := D) e0
    have p1 := near_pos h
    have p2 := near_neg h
    have q1 := near_pos h'
    have q2 := near_neg h'
    have p3 := near_one_sub_sub hD h h'
    have p4 := near_one_sub_two_sub hD h h'
    simp only [orbit, orbitZ, NearL, List.forall₂_cons, List.forall₂_nil_left_iff, and_true, p0, p1, p2,
      q1, q2, p3, p4]
  | .plain, c, z, _, h =>
    refine List.forall₂_cons.2 ⟨List.Forall₂.imp (fun x y hxy => ?_) h, .nil⟩
    linarith

theorem forall₂_flatMap {α β γ δ : Type*} {R : α → β → Prop} {Q : γ → δ → Prop} {f : α → List γ}
    {g : β → List δ} : ∀ {l : List α} {m : List β}, List.Forall₂ R l m →
    (∀ a b, a ∈ l → b ∈ m → R a b → List.Forall₂ Q (f a) (g b)) →
    List.Forall₂ Q (l.flatMap f) (m.flatMap g)
  | _, _, .nil, _ => .nil
  | a :: l, b :: m, .cons h hs, H => by
    rw [List.flatMap_cons, List.flatMap_cons]
    exact List.rel_append (H a b (by simp) (by simp) h)
      (forall₂_flatMap hs fun a' b' ha hb => H a' b' (by simp [ha]) (by simp [hb]))

theorem forall₂_mem {α β : Type*} {R : α → β → Prop} {l : List α} {m : List β} (h : List.Forall₂ R l m)
    {a : α} (ha : a ∈ l) : ∃ b ∈ m, R a b := by
  induction h with
  | nil => simp at ha
  | cons h _ ih =>
    rcases List.mem_cons.1 ha with rfl | ha
    · exact ⟨_, by simp, h⟩
    · obtain ⟨z, hz, h'⟩ := ih ha
      exact ⟨z, by simp [hz], h'⟩

theorem forall₂_zip {α β γ δ : Type*} {R : α → β → Prop} {Q : γ → δ → Prop} :
    ∀ {l : List α} {m : List β} {l' : List γ} {m' : List δ}, List.Forall₂ R l m → List.Forall₂ Q l' m' →
    List.Forall₂ (fun (p : α × γ) (q : β × δ) => R p.1 q.1 ∧ Q p.2 q.2) (l.zip l') (m.zip m')
  | _, _, _, _, .nil, _ => by simp
  | _, _, _, _, .cons _ _, .nil => by simp
  | _, _, _, _, .cons h hs, .cons h' hs' => .cons ⟨h, h'⟩ (forall₂_zip hs hs')

theorem nearF_flat {Dw D dim : ℕ} (hD : 0 < D) (h12 : 12 ∣ D) {ew e : ℝ} (he : 0 ≤ e)
    {P : List ℤ → Bool} {d : List SymEntry} {Z : List ZEntry} (hs : shape D dim P Z = true)
    (h : List.Forall₂ (NearE Dw D ew e) d Z) : NearF Dw D ew (3 * e) (flatS dim d) (flatZ D dim Z) := by
  refine forall₂_flatMap h fun E z _ hz hE => ?_
  have h1 := Bool.and_eq_true_iff.1 (List.all_eq_true.1 hs z hz)
  refine forall₂_flatMap (forall₂_zip hE.2.1 hE.2.2) fun p q _ hq hpq => ?_
  have h2 := Bool.and_eq_true_iff.1 (List.all_eq_true.1 h1.2 q.2 (List.of_mem_zip hq).2)
  rw [List.forall₂_map_left_iff, List.forall₂_map_right_iff]
  have h3 := orbit_near hD h12 he dim z.key h2.1 hpq.2
  rw [← hE.1] at h3 ⊢
  exact h3.imp fun x y hxy => ⟨hpq.1, hxy⟩

theorem near_regular {Dw D dim : ℕ} {ew e : ℝ} {P : List ℤ → Bool} {d : List SymEntry} {Z : List ZEntry}
    (hs : shape D dim P Z = true) (h : List.Forall₂ (NearE Dw D ew e) d Z) : ∀ E ∈ d, E.Regular := by
  intro E hE
  obtain ⟨z, hz, hEz⟩ : ∃ z ∈ Z, NearE Dw D ew e E z := forall₂_mem h hE
  have h1 := shape_regular (Dw := Dw) hs _ (List.mem_map.2 ⟨z, hz, rfl⟩)
  have h2 : z.weights.length = z.cols.length := by simpa [ZEntry.toEntry] using h1.1
  refine ⟨by rw [hEz.2.1.length_eq, hEz.2.2.length_eq, h2], fun c hc => ?_⟩
  obtain ⟨c', hc', hcc⟩ : ∃ c' ∈ z.cols, NearL D e c c' := forall₂_mem hEz.2.2 hc
  have h3 := h1.2 _ (List.mem_map.2 ⟨c', hc', rfl⟩)
  simp only [ZEntry.toEntry, SymKey.Accepts, List.length_map] at h3
  rw [hEz.1, SymKey.Accepts, hcc.length_eq]
  exact h3

theorem near_points {Dw D dim m : ℕ} (hD : 0 < D) (h12 : 12 ∣ D) {ew e : ℝ} (he : 0 ≤ e)
    {d : List SymEntry} {Z : List ZEntry}
    (hs : shape D dim (fun x => Nat.beq x.length m) Z = true) (h : List.Forall₂ (NearE Dw D ew e) d Z) :
    ∀ E ∈ d, ∀ c ∈ E.cols, ∀ x ∈ orbit dim E.key c, x.length = m := by
  intro E hE c hc x hx
  obtain ⟨z, hz, hEz⟩ : ∃ z ∈ Z, NearE Dw D ew e E z := forall₂_mem h hE
  obtain ⟨c', hc', hcc⟩ : ∃ c' ∈ z.cols, NearL D e c c' := forall₂_mem hEz.2.2 hc
  have h1 := Bool.and_eq_true_iff.1 (List.all_eq_true.1 hs z hz)
  have h2 := Bool.and_eq_true_iff.1 (List.all_eq_true.1 h1.2 c' hc')
  have h3 := orbit_near hD h12 he dim z.key h2.1 hcc
  rw [hEz.1] at hx
  obtain ⟨y, hy, hxy⟩ := forall₂_mem h3 hx
  rw [hxy.length_eq]
  exact Nat.eq_of_beq_eq_true (List.all_eq_true.1 h2.2 y hy)

/-- Bounds for the coordinates, the number of points and the weights. -/
def bounds (n B N W : ℕ) (Z : List (ℤ × List ℤ)) : Bool :=
  (Z.all fun p => Nat.beq p.2.length n && p.2.all fun z => Nat.ble z.natAbs B) && Nat.ble Z.length N &&
    Nat.ble (wsum Z) W

theorem fsum_approx {n : ℕ} {Dw D T deg B N W : ℕ} (hDw : 0 < Dw) (hD : 0 < D) (hT : 0 < T)
    {mom : List ℕ → ℕ × ℕ} {ew e M eps : ℝ} (hew : 0 ≤ ew) (he : 0 ≤ e)
    (hM : 1 ≤ M) (hB : (B : ℝ) / D + e ≤ M)
    (heps : 1 / (T : ℝ) + (N * ew + W / Dw * (deg * e)) * M ^ deg ≤ eps)
    {L : List (ℝ × List ℝ)} {Z : List (ℤ × List ℤ)} (hn : NearF Dw D ew e L Z)
    (hc : check n deg mom Dw D T [] Z = true) (hb : bounds n B N W Z = true)
    (α : Fin n → ℕ) (hα : ∑ i, α i ≤ deg) (hq : 0 < (mom (List.ofFn α)).2) :
    |fsum n L (mono α) - ((mom (List.ofFn α)).1 : ℝ) / (mom (List.ofFn α)).2| ≤ eps := by
  have hD' : (0 : ℝ) < D := by exact_mod_cast hD
  have hDw' : (0 : ℝ) < Dw := by exact_mod_cast hDw
  obtain ⟨h12, h3⟩ := Bool.and_eq_true_iff.1 hb
  obtain ⟨h1, h2⟩ := Bool.and_eq_true_iff.1 h12
  have hZ : ∀ p ∈ Z, p.2.length = n ∧ ∀ z ∈ p.2, |rz D z| ≤ (B : ℝ) / D := by
    intro p hp
    have h4 := Bool.and_eq_true_iff.1 (List.all_eq_true.1 h1 p hp)
    refine ⟨Nat.eq_of_beq_eq_true h4.1, fun z hz => ?_⟩
    have h5 := Nat.le_of_ble_eq_true (List.all_eq_true.1 h4.2 z hz)
    rw [rz, abs_div, abs_of_pos hD']
    refine div_le_div_of_nonneg_right ?_ hD'.le
    have : ((z.natAbs : ℕ) : ℝ) ≤ B := by exact_mod_cast h5
    rwa [Nat.cast_natAbs, Int.cast_abs] at this
  have h4 := fsum_near hM hB hew he α hn hZ
  have h5 := check_sound hDw hD hT hc α hq hα
  rw [List.nil_append] at h5
  refine ((abs_sub_le _ _ _).trans (add_le_add h4 h5)).trans ?_
  rw [add_comm]
  refine le_trans (add_le_add le_rfl ?_) heps
  have hN : (Z.length : ℝ) ≤ N := by exact_mod_cast Nat.le_of_ble_eq_true h2
  have hW : (wsum Z : ℝ) ≤ W := by exact_mod_cast Nat.le_of_ble_eq_true h3
  have hdeg : ((∑ i, α i : ℕ) : ℝ) ≤ deg := by exact_mod_cast hα
  have hp : M ^ (∑ i, α i) ≤ M ^ deg := pow_le_pow_right₀ hM hα
  refine mul_le_mul ?_ hp (pow_nonneg (by linarith) _) (by positivity)
  refine add_le_add (mul_le_mul_of_nonneg_right hN hew) ?_
  exact mul_le_mul (div_le_div_of_nonneg_right hW hDw'.le) (mul_le_mul_of_nonneg_right hdeg he)
    (by positivity) (by positivity)

theorem near_of_check {n : ℕ} {J : Spec.Functional n} {mom : List ℕ → ℕ × ℕ} (hJ : RatMom J mom)
    {d : List SymEntry} {deg Dw D T B N W : ℕ} {Z : List ZEntry} {ew e M eps : ℝ}
    (hn : List.Forall₂ (NearE Dw D ew e) d Z) (hew : 0 ≤ ew) (he : 0 ≤ e) (hM : 1 ≤ M)
    (hB : (B : ℝ) / D + 3 * e ≤ M)
    (heps : 1 / (T : ℝ) + (N * ew + W / Dw * (deg * (3 * e))) * M ^ deg ≤ eps)
    (h : (Nat.blt 0 Dw && Nat.blt 0 D && Nat.beq (D % 12) 0 && Nat.blt 0 T &&
      shape D n (fun x => Nat.beq x.length n) Z &&
      check n deg mom Dw D T [] (flatZ D n Z) && bounds n B N W (flatZ D n Z)) = true) :
    (schemeOfSym n d deg).ApproxRel n J eps := by
  simp only [Bool.and_eq_true] at h
  obtain ⟨⟨⟨⟨⟨⟨h1, h2⟩, h3⟩, h4⟩, h5⟩, h6⟩, h7⟩ := h
  have hD : 0 < D := Nat.le_of_ble_eq_true h2
  have h12 : 12 ∣ D := Nat.dvd_of_mod_eq_zero (Nat.eq_of_beq_eq_true h3)
  have hr := near_regular h5 hn
  refine ⟨schemeOfSym_wellShaped n n _ deg hr (near_points hD h12 he h5 hn) rfl, ?_⟩
  refine approxUpTo_of_mono ((dot_linOnMono _ _).const_mul _) hJ.lin fun α hα => ?_
  rw [hJ.mom, ← mul_sub, abs_mul, abs_of_nonneg hJ.pos]
  refine mul_le_mul_of_nonneg_left ?_ hJ.pos
  have h8 : dot n (schemeOfSym n d deg).weights (schemeOfSym n d deg).points (Quadpy.mono α) =
    symSum n n d (Quadpy.mono α) := expand_dot n n _ hr _
  rw [h8, symSum_flat]
  exact fsum_approx (Nat.le_of_ble_eq_true h1) hD (Nat.le_of_ble_eq_true h4) hew (by linarith) hM hB heps
    (nearF_flat hD h12 he h5 hn) h6 h7 α hα (hJ.den α)

end Dec
end Quadpy
