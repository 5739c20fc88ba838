import Verif.Lemmas.Pairs
import Verif.Lemmas.Rel

/-! C21: Stroud's rule of 1968 and the product rules. -/

namespace Quadpy
open Finset
open scoped List

theorem axis_zero {n : ℕ} {a : ℝ} {L : List (List ℝ)} (h : fsd n [(a, 1)] = some L) :
    osum n L (mono 0) = 2 * n := by
  rw [← fsd1_len h, osum]
  simp [mono_zero]

theorem axis_e1 {n : ℕ} {a : ℝ} {L : List (List ℝ)} (h : fsd n [(a, 1)] = some L) (c : Fin n) {k : ℕ}
    (hk : 0 < k) : osum n L (mono (e1 c k)) = a ^ k + (-a) ^ k := by
  have hn : (n : ℝ) ≠ 0 := by have := c.pos; positivity
  rcases Nat.even_or_odd k with he | ho
  · have := (fsd_FS h).mom1 (k := k) (fun x hx => fsd_powersum h k he hk.ne' x hx) c
    rw [fsd1_len h] at this
    simp at this
    rw [he.neg_pow]
    exact mul_left_cancel₀ hn (by rw [this]; ring)
  · rw [(fsd_FS h).odd _ ⟨c, by simpa [e1] using ho⟩, ho.neg_pow]; ring

theorem axis_e2 {n : ℕ} {a : ℝ} {L : List (List ℝ)} (h : fsd n [(a, 1)] = some L) {c d : Fin n}
    (hcd : c ≠ d) {k l : ℕ} (hk : 0 < k) (hl : 0 < l) : osum n L (mono (e2 c d k l)) = 0 := by
  have hn : (2 : ℝ) ≤ n := by exact_mod_cast two_le_of_ne hcd
  rcases Nat.even_or_odd k with he | ho
  · rcases Nat.even_or_odd l with he' | ho'
    · have := (fsd_FS h).mom2 (k := k) (l := l) (fun x hx => fsd_powersum h k he hk.ne' x hx)
        (fun x hx => fsd_powersum h l he' hl.ne' x hx)
        (fun x hx => fsd_powersum h (k + l) (he.add he') (by omega) x hx) hcd
      simp [pow_add] at this
      rcases this with (h1 | h1) | h1
      · have : n ≠ 0 := by have := c.pos; omega
        exact absurd h1 this
      · linarith
      · exact h1
    · exact (fsd_FS h).odd _ ⟨d, by simpa [e2, hcd.symm] using ho'⟩
  · exact (fsd_FS h).odd _ ⟨c, by simpa [e2, hcd] using ho⟩

theorem z_mono {n : ℕ} (α : Fin n → ℕ) {a : Fin n} (h : α a ≠ 0) : osum n (z n) (mono α) = 0 := by
  simp only [osum, z, List.map_cons, List.map_nil, List.sum_cons, List.sum_nil, add_zero]
  exact prod_eq_zero (mem_univ a) (by simp [toVec, h])

theorem key68 {r s t : ℝ} (r2 : r ^ 2 = 7 / 15) (r4 : r ^ 4 = 49 / 225) (st : s * t = 1 / 3)
    (st1 : s ^ 2 + t ^ 2 = 14 / 15) {k l : ℕ} (hk : 0 < k) (hl : 0 < l) (hkl : k + l ≤ 5) :
    25 / 168 * (r ^ k * r ^ l + (-r) ^ k * (-r) ^ l) + 5 / 48 * (s ^ k * (-t) ^ l +
      (-t) ^ k * s ^ l + (-s) ^ k * t ^ l + t ^ k * (-s) ^ l) = m1 k * m1 l := by
  have o1 : m1 1 = 0 := m1_odd (by decide)
  have o3 : m1 3 = 0 := m1_odd (by decide)
  have hk4 : k ≤ 4 := by omega
  have hl4 : l ≤ 4 := by omega
  interval_cases k <;> interval_cases l <;> first
    | omega
    | (rw [o1]; linear_combination 25 / 84 * r2 - 5 / 12 * st)
    | (rw [o1]; ring1)
    | (rw [o3]; ring1)
    | (rw [m1_two]; linear_combination 25 / 84 * r4 + 5 / 12 * (s * t + 1 / 3) * st)
    | (rw [o1]; linear_combination 25 / 84 * r4 - 5 / 24 * s * t * st1 - 7 / 36 * st)

theorem dot_mono_zero {n : ℕ} (w : List ℝ) (pts : List (List ℝ)) (h : w.length = pts.length) :
    dot n w pts (mono 0) = w.sum := by
  induction w generalizing pts with
  | nil => simp [dot]
  | cons a w ih =>
    cases pts with
    | nil => simp at h
    | cons x pts =>
      have := ih pts (by simpa using h)
      rw [dot, List.zipWith_cons_cons, List.sum_cons, mono_zero, mul_one, List.sum_cons, ← this, dot]

/-- cn/_stroud_1968.py:21-37. -/
theorem C21_stroud1968 (n : ℕ) (hn : 2 ≤ n) :
    ∃ S, Cn.stroud1968 n = some S ∧ S.degree = 5 ∧ S.ExactOnCube n := by
  obtain ⟨m, rfl⟩ : ∃ m, n = m + 2 := ⟨n - 2, by omega⟩
  obtain ⟨Lr, hLr⟩ := fsd_some (n := m + 2) (k := 1) (by omega) (√(7 / 15))
  obtain ⟨Ls, hLs⟩ := fsd_some (n := m + 2) (k := 1) (by omega) (√((7 + √24) / 15))
  obtain ⟨Lt, hLt⟩ := fsd_some (n := m + 2) (k := 1) (by omega) (√((7 - √24) / 15))
  refine ⟨_, by simp only [Cn.stroud1968, hLr, hLs, hLt, Option.bind_eq_bind, Option.bind_some]; rfl,
    rfl, ?_⟩
  have h24 : √(24 : ℝ) ^ 2 = 24 := Real.sq_sqrt (by norm_num)
  have h24' : √(24 : ℝ) < 7 := by rw [Real.sqrt_lt' (by norm_num)]; norm_num
  have h240 : 0 < √(24 : ℝ) := by positivity
  have r2 : √(7 / 15 : ℝ) ^ 2 = 7 / 15 := Real.sq_sqrt (by norm_num)
  have s2 : √((7 + √24) / 15 : ℝ) ^ 2 = (7 + √24) / 15 := Real.sq_sqrt (by positivity)
  have t2 : √((7 - √24) / 15 : ℝ) ^ 2 = (7 - √24) / 15 := Real.sq_sqrt (by linarith)
  have r0 : 0 < √(7 / 15 : ℝ) := by positivity
  have s0 : 0 < √((7 + √24) / 15 : ℝ) := by positivity
  have t0 : 0 < √((7 - √24) / 15 : ℝ) := Real.sqrt_pos.2 (by linarith)
  generalize √(7 / 15 : ℝ) = r at *
  generalize √((7 + √24) / 15 : ℝ) = s at *
  generalize √((7 - √24) / 15 : ℝ) = t at *
  generalize √(24 : ℝ) = w at *
  have st : s * t = 1 / 3 := by
    have h1 : (s * t) ^ 2 = (1 / 3) ^ 2 := by rw [mul_pow, s2, t2]; linear_combination (-1 / 225) * h24
    have := mul_pos s0 t0
    exact (pow_left_inj₀ this.le (by norm_num) two_ne_zero).1 h1
  have st1 : s ^ 2 + t ^ 2 = 14 / 15 := by rw [s2, t2]; ring
  have st2 : s ^ 4 + t ^ 4 = 146 / 225 := by
    linear_combination (s ^ 2 + t ^ 2 + 14 / 15) * st1 - 2 * (s * t + 1 / 3) * st
  have r4 : r ^ 4 = 49 / 225 := by linear_combination (r ^ 2 + 7 / 15) * r2
  have hdot : ∀ f, dot (m + 2) _ _ f = _ := fun f => dot_schemeOf (m + 2) 5
    [((5 * ((m + 2 : ℕ) : ℝ) ^ 2 - 15 * ((m + 2 : ℕ) : ℝ) + 14) / 14, z (m + 2)),
     (25 / 168, Cn.s2 (m + 2) r), (25 / 168, Cn.s2 (m + 2) (-r)),
     (-25 * (((m + 2 : ℕ) : ℝ) - 2) / 168, Lr),
     (5 / 48, Cn.s11 (m + 2) s (-t)), (5 / 48, Cn.s11 (m + 2) (-s) t),
     (-5 * (((m + 2 : ℕ) : ℝ) - 2) / 48, Ls), (-5 * (((m + 2 : ℕ) : ℝ) - 2) / 48, Lt)] f
  refine ⟨schemeOf_wellShaped _ _ _ ?_, exactUpTo_of_mono ((dot_linOnMono _ _).const_mul _)
    (cube_linOnMono _) fun α hα => ?_⟩
  · simp only [List.mem_cons, List.not_mem_nil, or_false]
    rintro g (rfl | rfl | rfl | rfl | rfl | rfl | rfl | rfl) x hx
    · simp [z] at hx; simp [hx]
    · exact length_of_mem_s11 hx
    · exact length_of_mem_s11 hx
    · exact (fsd_FS hLr).len x hx
    · exact length_of_mem_s11 hx
    · exact length_of_mem_s11 hx
    · exact (fsd_FS hLs).len x hx
    · exact (fsd_FS hLt).len x hx
  rw [cube_mono]
  congr 1
  rw [hdot]
  simp only [List.map_cons, List.map_nil, List.sum_cons, List.sum_nil, add_zero]
  have e1' := osum_s2 (m := m) r0.ne' (mono α)
  have e2' := osum_s2 (m := m) (neg_ne_zero.2 r0.ne') (mono α)
  have e3' := osum_s11 (m := m) s0.ne' (neg_ne_zero.2 t0.ne') (by linarith) (mono α)
  have e4' := osum_s11 (m := m) (neg_ne_zero.2 s0.ne') t0.ne' (by linarith) (mono α)
  change ∑ i, α i ≤ 5 at hα
  rcases classify_support α with rfl | ⟨c, k, hk, rfl⟩ | ⟨c, d, k, l, hcd, hk, hl, rfl⟩ |
    ⟨c, d, e, h1, h2, h3, hc, hd, he⟩
  · rw [pairSum_zero] at e1' e2' e3' e4'
    rw [axis_zero hLr, axis_zero hLs, axis_zero hLt, e3', e4', cubeMom_zero]
    have : osum (m + 2) (z (m + 2)) (mono 0) = 1 := by simp [osum, z, mono_zero]
    rw [this]
    push_cast at e1' e2' ⊢
    linear_combination 25 / 336 * e1' + 25 / 336 * e2'
  · have hk5 : k ≤ 5 := by
      refine le_trans ?_ hα
      simp [e1]
    rw [pairSum_e1 _ _ _ hk] at e1' e2' e3' e4'
    rw [axis_e1 hLr c hk, axis_e1 hLs c hk, axis_e1 hLt c hk, e3', e4', cubeMom_e1,
      z_mono _ (a := c) (by simp [e1, hk.ne'])]
    push_cast at e1' e2' ⊢
    have key : 25 / 168 * (r ^ k + (-r) ^ k) + 5 / 48 * (s ^ k + (-s) ^ k + t ^ k + (-t) ^ k) = m1 k := by
      interval_cases k
      · rw [m1_odd (by decide : Odd 1)]; ring
      · rw [m1_two]; linear_combination 25 / 84 * r2 + 5 / 24 * st1
      · rw [m1_odd (by decide : Odd 3)]; ring
      · rw [m1_four]; linear_combination 25 / 84 * r4 + 5 / 24 * st2
      · rw [m1_odd (by decide : Odd 5)]; ring
    linear_combination 25 / 336 * e1' + 25 / 336 * e2' + key
  · have hkl : k + l ≤ 5 := by
      refine le_trans ?_ hα
      simp [e2, sum_add_distrib]
    rw [pairSum_e2 _ _ hcd hk hl] at e1' e2' e3' e4'
    rw [axis_e2 hLr hcd hk hl, axis_e2 hLs hcd hk hl, axis_e2 hLt hcd hk hl, e3', e4', cubeMom_e2 hcd,
      z_mono _ (a := c) (by simp [e2, hk.ne'])]
    have key := key68 r2 r4 st st1 hk hl hkl
    linear_combination 25 / 336 * e1' + 25 / 336 * e2' + key
  · have hodd : ∃ i, Odd (α i) := by
      by_contra hcon
      push Not at hcon
      have hsum : α c + α d + α e ≤ ∑ i, α i := by
        have : ∑ i ∈ ({c, d, e} : Finset (Fin (m + 2))), α i ≤ ∑ i, α i :=
          sum_le_sum_of_subset (subset_univ _)
        rw [sum_insert (by simp [h1, h2]), sum_insert (by simp [h3]), sum_singleton] at this
        omega
      obtain ⟨x, hx⟩ := Nat.not_odd_iff_even.1 (hcon c)
      obtain ⟨y, hy⟩ := Nat.not_odd_iff_even.1 (hcon d)
      obtain ⟨u, hu⟩ := Nat.not_odd_iff_even.1 (hcon e)
      omega
    rw [pairSum_three _ _ α h1 h2 h3 hc hd he] at e1' e2' e3' e4'
    rw [(fsd_FS hLr).odd α hodd, (fsd_FS hLs).odd α hodd, (fsd_FS hLt).odd α hodd, e3', e4',
      z_mono α hc, cubeMom_odd α hodd]
    linear_combination 25 / 336 * e1' + 25 / 336 * e2'

/-- For `n = 1`, which the code accepts too, the weights of `stroud_1968` do not even add up to one:
`_s2` and `_s11` then return the 1-permutations of `[a, b]`. -/
theorem C21_stroud1968_one : ∃ S, Cn.stroud1968 1 = some S ∧ S.weights.sum = 12 / 7 ∧
    ¬ S.ExactOnCube 1 := by
  have hS : ∃ S, Cn.stroud1968 1 = some S ∧ S.weights.sum = 12 / 7 := by
    obtain ⟨Lr, hLr⟩ := fsd_some (n := 1) (k := 1) (by omega) (√(7 / 15))
    obtain ⟨Ls, hLs⟩ := fsd_some (n := 1) (k := 1) (by omega) (√((7 + √24) / 15))
    obtain ⟨Lt, hLt⟩ := fsd_some (n := 1) (k := 1) (by omega) (√((7 - √24) / 15))
    refine ⟨_, by
      simp only [Cn.stroud1968, hLr, hLs, hLt, Option.bind_eq_bind, Option.bind_some]; rfl, ?_⟩
    have h24' : √(24 : ℝ) < 7 := by rw [Real.sqrt_lt' (by norm_num)]; norm_num
    have s0 : 0 < √((7 + √24) / 15 : ℝ) := by positivity
    have t0 : 0 < √((7 - √24) / 15 : ℝ) := Real.sqrt_pos.2 (by linarith)
    have l1 := fsd1_len hLr
    have l2 := fsd1_len hLs
    have l3 := fsd1_len hLt
    have p2 : ∀ a : ℝ, (Cn.s2 1 a).length = 1 := fun a => by
      simp [Cn.s2, Cn.s11, List.permutations, List.permutationsAux_cons, List.permutationsAux_nil,
        List.permutationsAux2]
    have p11 : ∀ a b : ℝ, a ≠ b → (Cn.s11 1 a b).length = 2 := fun a b h => by
      simp [Cn.s11, List.permutations, List.permutationsAux_cons, List.permutationsAux_nil,
        List.permutationsAux2, h]
    simp only [schemeOf, untangle, List.map_cons, List.map_nil, List.flatten_cons, List.flatten_nil,
      List.sum_append, List.sum_replicate, nsmul_eq_mul, l1, l2, l3, p2, p11 _ _ (show
        √((7 + √24) / 15 : ℝ) ≠ -√((7 - √24) / 15) by linarith), p11 _ _ (show
        -√((7 + √24) / 15 : ℝ) ≠ √((7 - √24) / 15) by linarith), z, List.length_cons, List.length_nil,
      List.sum_nil]
    norm_num
  obtain ⟨S, h1, h2⟩ := hS
  refine ⟨S, h1, h2, fun h => ?_⟩
  have h3 := h.2 1 (by simp)
  have hone : (fun x : Fin 1 → ℝ => MvPolynomial.eval x (1 : MvPolynomial (Fin 1) ℝ)) = fun _ => 1 := by
    funext x; simp
  beta_reduce at h3
  rw [hone, one_eq_mono, cube_mono, cubeMom_zero, mul_one] at h3
  rw [dot_mono_zero _ _ h.1.2.1, h2] at h3
  norm_num at h3

/-! Product rules. -/

/-- `meshRow` for any type. -/
def swap01 {α : Type*} : List α → List α
  | a :: b :: l => b :: a :: l
  | l => l

theorem meshRow_eq (t : List ℝ) : Cn.meshRow t = swap01 t.reverse := by
  unfold Cn.meshRow swap01
  cases h : t.reverse with
  | nil => rfl
  | cons a l => cases l <;> rfl

theorem swap01_perm {α : Type*} (l : List α) : swap01 l ~ l := by
  match l with
  | [] => exact .refl _
  | [a] => exact .refl _
  | a :: b :: l => exact List.Perm.swap a b l

theorem swap01_swap01 {α : Type*} (l : List α) : swap01 (swap01 l) = l := by
  match l with
  | [] => rfl
  | [a] => rfl
  | a :: b :: l => rfl

theorem swap01_map {α β : Type*} (f : α → β) (l : List α) : swap01 (l.map f) = (swap01 l).map f := by
  match l with
  | [] => rfl
  | [a] => rfl
  | a :: b :: l => rfl

theorem swap01_zipWith {α β γ : Type*} (f : α → β → γ) (l : List α) (l' : List β)
    (h : l.length = l'.length) :
    List.zipWith f (swap01 l) (swap01 l') = swap01 (List.zipWith f l l') := by
  match l, l' with
  | [], [] => rfl
  | [a], [b] => rfl
  | a :: b :: l, a' :: b' :: l' => rfl

theorem iterProduct_map {α β : Type*} (g : α → β) (L : List α) (n : ℕ) :
    iterProduct (List.replicate n (L.map g)) = (iterProduct (List.replicate n L)).map (List.map g) := by
  induction n with
  | zero => rfl
  | succ n ih =>
    simp only [List.replicate_succ, iterProduct, ih, List.flatMap_map, List.map_flatMap, List.map_map]
    rfl

/-- The sum of a product function over the grid points in the order of `np.meshgrid`. -/
theorem mesh_sum {α : Type*} (L : List α) (G : List (α → ℝ)) :
    ((iterProduct (List.replicate G.length L)).map fun t =>
      (List.zipWith (fun g x => g x) G (swap01 t.reverse)).prod).sum =
      (G.map fun g => (L.map g).sum).prod := by
  set G' := (swap01 G).reverse with hG'
  have hp : G' ~ G := (List.reverse_perm _).trans (swap01_perm G)
  have hG : G = swap01 G'.reverse := by rw [hG', List.reverse_reverse, swap01_swap01]
  have hlen : G'.length = G.length := hp.length_eq
  have h1 : ∀ t ∈ iterProduct (List.replicate G.length L),
      (List.zipWith (fun g x => g x) G (swap01 t.reverse)).prod =
        (List.zipWith (fun g x => g x) G' t).prod := by
    intro t ht
    have hl := length_of_mem_iterProduct _ _ ht
    rw [List.length_replicate] at hl
    rw [hG, swap01_zipWith _ _ _ (by simp; omega), (swap01_perm _).prod_eq,
      ← List.reverse_zipWith (by omega), (List.reverse_perm _).prod_eq]
  rw [List.map_congr_left h1, iterProduct_sum_prod _ G' (by simp [hlen]),
    ← (hp.map fun g => (L.map g).sum).prod_eq, ← hlen]
  clear_value G'
  clear * -
  induction G' with
  | nil => rfl
  | cons g G ih => simp only [List.length_cons, List.replicate_succ, List.zipWith_cons_cons,
      List.prod_cons, List.map_cons, ih]

/-- The grid of one rule `L` of pairs `(weight, point)` in every direction. -/
noncomputable def gridScheme (n : ℕ) (L : List (ℝ × ℝ)) (d : ℕ) : Scheme :=
  ⟨n, (Cn.mesh n (L.map Prod.fst)).map fun row => row.prod / 2 ^ n, Cn.mesh n (L.map Prod.snd), d⟩

theorem mono_zipWith {n : ℕ} (α : Fin n → ℕ) (row : List (ℝ × ℝ)) (h : row.length = n) :
    (row.map Prod.fst).prod * mono α (toVec n (row.map Prod.snd)) =
      (List.zipWith (fun g x => g x) (List.ofFn fun i : Fin n => fun p : ℝ × ℝ => p.1 * p.2 ^ α i)
        row).prod := by
  subst h
  induction row with
  | nil => simp [mono]
  | cons p row ih =>
    have := ih (fun i => α i.succ)
    simp only [List.length_cons] at α ⊢
    rw [List.ofFn_succ, List.zipWith_cons_cons, List.prod_cons, List.map_cons, List.map_cons,
      List.prod_cons, ← this]
    simp only [mono]
    rw [Fin.prod_univ_succ]
    simp [toVec]
    ring

theorem grid_exact {n d : ℕ} (L : List (ℝ × ℝ))
    (h : ∀ k ≤ d, (L.map fun p => p.1 * p.2 ^ k).sum = 2 * m1 k) :
    (gridScheme n L d).ExactOnCube n := by
  refine ⟨⟨rfl, by simp [gridScheme, Cn.mesh, length_iterProduct], fun x hx => ?_⟩,
    exactUpTo_of_mono ((dot_linOnMono _ _).const_mul _) (cube_linOnMono _) fun α hα => ?_⟩
  · simp only [gridScheme, Cn.mesh, List.mem_map] at hx
    obtain ⟨t, ht, rfl⟩ := hx
    rw [meshRow_eq, (swap01_perm _).length_eq, List.length_reverse, length_of_mem_iterProduct _ _ ht]
    simp
  · change ∑ i, α i ≤ d at hα
    rw [cube_mono]
    have hle : ∀ i, α i ≤ d := fun i => (single_le_sum (fun _ _ => Nat.zero_le _) (mem_univ i)).trans hα
    set G := List.ofFn fun i : Fin n => fun p : ℝ × ℝ => p.1 * p.2 ^ α i with hG
    have hGl : G.length = n := by simp [hG]
    have key := mesh_sum L G
    rw [hGl] at key
    have e : dot n (gridScheme n L d).weights (gridScheme n L d).points (mono α) =
        ((iterProduct (List.replicate n L)).map fun t =>
          (List.zipWith (fun g x => g x) G (swap01 t.reverse)).prod).sum / 2 ^ n := by
      simp only [dot, gridScheme, Cn.mesh, iterProduct_map, List.map_map, List.zipWith_map,
        List.zipWith_self]
      rw [div_eq_mul_inv, mul_comm, ← List.sum_map_mul_left]
      congr 1
      apply List.map_congr_left
      intro t ht
      have hl := length_of_mem_iterProduct _ _ ht
      rw [List.length_replicate] at hl
      simp only [Function.comp, meshRow_eq, ← List.map_reverse, swap01_map]
      rw [hG, ← mono_zipWith α (swap01 t.reverse)
        (by rw [(swap01_perm _).length_eq, List.length_reverse, hl])]
      ring
    rw [e, key]
    have e2 : (G.map fun g => (L.map g).sum).prod = ∏ i, (2 * m1 (α i)) := by
      rw [hG, List.map_ofFn, List.prod_ofFn]
      exact prod_congr rfl fun i _ => h _ (hle i)
    rw [e2, prod_mul_distrib]
    simp [cubeMom]

/-- cn/_stroud.py:61-68: the product of Simpson's rule. -/
theorem C21_stroudCn36 (n : ℕ) : (Cn.stroudCn36 n).degree = 3 ∧ (Cn.stroudCn36 n).ExactOnCube n := by
  refine ⟨rfl, ?_⟩
  have := grid_exact (n := n) (d := 3) [(1 / 3, -1), (4 / 3, 0), (1 / 3, 1)] (fun k hk => by
    interval_cases k
    · rw [m1_zero]; norm_num
    · rw [m1_odd (by decide)]; norm_num
    · rw [m1_two]; norm_num
    · rw [m1_odd (by decide)]; norm_num)
  exact this

/-- cn/_stroud.py:71-79: the product of the three-point Gauss rule. -/
theorem C21_stroudCn59 (n : ℕ) : (Cn.stroudCn59 n).degree = 5 ∧ (Cn.stroudCn59 n).ExactOnCube n := by
  refine ⟨rfl, ?_⟩
  have h2 : √(3 / 5 : ℝ) ^ 2 = 3 / 5 := Real.sq_sqrt (by norm_num)
  have h4 : √(3 / 5 : ℝ) ^ 4 = 9 / 25 := by
    rw [show √(3 / 5 : ℝ) ^ 4 = (√(3 / 5 : ℝ) ^ 2) ^ 2 by ring, h2]; norm_num
  have := grid_exact (n := n) (d := 5) [(5 / 9, -√(3 / 5)), (8 / 9, 0), (5 / 9, √(3 / 5))]
    (fun k hk => by
    interval_cases k <;>
      simp only [List.map_cons, List.map_nil, List.sum_cons, List.sum_nil, add_zero]
    · rw [m1_zero]; norm_num
    · rw [m1_odd (by decide)]; ring
    · rw [m1_two]; linear_combination 10 / 9 * h2
    · rw [m1_odd (by decide)]; ring
    · rw [m1_four]; linear_combination 10 / 9 * h4
    · rw [m1_odd (by decide)]; ring)
  exact this

/-- The order of numpy's grid: in dimension 2 the second coordinate runs fastest. -/
example : (Cn.stroudCn36 2).points =
    [[-1, -1], [-1, 0], [-1, 1], [0, -1], [0, 0], [0, 1], [1, -1], [1, 0], [1, 1]] := by
  simp [Cn.stroudCn36, Cn.mesh, iterProduct, Cn.meshRow, List.replicate]

example : (Cn.s11 3 1 2).length = 6 := by
  have h := osum_s11 (m := 1) (a := 1) (b := 2) (by norm_num) (by norm_num) (by norm_num) (mono 0)
  rw [pairSum_zero] at h
  simp [osum, mono_zero] at h
  norm_num at h
  exact_mod_cast h

end Quadpy
