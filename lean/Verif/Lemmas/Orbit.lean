import Verif.Lemmas.Mono
import Verif.Lemmas.Combine
import Verif.Props.C01
import Mathlib.GroupTheory.Perm.Basic
import Mathlib.Data.List.OfFn
import Mathlib.Tactic.LinearCombination

namespace Quadpy
open Finset

/-- Sum of a function over a list of points. -/
def osum (n : ℕ) (L : List (List ℝ)) (f : (Fin n → ℝ) → ℝ) : ℝ :=
  (L.map fun x => f (toVec n x)).sum

theorem zipWith_ofFn_prod {n : ℕ} (g : Fin n → ℝ → ℝ) (row : List ℝ) (h : row.length = n) :
    (List.zipWith (fun g x => g x) (List.ofFn g) row).prod = ∏ i, g i (toVec n row i) := by
  rw [← List.prod_ofFn]
  congr 1
  apply List.ext_getElem
  · simp [h]
  · intro i h1 h2
    have hi : i < row.length := by simp at h2; omega
    simp [toVec, hi]

/-- Full symmetry of a list of points, as seen by monomials. -/
structure FS (n : ℕ) (L : List (List ℝ)) : Prop where
  len : ∀ x ∈ L, x.length = n
  perm : ∀ (α : Fin n → ℕ) (σ : Equiv.Perm (Fin n)),
    osum n L (mono (α ∘ σ)) = osum n L (mono α)
  odd : ∀ α : Fin n → ℕ, (∃ i, Odd (α i)) → osum n L (mono α) = 0

theorem osum_mono_combine (n : ℕ) (elems : List (List ℝ × ℕ)) (α : Fin n → ℕ)
    (hn : (elems.map Prod.snd).sum = n) :
    osum n (combine elems) (mono α) = ((combine elems).map fun row =>
      (List.zipWith (fun g x => g x) (List.ofFn fun (i : Fin n) (v : ℝ) => v ^ α i) row).prod).sum := by
  unfold osum
  congr 1
  apply List.map_congr_left
  intro row hrow
  rw [zipWith_ofFn_prod _ row ((length_of_mem_combine elems row hrow).trans hn)]
  rfl

/-- `combine` is invariant under permutations of the coordinates. -/
theorem combine_perm (n : ℕ) (elems : List (List ℝ × ℕ)) (hn : (elems.map Prod.snd).sum = n)
    (α : Fin n → ℕ) (σ : Equiv.Perm (Fin n)) :
    osum n (combine elems) (mono (α ∘ σ)) = osum n (combine elems) (mono α) := by
  rw [osum_mono_combine n elems _ hn, osum_mono_combine n elems _ hn]
  apply combine_sum_prod_perm
  · simp [hn]
  · exact σ.ofFn_comp_perm fun (i : Fin n) (v : ℝ) => v ^ α i

/-- `combine` kills odd monomials if every value list is symmetric. -/
theorem combine_odd (n : ℕ) (elems : List (List ℝ × ℕ)) (hn : (elems.map Prod.snd).sum = n)
    (hs : ∀ e ∈ elems, ∀ k, Odd k → (e.1.map fun v => v ^ k).sum = 0)
    (α : Fin n → ℕ) (h : ∃ i, Odd (α i)) : osum n (combine elems) (mono α) = 0 := by
  obtain ⟨i, hi⟩ := h
  rw [osum_mono_combine n elems _ hn]
  apply combine_sum_prod_zero elems (by simp [hn]) (fun v => v ^ α i)
  · rw [List.mem_ofFn]; exact ⟨i, rfl⟩
  · exact fun e he => hs e he _ hi

theorem combine_FS (n : ℕ) (elems : List (List ℝ × ℕ)) (hn : (elems.map Prod.snd).sum = n)
    (hs : ∀ e ∈ elems, ∀ k, Odd k → (e.1.map fun v => v ^ k).sum = 0) : FS n (combine elems) where
  len := fun x hx => (length_of_mem_combine elems x hx).trans hn
  perm := combine_perm n elems hn
  odd := combine_odd n elems hn hs

theorem fsd_FS {n : ℕ} {items : List (ℝ × ℕ)} {L : List (List ℝ)}
    (h : fsd n items = some L) : FS n L := by
  obtain ⟨hs, rfl⟩ := fsd_eq_some h
  apply combine_FS
  · simp only [List.map_append, List.map_map, Function.comp_def, List.sum_append,
      List.map_cons, List.map_nil, List.sum_singleton]
    have : (List.map (fun x : ℝ × ℕ => x.2) items).sum = (items.map Prod.snd).sum := rfl
    omega
  · intro e he k hk
    simp only [List.mem_append, List.mem_map, List.mem_singleton] at he
    rcases he with ⟨it, _, rfl⟩ | rfl
    · simp [hk.neg_pow]
    · simp [hk.pos.ne']

theorem fsArray_FS {n : ℕ} (v : List ℝ) (h : v.length = n) : FS n (fsArray v) := by
  apply combine_FS
  · simp [Function.comp_def, h]
  · intro e he k hk
    simp only [List.mem_map] at he
    obtain ⟨it, _, rfl⟩ := he
    simp [hk.neg_pow]

/-- Power sums are constant on `fsd`. -/
theorem fsd_powersum {n : ℕ} {items : List (ℝ × ℕ)} {L : List (List ℝ)}
    (h : fsd n items = some L) (k : ℕ) (hk : Even k) (hk0 : k ≠ 0) (x : List ℝ) (hx : x ∈ L) :
    ∑ i, toVec n x i ^ k = (items.map fun it => (it.2 : ℝ) * it.1 ^ k).sum := by
  have hlen := (fsd_FS h).len x hx
  obtain ⟨hs, rfl⟩ := fsd_eq_some h
  have h1 := sum_map_of_mem_combine _ (fun v => v ^ k) (fun e => (e.1.headD 0) ^ k) (by
    intro e he v hv
    simp only [List.mem_append, List.mem_map, List.mem_singleton] at he
    rcases he with ⟨it, _, rfl⟩ | rfl
    · simp only [List.headD_cons]
      rcases List.mem_cons.1 hv with rfl | hv
      · rfl
      · rw [List.mem_singleton.1 hv, hk.neg_pow]
    · simp only [List.mem_singleton] at hv; simp [hv]) x hx
  have h2 : ∑ i, toVec n x i ^ k = (x.map fun v => v ^ k).sum := by
    rw [← List.sum_ofFn]
    congr 1
    apply List.ext_getElem
    · simp [hlen]
    · intro i h3 h4
      have hi : i < x.length := by simpa using h4
      simp [toVec, hi]
  rw [h2, h1]
  simp [Function.comp_def, hk0]

/-- Number of rows of `fsd` as a real number. -/
theorem fsd_count {n : ℕ} {items : List (ℝ × ℕ)} {L : List (List ℝ)}
    (h : fsd n items = some L) :
    ((items.map fun it => Nat.factorial it.2).prod * Nat.factorial (n - (items.map Prod.snd).sum) : ℕ) *
      (L.length : ℝ) = Nat.factorial n * 2 ^ (items.map Prod.snd).sum := by
  exact_mod_cast C01_fsd_length h

/-! Moments of a fully symmetric set with constant power sums. -/

theorem osum_finset_sum {n : ℕ} {ι : Type*} (L : List (List ℝ)) (s : Finset ι)
    (f : ι → (Fin n → ℝ) → ℝ) :
    osum n L (fun x => ∑ a ∈ s, f a x) = ∑ a ∈ s, osum n L (f a) := by
  unfold osum
  induction L with
  | nil => simp
  | cons x L ih => simp only [List.map_cons, List.sum_cons, ih, sum_add_distrib]

theorem osum_const {n : ℕ} (L : List (List ℝ)) (f : (Fin n → ℝ) → ℝ) (c : ℝ)
    (h : ∀ x ∈ L, f (toVec n x) = c) : osum n L f = L.length * c := by
  unfold osum
  rw [List.map_congr_left h, List.map_const', List.sum_replicate, nsmul_eq_mul]

theorem osum_congr {n : ℕ} (L : List (List ℝ)) (f g : (Fin n → ℝ) → ℝ)
    (h : ∀ x ∈ L, f (toVec n x) = g (toVec n x)) : osum n L f = osum n L g := by
  unfold osum
  rw [List.map_congr_left h]

theorem osum_mono_zero {n : ℕ} (L : List (List ℝ)) : osum n L (mono 0) = L.length := by
  rw [osum_const L _ 1 (fun x _ => mono_zero _), mul_one]

theorem e1_comp {n : ℕ} (a : Fin n) (k : ℕ) (σ : Equiv.Perm (Fin n)) :
    e1 a k ∘ σ = e1 (σ.symm a) k := by
  funext i
  simp only [e1, Function.comp_apply, Pi.single_apply]
  congr 1
  rw [Equiv.eq_symm_apply]

theorem e2_comp {n : ℕ} (a b : Fin n) (k l : ℕ) (σ : Equiv.Perm (Fin n)) :
    e2 a b k l ∘ σ = e2 (σ.symm a) (σ.symm b) k l := by
  have h1 := e1_comp a k σ
  have h2 := e1_comp b l σ
  unfold e2 e1 at *
  rw [← h1, ← h2]; rfl

theorem e3_comp {n : ℕ} (a b c : Fin n) (k l m : ℕ) (σ : Equiv.Perm (Fin n)) :
    e3 a b c k l m ∘ σ = e3 (σ.symm a) (σ.symm b) (σ.symm c) k l m := by
  have h1 := e2_comp a b k l σ
  have h2 := e1_comp c m σ
  unfold e3 e2 e1 at *
  rw [← h1, ← h2]; rfl

theorem FS.e1_eq {n : ℕ} {L : List (List ℝ)} (h : FS n L) (k : ℕ) (a b : Fin n) :
    osum n L (mono (e1 a k)) = osum n L (mono (e1 b k)) := by
  rw [← h.perm (e1 b k) (Equiv.swap a b), e1_comp]
  simp

theorem exists_perm2 {n : ℕ} {a b c d : Fin n} (hab : a ≠ b) (hcd : c ≠ d) :
    ∃ σ : Equiv.Perm (Fin n), σ a = c ∧ σ b = d := by
  refine ⟨(Equiv.swap a c).trans (Equiv.swap (Equiv.swap a c b) d), ?_, ?_⟩
  · simp only [Equiv.trans_apply, Equiv.swap_apply_left]
    rw [Equiv.swap_apply_of_ne_of_ne _ hcd]
    intro h
    apply hab
    have := congrArg (Equiv.swap a c) h
    simpa using this
  · simp

theorem exists_perm3 {n : ℕ} {a b c a' b' c' : Fin n} (hab : a ≠ b) (hac : a ≠ c) (hbc : b ≠ c)
    (hab' : a' ≠ b') (hac' : a' ≠ c') (hbc' : b' ≠ c') :
    ∃ σ : Equiv.Perm (Fin n), σ a = a' ∧ σ b = b' ∧ σ c = c' := by
  obtain ⟨σ, h1, h2⟩ := exists_perm2 hab hab'
  refine ⟨σ.trans (Equiv.swap (σ c) c'), ?_, ?_, ?_⟩
  · simp only [Equiv.trans_apply, h1]
    rw [Equiv.swap_apply_of_ne_of_ne _ hac']
    rw [← h1]; exact fun h => hac (σ.injective h)
  · simp only [Equiv.trans_apply, h2]
    rw [Equiv.swap_apply_of_ne_of_ne _ hbc']
    rw [← h2]; exact fun h => hbc (σ.injective h)
  · simp

theorem FS.e2_eq {n : ℕ} {L : List (List ℝ)} (h : FS n L) (k l : ℕ) {a b c d : Fin n}
    (hab : a ≠ b) (hcd : c ≠ d) :
    osum n L (mono (e2 a b k l)) = osum n L (mono (e2 c d k l)) := by
  obtain ⟨σ, h1, h2⟩ := exists_perm2 hab hcd
  rw [← h.perm (e2 c d k l) σ, e2_comp, ← h1, ← h2]
  simp

theorem FS.e3_eq {n : ℕ} {L : List (List ℝ)} (h : FS n L) (k l m : ℕ) {a b c a' b' c' : Fin n}
    (hab : a ≠ b) (hac : a ≠ c) (hbc : b ≠ c)
    (hab' : a' ≠ b') (hac' : a' ≠ c') (hbc' : b' ≠ c') :
    osum n L (mono (e3 a b c k l m)) = osum n L (mono (e3 a' b' c' k l m)) := by
  obtain ⟨σ, h1, h2, h3⟩ := exists_perm3 hab hac hbc hab' hac' hbc'
  rw [← h.perm (e3 a' b' c' k l m) σ, e3_comp, ← h1, ← h2, ← h3]
  simp

/-- Constant power sums. -/
def ConstPow (n : ℕ) (L : List (List ℝ)) (k : ℕ) (p : ℝ) : Prop :=
  ∀ x ∈ L, ∑ i, toVec n x i ^ k = p

theorem FS.mom1 {n : ℕ} {L : List (List ℝ)} (h : FS n L) {k : ℕ} {p : ℝ} (hp : ConstPow n L k p)
    (a : Fin n) : n * osum n L (mono (e1 a k)) = L.length * p := by
  rw [← osum_const L (fun x => ∑ i, x i ^ k) p hp]
  rw [osum_finset_sum]
  have : ∀ i ∈ (univ : Finset (Fin n)), osum n L (fun x => x i ^ k) = osum n L (mono (e1 a k)) := by
    intro i _
    rw [← h.e1_eq k i a]
    exact osum_congr L _ _ fun x _ => (mono_e1 i k _).symm
  rw [sum_congr rfl this, sum_const, card_univ, Fintype.card_fin, nsmul_eq_mul]

theorem card_filter_ne {n : ℕ} (a : Fin n) : #{i | a ≠ i} = n - 1 := by
  have h : (univ.filter fun i => a ≠ i) = univ.erase a := by
    ext i; simp [eq_comm]
  rw [h, card_erase_of_mem (mem_univ a), card_univ, Fintype.card_fin]

/-- `∑_{a≠b} x_a^k x_b^l = p_k p_l - p_{k+l}`. -/
theorem offdiag_sum {n : ℕ} (x : Fin n → ℝ) (k l : ℕ) :
    ∑ a, ∑ b ∈ univ.filter (fun b => a ≠ b), x a ^ k * x b ^ l =
      (∑ a, x a ^ k) * (∑ a, x a ^ l) - ∑ a, x a ^ (k + l) := by
  rw [sum_mul_sum, ← sum_sub_distrib]
  refine sum_congr rfl fun a _ => ?_
  have h : (univ.filter fun i => a ≠ i) = univ.erase a := by
    ext i; simp [eq_comm]
  rw [h, ← add_sum_erase univ (fun b => x a ^ k * x b ^ l) (mem_univ a)]
  rw [pow_add]; ring

theorem FS.mom2 {n : ℕ} {L : List (List ℝ)} (h : FS n L) {k l : ℕ} {p q r : ℝ}
    (hp : ConstPow n L k p) (hq : ConstPow n L l q) (hr : ConstPow n L (k + l) r)
    {a b : Fin n} (hab : a ≠ b) :
    (n : ℝ) * (n - 1) * osum n L (mono (e2 a b k l)) = L.length * (p * q - r) := by
  rw [← osum_const L (fun x => ∑ a, ∑ b ∈ univ.filter (fun b => a ≠ b), x a ^ k * x b ^ l)
    (p * q - r) (fun x hx => by rw [offdiag_sum, hp x hx, hq x hx, hr x hx])]
  rw [osum_finset_sum]
  have h1 : ∀ i ∈ (univ : Finset (Fin n)),
      osum n L (fun x => ∑ b ∈ univ.filter (fun b => i ≠ b), x i ^ k * x b ^ l) =
      ((n - 1 : ℕ) : ℝ) * osum n L (mono (e2 a b k l)) := by
    intro i _
    rw [osum_finset_sum]
    have : ∀ j ∈ univ.filter (fun b => i ≠ b), osum n L (fun x => x i ^ k * x j ^ l) =
        osum n L (mono (e2 a b k l)) := by
      intro j hj
      have hij : i ≠ j := by simpa using hj
      rw [← h.e2_eq k l hij hab]
      exact osum_congr L _ _ fun x _ => (mono_e2 hij k l _).symm
    rw [sum_congr rfl this, sum_const, card_filter_ne, nsmul_eq_mul]
  rw [sum_congr rfl h1, sum_const, card_univ, Fintype.card_fin, nsmul_eq_mul]
  have hn : 1 ≤ n := Nat.one_le_iff_ne_zero.2 (by rintro rfl; exact a.elim0)
  push_cast [hn]
  ring

/-- `∑_{a,b,c distinct} x_a^2 x_b^2 x_c^2` from power sums. -/
theorem FS.mom3 {n : ℕ} {L : List (List ℝ)} (h : FS n L) {p2 p4 p6 : ℝ}
    (h2 : ConstPow n L 2 p2) (h4 : ConstPow n L 4 p4) (h6 : ConstPow n L 6 p6)
    {a b c : Fin n} (hab : a ≠ b) (hac : a ≠ c) (hbc : b ≠ c) :
    (n : ℝ) * (n - 1) * (n - 2) * osum n L (mono (e3 a b c 2 2 2)) =
      L.length * (p2 ^ 3 - 3 * p2 * p4 + 2 * p6) := by
  -- sum over the last index
  have hs : osum n L (fun x => x a ^ 2 * x b ^ 2 * ∑ i, x i ^ 2) =
      p2 * osum n L (mono (e2 a b 2 2)) := by
    unfold osum
    rw [← List.sum_map_mul_left]
    congr 1
    apply List.map_congr_left
    intro x hx
    beta_reduce
    rw [h2 x hx, mono_e2 hab]; ring
  have hs2 : osum n L (fun x => x a ^ 2 * x b ^ 2 * ∑ i, x i ^ 2) =
      2 * osum n L (mono (e2 a b 4 2)) + (n - 2) * osum n L (mono (e3 a b c 2 2 2)) := by
    have e : (fun x : Fin n → ℝ => x a ^ 2 * x b ^ 2 * ∑ i, x i ^ 2) =
        fun x => ∑ i, x a ^ 2 * x b ^ 2 * x i ^ 2 := by
      funext x; rw [mul_sum]
    rw [e, osum_finset_sum]
    rw [← add_sum_erase univ _ (mem_univ a), ← add_sum_erase (univ.erase a) _
      (show b ∈ univ.erase a from mem_erase.2 ⟨hab.symm, mem_univ b⟩)]
    have ea : osum n L (fun x => x a ^ 2 * x b ^ 2 * x a ^ 2) = osum n L (mono (e2 a b 4 2)) :=
      osum_congr L _ _ fun x _ => by rw [mono_e2 hab]; ring
    have eb : osum n L (fun x => x a ^ 2 * x b ^ 2 * x b ^ 2) = osum n L (mono (e2 a b 4 2)) := by
      rw [h.e2_eq 4 2 hab hab.symm]
      exact osum_congr L _ _ fun x _ => by rw [mono_e2 hab.symm]; ring
    have ec : ∀ i ∈ (univ.erase a).erase b, osum n L (fun x => x a ^ 2 * x b ^ 2 * x i ^ 2) =
        osum n L (mono (e3 a b c 2 2 2)) := by
      intro i hi
      rw [mem_erase, mem_erase] at hi
      have hib : b ≠ i := hi.1.symm
      have hia : a ≠ i := hi.2.1.symm
      rw [h.e3_eq 2 2 2 hab hac hbc hab hia hib]
      exact osum_congr L _ _ fun x _ => by rw [mono_e3 hab hia hib]
    rw [ea, eb, sum_congr rfl ec, sum_const, nsmul_eq_mul,
      card_erase_of_mem (mem_erase.2 ⟨hab.symm, mem_univ b⟩), card_erase_of_mem (mem_univ a),
      card_univ, Fintype.card_fin]
    have hn : 2 ≤ n := by
      have := Fintype.card_le_of_injective (fun i : Fin 2 => if i = 0 then a else b)
        (by intro i j; fin_cases i <;> fin_cases j <;> simp [hab, hab.symm])
      simpa using this
    rw [Nat.sub_sub, Nat.cast_sub hn]
    push_cast; ring
  have m22 := h.mom2 h2 h2 h4 hab
  have m42 := h.mom2 h4 h2 h6 hab
  rw [hs] at hs2
  linear_combination (n : ℝ) * (n - 1) * (-hs2) + p2 * m22 - 2 * m42

/-- The values of a symmetric moment functional on the even monomials of degree at most 6. -/
structure SymMom {n : ℕ} (M : (Fin n → ℕ) → ℝ) (m2 m4 m22 m6 m42 m222 : ℝ) : Prop where
  odd : ∀ α, (∃ i, Odd (α i)) → M α = 0
  zero : M 0 = 1
  two : ∀ a, M (e1 a 2) = m2
  four : ∀ a, M (e1 a 4) = m4
  twotwo : ∀ a b, a ≠ b → M (e2 a b 2 2) = m22
  six : ∀ a, M (e1 a 6) = m6
  fourtwo : ∀ a b, a ≠ b → M (e2 a b 4 2) = m42
  ttt : ∀ a b c, a ≠ b → a ≠ c → b ≠ c → M (e3 a b c 2 2 2) = m222

theorem two_le_of_ne {n : ℕ} {a b : Fin n} (hab : a ≠ b) : 2 ≤ n := by
  have := Fintype.card_le_of_injective (fun i : Fin 2 => if i = 0 then a else b)
    (by intro i j; fin_cases i <;> fin_cases j <;> simp [hab, hab.symm])
  simpa using this

theorem three_le_of_ne {n : ℕ} {a b c : Fin n} (hab : a ≠ b) (hac : a ≠ c) (hbc : b ≠ c) :
    3 ≤ n := by
  have := Fintype.card_le_of_injective (fun i : Fin 3 => if i = 0 then a else if i = 1 then b else c)
    (by intro i j; fin_cases i <;> fin_cases j <;> simp [hab, hab.symm, hac, hac.symm, hbc, hbc.symm])
  simpa using this

/-- A weighted fully symmetric group of points: weight, points, power sums. -/
structure Grp where
  w : ℝ
  L : List (List ℝ)
  p2 : ℝ
  p4 : ℝ
  p6 : ℝ

/-- The power sums are right and the points are fully symmetric. -/
structure Grp.Ok (n : ℕ) (g : Grp) : Prop where
  fs : FS n g.L
  h2 : ConstPow n g.L 2 g.p2
  h4 : ConstPow n g.L 4 g.p4
  h6 : ConstPow n g.L 6 g.p6

/-- Sum of `w N φ` over the groups. -/
def gsum (gs : List Grp) (φ : Grp → ℝ) : ℝ := (gs.map fun g => g.w * g.L.length * φ g).sum

theorem gsum_eq {n : ℕ} (gs : List Grp) (α : Fin n → ℕ) (φ : Grp → ℝ) (c : ℝ)
    (h : ∀ g ∈ gs, c * osum n g.L (mono α) = g.L.length * φ g) :
    c * (gs.map fun g => g.w * osum n g.L (mono α)).sum = gsum gs φ := by
  unfold gsum
  rw [← List.sum_map_mul_left]
  congr 1
  apply List.map_congr_left
  intro g hg
  have := h g hg
  rw [mul_left_comm, this]; ring

/-- Moment conditions for rules made of fully symmetric groups. -/
theorem fs_moments {n d : ℕ} (hd : d ≤ 7) (gs : List Grp) (hok : ∀ g ∈ gs, g.Ok n)
    {M : (Fin n → ℕ) → ℝ} {m2 m4 m22 m6 m42 m222 : ℝ} (hM : SymMom M m2 m4 m22 m6 m42 m222)
    (c0 : gsum gs (fun _ => 1) = 1)
    (c2 : 2 ≤ d → 1 ≤ n → gsum gs (fun g => g.p2) = n * m2)
    (c4 : 4 ≤ d → 1 ≤ n → gsum gs (fun g => g.p4) = n * m4)
    (c22 : 4 ≤ d → 2 ≤ n → gsum gs (fun g => g.p2 * g.p2 - g.p4) = (n : ℝ) * (n - 1) * m22)
    (c6 : 6 ≤ d → 1 ≤ n → gsum gs (fun g => g.p6) = n * m6)
    (c42 : 6 ≤ d → 2 ≤ n → gsum gs (fun g => g.p4 * g.p2 - g.p6) = (n : ℝ) * (n - 1) * m42)
    (c222 : 6 ≤ d → 3 ≤ n → gsum gs (fun g => g.p2 ^ 3 - 3 * g.p2 * g.p4 + 2 * g.p6) =
      (n : ℝ) * (n - 1) * (n - 2) * m222) :
    ∀ α : Fin n → ℕ, ∑ i, α i ≤ d →
      (gs.map fun g => g.w * osum n g.L (mono α)).sum = M α := by
  have n0 : ∀ a : Fin n, (n : ℝ) ≠ 0 := fun a => by
    have : n ≠ 0 := by rintro rfl; exact a.elim0
    exact_mod_cast this
  have n1 : ∀ a b : Fin n, a ≠ b → (n : ℝ) * (n - 1) ≠ 0 := fun a b hab => by
    have h : (2 : ℝ) ≤ n := by exact_mod_cast two_le_of_ne hab
    have : (0 : ℝ) < n - 1 := by linarith
    have h0 := n0 a
    exact mul_ne_zero h0 this.ne'
  have n2 : ∀ a b c : Fin n, a ≠ b → a ≠ c → b ≠ c → (n : ℝ) * (n - 1) * (n - 2) ≠ 0 :=
    fun a b c hab hac hbc => by
      have h : (3 : ℝ) ≤ n := by exact_mod_cast three_le_of_ne hab hac hbc
      have : (0 : ℝ) < n - 2 := by linarith
      exact mul_ne_zero (n1 a b hab) this.ne'
  have le1 : ∀ a : Fin n, 1 ≤ n := fun a => by have := a.isLt; omega
  apply classify_even hd
  · intro α hα
    rw [hM.odd α hα]
    apply List.sum_eq_zero
    intro x hx
    obtain ⟨g, hg, rfl⟩ := List.mem_map.1 hx
    rw [(hok g hg).fs.odd α hα, mul_zero]
  · rw [hM.zero, ← c0, ← gsum_eq gs (0 : Fin n → ℕ) (fun _ => 1) 1, one_mul]
    intro g _
    rw [osum_mono_zero]; ring
  · intro h a
    rw [hM.two a]
    apply mul_left_cancel₀ (n0 a)
    rw [← c2 h (le1 a)]
    exact gsum_eq gs _ _ _ fun g hg => (hok g hg).fs.mom1 (hok g hg).h2 a
  · intro h a
    rw [hM.four a]
    apply mul_left_cancel₀ (n0 a)
    rw [← c4 h (le1 a)]
    exact gsum_eq gs _ _ _ fun g hg => (hok g hg).fs.mom1 (hok g hg).h4 a
  · intro h a b hab
    rw [hM.twotwo a b hab]
    apply mul_left_cancel₀ (n1 a b hab)
    rw [← c22 h (two_le_of_ne hab)]
    exact gsum_eq gs _ _ _ fun g hg => (hok g hg).fs.mom2 (hok g hg).h2 (hok g hg).h2 (hok g hg).h4 hab
  · intro h a
    rw [hM.six a]
    apply mul_left_cancel₀ (n0 a)
    rw [← c6 h (le1 a)]
    exact gsum_eq gs _ _ _ fun g hg => (hok g hg).fs.mom1 (hok g hg).h6 a
  · intro h a b hab
    rw [hM.fourtwo a b hab]
    apply mul_left_cancel₀ (n1 a b hab)
    rw [← c42 h (two_le_of_ne hab)]
    exact gsum_eq gs _ _ _ fun g hg => (hok g hg).fs.mom2 (hok g hg).h4 (hok g hg).h2 (hok g hg).h6 hab
  · intro h a b c hab hac hbc
    rw [hM.ttt a b c hab hac hbc]
    apply mul_left_cancel₀ (n2 a b c hab hac hbc)
    rw [← c222 h (three_le_of_ne hab hac hbc)]
    exact gsum_eq gs _ _ _ fun g hg =>
      (hok g hg).fs.mom3 (hok g hg).h2 (hok g hg).h4 (hok g hg).h6 hab hac hbc

end Quadpy
