import Verif.Lemmas.Orbit
import Verif.Model.Symmetries
import Verif.Props.C04
import Verif.Spec.Schemes
import Mathlib.Tactic.FieldSimp
import Mathlib.Data.Nat.Choose.Cast

namespace Quadpy
open Finset

/-! Products of value lists. -/

theorem mem_iterProduct_ofFn {n : ℕ} (V : Fin n → List ℝ) (x : List ℝ)
    (hx : x ∈ iterProduct (List.ofFn V)) : x.length = n ∧ ∀ i, toVec n x i ∈ V i := by
  have h := (mem_iterProduct _ _).1 hx
  have hl : x.length = n := by simpa using h.length_eq
  refine ⟨hl, fun i => ?_⟩
  have := List.forall₂_iff_get.1 h
  have h2 := this.2 i (by rw [hl]; exact i.isLt) (by simp)
  simpa [toVec, hl] using h2

theorem osum_iterProduct_ofFn {n : ℕ} (V : Fin n → List ℝ) (α : Fin n → ℕ) :
    osum n (iterProduct (List.ofFn V)) (mono α) = ∏ i, ((V i).map (· ^ α i)).sum := by
  unfold osum
  have : (iterProduct (List.ofFn V)).map (fun x => mono α (toVec n x)) =
      (iterProduct (List.ofFn V)).map fun row =>
        (List.zipWith (fun g x => g x) (List.ofFn fun (i : Fin n) (v : ℝ) => v ^ α i) row).prod := by
    apply List.map_congr_left
    intro row hrow
    rw [zipWith_ofFn_prod _ row (mem_iterProduct_ofFn V row hrow).1]
    rfl
  rw [this, iterProduct_sum_prod _ _ (by simp)]
  rw [← List.prod_ofFn]
  congr 1
  apply List.ext_getElem
  · simp
  · intro i h1 h2
    simp

theorem replicate_eq_ofFn {α : Type*} (n : ℕ) (l : α) : List.replicate n l = List.ofFn fun _ : Fin n => l := by
  simp

/-- Evaluation of a monomial on `a e_i`. -/
theorem osum_append {n : ℕ} (L M : List (List ℝ)) (f : (Fin n → ℝ) → ℝ) :
    osum n (L ++ M) f = osum n L f + osum n M f := by simp [osum]

theorem osum_flatMap {n : ℕ} {ι : Type*} (l : List ι) (g : ι → List (List ℝ))
    (f : (Fin n → ℝ) → ℝ) : osum n (l.flatMap g) f = (l.map fun i => osum n (g i) f).sum := by
  induction l with
  | nil => simp [osum]
  | cons a l ih => rw [List.flatMap_cons, osum_append, ih, List.map_cons, List.sum_cons]

theorem sum_map_range {M : Type*} [AddCommMonoid M] (n : ℕ) (g : ℕ → M) :
    ((List.range n).map g).sum = ∑ i : Fin n, g i := by
  rw [← List.sum_ofFn]
  congr 1
  apply List.ext_getElem <;> simp

theorem toVec_single (n : ℕ) (i : ℕ) (hi : i < n) (a : ℝ) :
    toVec n (List.replicate i 0 ++ [a] ++ List.replicate (n - i - 1) 0) = Pi.single ⟨i, hi⟩ a := by
  funext j
  obtain ⟨j, hj⟩ := j
  rcases lt_trichotomy j i with h | h | h
  · have : (⟨j, hj⟩ : Fin n) ≠ ⟨i, hi⟩ := by simp; omega
    rw [Pi.single_eq_of_ne this]
    simp [toVec, List.getElem?_append, h]
  · subst h
    simp [toVec, List.getElem?_append]
  · have : (⟨j, hj⟩ : Fin n) ≠ ⟨i, hi⟩ := by simp; omega
    rw [Pi.single_eq_of_ne this]
    have h' : ¬ j < i := by omega
    have h1 : j - i ≠ 0 := by omega
    obtain ⟨t, ht⟩ : ∃ t, j - i = t + 1 := ⟨j - i - 1, by omega⟩
    simp only [toVec, List.append_assoc, List.singleton_append, List.getD_eq_getElem?_getD,
      List.getElem?_append, List.length_replicate, h', if_false, ht, List.getElem?_cons_succ,
      List.getElem?_replicate]
    split_ifs <;> rfl

theorem mono_single_comp {n : ℕ} (α : Fin n → ℕ) (σ : Equiv.Perm (Fin n)) (i : Fin n) (a : ℝ) :
    mono (α ∘ σ) (Pi.single i a) = mono α (Pi.single (σ i) a) := by
  unfold mono
  rw [← Equiv.prod_comp σ (fun j => (Pi.single (σ i) a : Fin n → ℝ) j ^ α j)]
  refine prod_congr rfl fun j _ => ?_
  by_cases h : j = i
  · subst h; simp
  · have : σ j ≠ σ i := fun h' => h (σ.injective h')
    simp [h, this]

theorem mono_single_odd {n : ℕ} (α : Fin n → ℕ) (i k : Fin n) (hk : Odd (α k)) (a : ℝ) :
    mono α (Pi.single i a) + mono α (Pi.single i (-a)) = 0 := by
  unfold mono
  by_cases h : k = i
  · subst h
    have e : ∀ a : ℝ, ∏ j, (Pi.single k a : Fin n → ℝ) j ^ α j =
        a ^ α k * ∏ j ∈ univ.erase k, (Pi.single k a : Fin n → ℝ) j ^ α j := fun a => by
      rw [← mul_prod_erase univ _ (mem_univ k)]; simp
    have e2 : ∀ a : ℝ, ∏ j ∈ univ.erase k, (Pi.single k a : Fin n → ℝ) j ^ α j =
        ∏ j ∈ univ.erase k, (0 : ℝ) ^ α j := fun a =>
      prod_congr rfl fun j hj => by rw [Pi.single_eq_of_ne (ne_of_mem_erase hj)]
    rw [e, e, e2, e2, hk.neg_pow]; ring
  · have e : ∀ a : ℝ, ∏ j, (Pi.single i a : Fin n → ℝ) j ^ α j = 0 := fun a =>
      prod_eq_zero (mem_univ k) (by simp [h, hk.pos.ne'])
    rw [e, e, add_zero]

theorem osum_a0 {n : ℕ} (a : ℝ) (f : (Fin n → ℝ) → ℝ) :
    osum n (orbit n .a0 [a]) f = ∑ i : Fin n, (f (Pi.single i a) + f (Pi.single i (-a))) := by
  rw [orbit, osum_flatMap, sum_map_range]
  refine sum_congr rfl fun i _ => ?_
  simp only [osum, List.map_cons, List.map_nil, List.sum_cons, List.sum_nil, add_zero]
  rw [toVec_single n i i.isLt, toVec_single n i i.isLt]

theorem mem_orbit_a0 {n : ℕ} {a : ℝ} {x : List ℝ} (hx : x ∈ orbit n .a0 [a]) :
    x.length = n ∧ ∃ i : Fin n, toVec n x = Pi.single i a ∨ toVec n x = Pi.single i (-a) := by
  simp only [orbit, List.mem_flatMap, List.mem_range, List.mem_cons, List.not_mem_nil, or_false] at hx
  obtain ⟨i, hi, rfl | rfl⟩ := hx
  · exact ⟨by simp; omega, ⟨i, hi⟩, Or.inl (toVec_single n i hi a)⟩
  · exact ⟨by simp; omega, ⟨i, hi⟩, Or.inr (toVec_single n i hi (-a))⟩

theorem length_orbit_a0 (n : ℕ) (a : ℝ) : (orbit n .a0 [a]).length = 2 * n := by
  simp [orbit, List.length_flatMap, mul_comm]

theorem a0_FS (n : ℕ) (a : ℝ) : FS n (orbit n .a0 [a]) where
  len := fun x hx => (mem_orbit_a0 hx).1
  perm := fun α σ => by
    rw [osum_a0, osum_a0, ← Equiv.sum_comp σ fun i =>
      mono α (Pi.single i a) + mono α (Pi.single i (-a))]
    simp only [mono_single_comp]
  odd := fun α ⟨k, hk⟩ => by
    rw [osum_a0]
    exact sum_eq_zero fun i _ => mono_single_odd α i k hk a

theorem sum_single_pow {n : ℕ} (i : Fin n) (a : ℝ) {k : ℕ} (hk : k ≠ 0) :
    ∑ j, (Pi.single i a : Fin n → ℝ) j ^ k = a ^ k := by
  rw [sum_eq_single i]
  · simp
  · intro b _ hb; simp [hb, hk]
  · simp

theorem a0_pow (n : ℕ) (a : ℝ) {k : ℕ} (hk : Even k) (hk0 : k ≠ 0) :
    ConstPow n (orbit n .a0 [a]) k (a ^ k) := by
  intro x hx
  obtain ⟨_, i, h | h⟩ := mem_orbit_a0 hx
  · rw [h, sum_single_pow i a hk0]
  · rw [h, sum_single_pow i _ hk0, hk.neg_pow]

/-! The vertices `[±a, ..., ±a]`. -/

theorem length_orbit_a (n : ℕ) (a : ℝ) : (orbit n .a [a]).length = 2 ^ n := by
  simp [orbit, length_iterProduct]

theorem a_FS (n : ℕ) (a : ℝ) : FS n (orbit n .a [a]) where
  len := fun x hx => by
    rw [orbit, replicate_eq_ofFn] at hx; exact (mem_iterProduct_ofFn _ x hx).1
  perm := fun α σ => by
    rw [orbit, replicate_eq_ofFn, osum_iterProduct_ofFn, osum_iterProduct_ofFn]
    exact Equiv.prod_comp σ fun i => (([a, -a] : List ℝ).map (· ^ α i)).sum
  odd := fun α ⟨k, hk⟩ => by
    rw [orbit, replicate_eq_ofFn, osum_iterProduct_ofFn]
    exact prod_eq_zero (mem_univ k) (by simp [hk.neg_pow])

theorem a_pow (n : ℕ) (a : ℝ) {k : ℕ} (hk : Even k) : ConstPow n (orbit n .a [a]) k (n * a ^ k) := by
  intro x hx
  rw [orbit, replicate_eq_ofFn] at hx
  have h := (mem_iterProduct_ofFn _ x hx).2
  have : ∀ i : Fin n, toVec n x i ^ k = a ^ k := fun i => by
    have h := h i
    simp only [List.mem_cons, List.not_mem_nil, or_false] at h
    rcases h with h | h <;> rw [h]
    exact hk.neg_pow a
  rw [sum_congr rfl fun i _ => this i]
  simp

theorem pm_replicate (n : ℕ) {t : ℝ} (ht : t ≠ 0) : pm (List.replicate n t) = orbit n .a [t] := by
  simp [pm, orbit, ht]

/-! The origin. -/

theorem zero_FS (n : ℕ) : FS n (z n) where
  len := by simp [z]
  perm := fun α σ => by
    have h : ∀ α : Fin n → ℕ, osum n (z n) (mono α) = ∏ i, (0 : ℝ) ^ α i := fun α => by
      simp [osum, z, mono, toVec]
    rw [h, h]
    exact Equiv.prod_comp σ fun i => (0 : ℝ) ^ α i
  odd := fun α ⟨k, hk⟩ => by
    simp only [osum, z, mono, List.map_cons, List.map_nil, List.sum_cons, List.sum_nil, add_zero]
    exact prod_eq_zero (mem_univ k) (by simp [toVec, hk.pos.ne'])

theorem zero_pow' (n : ℕ) {k : ℕ} (hk0 : k ≠ 0) : ConstPow n (z n) k 0 := by
  intro x hx
  simp only [z, List.mem_singleton] at hx
  subst hx
  exact sum_eq_zero fun i _ => by simp [toVec, hk0]

/-! Groups with their power sums. -/

theorem even2 : Even 2 := ⟨1, rfl⟩
theorem even4 : Even 4 := ⟨2, rfl⟩
theorem even6 : Even 6 := ⟨3, rfl⟩

/-- The origin with weight `w`. -/
def gZ (n : ℕ) (w : ℝ) : Grp := ⟨w, z n, 0, 0, 0⟩
/-- The points `±a e_i`. -/
noncomputable def gA0 (n : ℕ) (w a : ℝ) : Grp := ⟨w, orbit n .a0 [a], a ^ 2, a ^ 4, a ^ 6⟩
/-- The points `[±a, ..., ±a]`. -/
noncomputable def gA (n : ℕ) (w a : ℝ) : Grp := ⟨w, orbit n .a [a], n * a ^ 2, n * a ^ 4, n * a ^ 6⟩
/-- An `fsd` group. -/
def gFsd (w : ℝ) (items : List (ℝ × ℕ)) (L : List (List ℝ)) : Grp :=
  ⟨w, L, (items.map fun it => (it.2 : ℝ) * it.1 ^ 2).sum,
    (items.map fun it => (it.2 : ℝ) * it.1 ^ 4).sum, (items.map fun it => (it.2 : ℝ) * it.1 ^ 6).sum⟩

theorem gZ_ok (n : ℕ) (w : ℝ) : (gZ n w).Ok n :=
  ⟨zero_FS n, zero_pow' n (by norm_num), zero_pow' n (by norm_num), zero_pow' n (by norm_num)⟩
theorem gA0_ok (n : ℕ) (w a : ℝ) : (gA0 n w a).Ok n :=
  ⟨a0_FS n a, a0_pow n a even2 (by norm_num), a0_pow n a even4 (by norm_num),
    a0_pow n a even6 (by norm_num)⟩
theorem gA_ok (n : ℕ) (w a : ℝ) : (gA n w a).Ok n :=
  ⟨a_FS n a, a_pow n a even2, a_pow n a even4, a_pow n a even6⟩
theorem gFsd_ok {n : ℕ} (w : ℝ) {items : List (ℝ × ℕ)} {L : List (List ℝ)}
    (h : fsd n items = some L) : (gFsd w items L).Ok n :=
  ⟨fsd_FS h, fun x hx => fsd_powersum h 2 even2 (by norm_num) x hx,
    fun x hx => fsd_powersum h 4 even4 (by norm_num) x hx,
    fun x hx => fsd_powersum h 6 even6 (by norm_num) x hx⟩

theorem gZ_len (n : ℕ) (w : ℝ) : ((gZ n w).L.length : ℝ) = 1 := by simp [gZ, z]
theorem gA0_len (n : ℕ) (w a : ℝ) : ((gA0 n w a).L.length : ℝ) = 2 * n := by
  simp [gA0, length_orbit_a0]
theorem gA_len (n : ℕ) (w a : ℝ) : ((gA n w a).L.length : ℝ) = 2 ^ n := by
  simp [gA, length_orbit_a]

theorem fsd1_len {n : ℕ} {a : ℝ} {L : List (List ℝ)} (h : fsd n [(a, 1)] = some L) :
    (L.length : ℝ) = 2 * n := by
  have h1 := C01_fsd_length h
  have hn : 1 ≤ n := by simpa using (fsd_eq_some h).1
  obtain ⟨m, rfl⟩ : ∃ m, n = m + 1 := ⟨n - 1, by omega⟩
  simp only [List.map_cons, List.map_nil, List.prod_cons, List.prod_nil, List.sum_cons,
    List.sum_nil, Nat.factorial_succ] at h1
  have hf := Nat.factorial_pos m
  have : (m + 1 - (1 + 0)) = m := by omega
  rw [this] at h1
  have h2 : m.factorial * L.length = m.factorial * (2 * (m + 1)) := by
    simp at h1; rw [h1]; ring
  have := Nat.eq_of_mul_eq_mul_left hf h2
  rw [this]; push_cast; ring

theorem fsd2_len {n : ℕ} {a : ℝ} {L : List (List ℝ)} (h : fsd n [(a, 2)] = some L) :
    (L.length : ℝ) = 2 * n * (n - 1) := by
  have h1 := C01_fsd_length h
  have hn : 2 ≤ n := by simpa using (fsd_eq_some h).1
  obtain ⟨m, rfl⟩ : ∃ m, n = m + 2 := ⟨n - 2, by omega⟩
  have hf := Nat.factorial_pos m
  have : (m + 2 - (2 + 0)) = m := by omega
  simp only [List.map_cons, List.map_nil, List.prod_cons, List.prod_nil, List.sum_cons,
    List.sum_nil, this] at h1
  have h2 : m.factorial * L.length = m.factorial * (2 * (m + 2) * (m + 1)) := by
    simp [Nat.factorial_succ] at h1
    have h3 : 2 * (m.factorial * L.length) = 2 * (m.factorial * (2 * (m + 2) * (m + 1))) := by
      rw [← mul_assoc, h1]; ring
    omega
  have := Nat.eq_of_mul_eq_mul_left hf h2
  rw [this]; push_cast; ring

theorem fsd3_len {n : ℕ} {a : ℝ} {L : List (List ℝ)} (h : fsd n [(a, 3)] = some L) :
    (L.length : ℝ) = 4 / 3 * n * (n - 1) * (n - 2) := by
  have h1 := fsd_count h
  have hn : 3 ≤ n := by simpa using (fsd_eq_some h).1
  obtain ⟨m, rfl⟩ : ∃ m, n = m + 3 := ⟨n - 3, by omega⟩
  have hf : (m.factorial : ℝ) ≠ 0 := by exact_mod_cast (Nat.factorial_pos m).ne'
  have : (m + 3 - (3 + 0)) = m := by omega
  simp only [List.map_cons, List.map_nil, List.prod_cons, List.prod_nil, List.sum_cons,
    List.sum_nil, this] at h1
  push_cast [Nat.factorial_succ] at h1
  apply mul_left_cancel₀ hf
  push_cast
  linear_combination h1 / 6

theorem fsd11_len {n : ℕ} {a b : ℝ} {L : List (List ℝ)} (h : fsd n [(a, 1), (b, 1)] = some L) :
    (L.length : ℝ) = 4 * n * (n - 1) := by
  have h1 := fsd_count h
  have hn : 2 ≤ n := by simpa using (fsd_eq_some h).1
  obtain ⟨m, rfl⟩ : ∃ m, n = m + 2 := ⟨n - 2, by omega⟩
  have hf : (m.factorial : ℝ) ≠ 0 := by exact_mod_cast (Nat.factorial_pos m).ne'
  have : (m + 2 - (1 + (1 + 0))) = m := by omega
  simp only [List.map_cons, List.map_nil, List.prod_cons, List.prod_nil, List.sum_cons,
    List.sum_nil, this] at h1
  push_cast [Nat.factorial_succ] at h1
  apply mul_left_cancel₀ hf
  push_cast
  linear_combination h1

/-! From groups to schemes. -/

/-- A rule given by weights and points is the list of groups. -/
def IsGroups (n : ℕ) (weights : List ℝ) (points : List (List ℝ)) (gs : List Grp) : Prop :=
  ∀ f, dot n weights points f = (gs.map fun g => g.w * osum n g.L f).sum

theorem untangle_groups (n : ℕ) (gs : List Grp) (data : List (ℝ × List (List ℝ)))
    (h : data = gs.map fun g => (g.w, g.L)) :
    IsGroups n (untangle data).2 (untangle data).1 gs := by
  intro f
  rw [C04_untangle_dot, h]
  simp [Function.comp_def, osum]

theorem untangle_shape (n : ℕ) (gs : List Grp) (data : List (ℝ × List (List ℝ)))
    (h : data = gs.map fun g => (g.w, g.L)) (hok : ∀ g ∈ gs, g.Ok n) :
    (untangle data).2.length = (untangle data).1.length ∧
      ∀ x ∈ (untangle data).1, x.length = n := by
  refine ⟨C04_untangle_length data, fun x hx => ?_⟩
  subst h
  simp only [untangle, List.map_map, List.mem_flatten, List.mem_map] at hx
  obtain ⟨l, ⟨g, hg, rfl⟩, hx⟩ := hx
  exact (hok g hg).fs.len x hx

/-! `expand_symmetries` with one column per key. -/

theorem entryPoints_single (n : ℕ) (key : SymKey) (w : ℝ) (col : List ℝ) :
    entryPoints n ⟨key, [w], [col]⟩ = orbit n key col := by
  simp only [entryPoints, List.headD_cons, List.map_cons, List.map_nil, ← List.map_eq_flatMap]
  apply List.ext_getElem
  · simp
  · intro i h1 h2
    simp [h2]

theorem entryWeights_single (n : ℕ) (key : SymKey) (w : ℝ) (col : List ℝ) :
    entryWeights n ⟨key, [w], [col]⟩ = List.replicate (orbit n key col).length w := by
  simp only [entryWeights, List.headD_cons]
  generalize (orbit n key col).length = m
  induction m with
  | zero => rfl
  | succ m ih => rw [List.replicate_succ, List.flatten_cons, ih, List.replicate_succ]; rfl

/-- With one column per key, `expand_symmetries` is `untangle` of the orbits. -/
theorem expand_eq_untangle (n : ℕ) (l : List (SymKey × ℝ × List ℝ)) :
    expandSymmetries (l.map fun e => ⟨e.1, [e.2.1], [e.2.2]⟩) n =
      untangle (l.map fun e => (e.2.1, orbit n e.1 e.2.2)) := by
  simp only [expandSymmetries, untangle, List.map_map, Function.comp_def, entryPoints_single,
    entryWeights_single]

end Quadpy
