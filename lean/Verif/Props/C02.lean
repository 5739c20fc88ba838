import Verif.Lemmas.Combine
import Mathlib.Algebra.Order.Group.Abs
import Mathlib.Data.List.Rotate

/-!
C02: `pm(v)` returns every sign pattern once, `pm_roll(v)` all cyclic shifts of these; both are closed
under changing the sign of any coordinate.
-/

namespace Quadpy

/-- Specification: change the sign of coordinate `k`. -/
def flipAt (k : ℕ) (row : List ℝ) : List ℝ := row.modify k (fun x => -x)

/-- C02 (pm), membership: a row is returned iff it agrees with `v` up to signs, entry by entry. -/
theorem C02_pm_mem (v row : List ℝ) : row ∈ pm v ↔ row.map abs = v.map abs := by
  unfold pm
  rw [mem_iterProduct, List.forall₂_map_right_iff]
  rw [← List.forall₂_eq_eq_eq, List.forall₂_map_left_iff, List.forall₂_map_right_iff]
  constructor
  · refine fun h => h.imp fun x y hxy => ?_
    split_ifs at hxy with h0
    · simp only [List.mem_singleton] at hxy; rw [hxy, h0]
    · simpa [abs_eq_abs] using hxy
  · refine fun h => h.imp fun x y hxy => ?_
    split_ifs with h0
    · subst h0; simpa using hxy
    · simpa [abs_eq_abs] using hxy

/-- C02 (pm): no row twice. -/
theorem C02_pm_nodup (v : List ℝ) : (pm v).Nodup := by
  apply nodup_iterProduct
  intro l hl
  obtain ⟨x, _, rfl⟩ := List.mem_map.1 hl
  split_ifs with h0
  · simp
  · simp only [List.nodup_cons, List.mem_singleton, List.not_mem_nil, not_false_eq_true,
      List.nodup_nil, and_self, and_true]
    intro h; apply h0; linarith

open Classical in
/-- C02 (pm): `2^k` rows, `k` the number of nonzero entries. -/
theorem C02_pm_length (v : List ℝ) : (pm v).length = 2 ^ v.countP (fun x => x ≠ 0) := by
  unfold pm
  rw [length_iterProduct, List.map_map]
  induction v with
  | nil => rfl
  | cons a v ih =>
    rw [List.map_cons, List.prod_cons, ih, List.countP_cons]
    by_cases h : a = 0
    · simp [h]
    · simp [h, pow_succ, mul_comm]

theorem flipAt_flipAt (k : ℕ) (row : List ℝ) : flipAt k (flipAt k row) = row := by
  unfold flipAt
  apply List.ext_getElem?
  intro i
  simp only [List.getElem?_modify]
  split_ifs
  · cases row[i]? <;> simp
  · cases row[i]? <;> simp

theorem map_abs_flipAt (k : ℕ) (row : List ℝ) : (flipAt k row).map abs = row.map abs := by
  unfold flipAt
  apply List.ext_getElem?
  intro i
  simp only [List.getElem?_map, List.getElem?_modify]
  split_ifs
  · cases row[i]? <;> simp
  · cases row[i]? <;> simp

/-- C02 (pm): closed under reflection in every coordinate, as a multiset. -/
theorem C02_pm_flip (v : List ℝ) (k : ℕ) : ((pm v).map (flipAt k)).Perm (pm v) := by
  have hinj : Function.Injective (flipAt k) := Function.LeftInverse.injective (flipAt_flipAt k)
  rw [List.perm_ext_iff_of_nodup ((C02_pm_nodup v).map hinj) (C02_pm_nodup v)]
  intro row
  rw [List.mem_map]
  constructor
  · rintro ⟨r, hr, rfl⟩
    rw [C02_pm_mem] at hr ⊢
    rw [map_abs_flipAt, hr]
  · intro hr
    refine ⟨flipAt k row, ?_, flipAt_flipAt k row⟩
    rw [C02_pm_mem] at hr ⊢
    rw [map_abs_flipAt, hr]

/-- `roll` does what `np.roll` is documented to do: entry `j` moves to `(j + i) mod n`. -/
theorem roll_getElem? {α : Type*} (i : ℕ) (row : List α) (j : ℕ) (hj : j < row.length) :
    (roll i row)[(j + i) % row.length]? = row[j]? := by
  have hpos : 0 < row.length := by omega
  unfold roll
  rw [List.getElem?_rotate (Nat.mod_lt _ hpos)]
  congr 1
  have h1 : i % row.length < row.length := Nat.mod_lt _ hpos
  rw [Nat.mod_add_mod]
  have : j + i + (row.length - i % row.length) = j + row.length * (i / row.length + 1) := by
    have := Nat.div_add_mod i row.length
    rw [Nat.mul_add, mul_one]
    omega
  rw [this, Nat.add_mul_mod_self_left, Nat.mod_eq_of_lt hj]

theorem length_roll {α : Type*} (i : ℕ) (row : List α) : (roll i row).length = row.length := by
  simp [roll]

theorem flipAt_roll (i : ℕ) (row : List ℝ) (j : ℕ) (hj : j < row.length) :
    flipAt ((j + i) % row.length) (roll i row) = roll i (flipAt j row) := by
  have hpos : 0 < row.length := by omega
  unfold flipAt roll
  rw [List.length_modify]
  apply List.ext_getElem?
  intro l
  by_cases hl : l < row.length
  · rw [List.getElem?_modify, List.getElem?_rotate hl, List.getElem?_rotate (by simpa using hl),
      List.getElem?_modify, List.length_modify]
    have h1 : i % row.length < row.length := Nat.mod_lt _ hpos
    have : (j + i) % row.length = l ↔ j = (l + (row.length - i % row.length)) % row.length := by
      have e : ∀ a, (a + i + (row.length - i % row.length)) % row.length = a % row.length := by
        intro a
        have : a + i + (row.length - i % row.length) = a + row.length * (i / row.length + 1) := by
          have := Nat.div_add_mod i row.length
          rw [Nat.mul_add, mul_one]
          omega
        rw [this, Nat.add_mul_mod_self_left]
      constructor
      · rintro rfl
        rw [Nat.mod_add_mod, e, Nat.mod_eq_of_lt hj]
      · intro h
        rw [h, Nat.mod_add_mod, add_assoc, add_comm (row.length - _) i, ← add_assoc, e,
          Nat.mod_eq_of_lt hl]
    simp only [this]
  · rw [List.getElem?_eq_none, List.getElem?_eq_none] <;> simp <;> omega

/-- C02 (pm_roll), membership: the rows are the cyclic shifts of the signed copies of `v`. -/
theorem C02_pmRoll_mem (v row : List ℝ) :
    row ∈ pmRoll v ↔ ∃ i < v.length, ∃ r, r.map abs = v.map abs ∧ row = roll i r := by
  simp only [pmRoll, List.mem_flatMap, List.mem_range, List.mem_map, C02_pm_mem]
  exact exists_congr fun i => and_congr_right fun _ => exists_congr fun r =>
    and_congr_right fun _ => eq_comm

open Classical in
/-- C02 (pm_roll): `n * 2^k` rows. -/
theorem C02_pmRoll_length (v : List ℝ) :
    (pmRoll v).length = v.length * 2 ^ v.countP (fun x => x ≠ 0) := by
  simp [pmRoll, List.length_flatMap, C02_pm_length]

/-- C02 (pm_roll): closed under reflection in every coordinate, as a multiset. -/
theorem C02_pmRoll_flip (v : List ℝ) (k : ℕ) (hk : k < v.length) :
    ((pmRoll v).map (flipAt k)).Perm (pmRoll v) := by
  unfold pmRoll
  rw [List.map_flatMap]
  refine List.Perm.flatMap_left _ fun i hi => ?_
  -- the index that is moved to `k`
  have hpos : 0 < v.length := by omega
  set j := (k + (v.length - i % v.length)) % v.length with hj
  have hjl : j < v.length := Nat.mod_lt _ hpos
  have hji : (j + i) % v.length = k := by
    have hil : i < v.length := List.mem_range.1 hi
    rw [hj, Nat.mod_add_mod, Nat.mod_eq_of_lt hil,
      show k + (v.length - i) + i = k + v.length by omega, Nat.add_mod_right, Nat.mod_eq_of_lt hk]
  rw [List.map_map]
  have : ∀ r ∈ pm v, (flipAt k ∘ roll i) r = (roll i ∘ flipAt j) r := by
    intro r hr
    have hl : r.length = v.length := by
      have := congrArg List.length ((C02_pm_mem v r).1 hr)
      simpa using this
    have := flipAt_roll i r j (hl ▸ hjl)
    rw [hl, hji] at this
    exact this
  rw [List.map_congr_left this, ← List.map_map]
  exact (C02_pm_flip v j).map _

/-- Non-vacuity: a vector with a zero entry. -/
example : (pm [1, 0, 2]).length = 4 ∧ [-1, 0, 2] ∈ pm [1, 0, 2] ∧ [2, -1, 0] ∈ pmRoll [1, 0, 2] := by
  refine ⟨?_, ?_, ?_⟩
  · rw [C02_pm_length]; norm_num [List.countP_cons]
  · rw [C02_pm_mem]; norm_num
  · rw [C02_pmRoll_mem]
    exact ⟨1, by simp, [-1, 0, 2], by norm_num, by simp [roll]⟩

end Quadpy
