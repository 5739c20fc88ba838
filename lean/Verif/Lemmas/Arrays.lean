import Verif.Model.Arrays

/-!
# Broadcasting, transposition and contraction of arrays
-/

namespace Quadpy
namespace NdArray

theorem bdim_self (a : ℕ) : bdim a a = some a := by simp [bdim]

theorem bshapeRev_prefix (s t : List ℕ) : bshapeRev (s ++ t) s = some (s ++ t) := by
  induction s with
  | nil => cases t <;> simp [bshapeRev]
  | cons a s ih => simp [bshapeRev, bdim_self, ih]

theorem bshapeRev_prefix' (s t : List ℕ) : bshapeRev s (s ++ t) = some (s ++ t) := by
  induction s with
  | nil => simp [bshapeRev]
  | cons a s ih => simp [bshapeRev, bdim_self, ih]

theorem bshape_suffix (t s : List ℕ) : bshape (t ++ s) s = some (t ++ s) := by
  simp [bshape, bshapeRev_prefix]

theorem bshape_suffix' (t s : List ℕ) : bshape s (t ++ s) = some (t ++ s) := by
  simp [bshape, bshapeRev_prefix']

theorem bshape_self (s : List ℕ) : bshape s s = some s := bshape_suffix [] s

/-- An index within a shape. -/
def Valid (i s : List ℕ) : Prop := List.Forall₂ (· < ·) i s

theorem valid_zip {i s : List ℕ} (h : Valid i s) :
    List.zipWith (fun d k => if d = 1 then 0 else k) s i = i := by
  induction h with
  | nil => rfl
  | cons h _ ih =>
    rw [List.zipWith_cons_cons, ih]
    congr 1
    split_ifs with h1
    · omega
    · rfl

theorem bget_valid {a : NdArray} {i : List ℕ} (h : Valid i a.shape) : a.bget i = a.get i := by
  have hl := h.length_eq
  rw [bget, hl, Nat.sub_self, List.drop_zero, valid_zip h]

theorem bget_append {a : NdArray} {t i : List ℕ} (h : Valid i a.shape) :
    a.bget (t ++ i) = a.get i := by
  have hl := h.length_eq
  rw [bget, List.length_append, hl, Nat.add_sub_cancel, List.drop_left, valid_zip h]

theorem swapList_ends (m : List ℕ) (a b c : ℕ) :
    swapList 0 (m.length + 1) (a :: (m ++ [b, c])) = b :: (m ++ [a, c]) := by
  simp [swapList, List.getD_eq_getElem?_getD]

theorem swapList_two (b c : ℕ) : swapList 0 0 [b, c] = [b, c] := by simp [swapList]

theorem Valid.append {i j s t : List ℕ} (h : Valid i s) (h' : Valid j t) :
    Valid (i ++ j) (s ++ t) := List.rel_append h h'

theorem Valid.reverse {i s : List ℕ} (h : Valid i s) : Valid i.reverse s.reverse :=
  List.rel_reverse h

theorem Valid.one {i s : ℕ} (h : i < s) : Valid [i] [s] := .cons h .nil

theorem valid_replicate {i : List ℕ} {k : ℕ} (h : ∀ a ∈ i, a < k) :
    Valid i (List.replicate i.length k) := by
  induction i with
  | nil => exact .nil
  | cons a i ih => exact .cons (h a (by simp)) (ih fun b hb => h b (by simp [hb]))

theorem dotLast_some (a : NdArray) (w : List ℝ) (h : a.shape.getLast? = some w.length) :
    a.dotLast w = some ⟨a.shape.dropLast,
      fun i => ∑ p : Fin w.length, w[p] * a.get (i ++ [p.val])⟩ := if_pos h

/-- The contraction with the weights is `dot`. -/
theorem sum_eq_dot (m : ℕ) (w : List ℝ) (pts : List (List ℝ)) (h : w.length = pts.length)
    (f : (Fin m → ℝ) → ℝ) :
    ∑ p : Fin w.length, w[p] * f (toVec m (pts.getD p.val [])) = dot m w pts f := by
  induction w generalizing pts with
  | nil => cases pts <;> simp_all [dot]
  | cons a w ih =>
    cases pts with
    | nil => simp at h
    | cons b pts =>
      have e := ih pts (by simpa using h)
      rw [dot, List.zipWith_cons_cons, List.sum_cons, ← dot, ← e]
      erw [Fin.sum_univ_succ]
      simp

end NdArray
end Quadpy
