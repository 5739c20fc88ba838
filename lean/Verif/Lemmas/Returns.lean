/-
When a constructor, modelled as a chain of `Option` steps, returns, and with which degree.
-/
import Verif.Model.Cn

namespace Quadpy

/-- The constructor returns iff `P`, and then with degree `d`. -/
def Returns (o : Option Scheme) (d : ℕ) (P : Prop) : Prop :=
  (P → ∃ S, o = some S ∧ S.degree = d) ∧ (¬ P → o = none)

theorem rd_isSome {n : ℕ} {items : List (ℝ × ℕ)} :
    (rd n items).isSome ↔ (∀ it ∈ items, 0 < it.2) ∧ (items.map Prod.snd).sum ≤ n := by
  unfold rd
  split_ifs with h
  · simpa using h
  · simpa using h

theorem guard_isSome {P : Prop} [Decidable P] : (guard P : Option Unit).isSome ↔ P := by
  by_cases h : P <;> simp [guard, h]

theorem sqrtO_isSome {x : ℝ} : (sqrtO x).isSome ↔ 0 ≤ x := by
  unfold sqrtO; split_ifs with h <;> simp [h]

theorem fsd_isSome {n : ℕ} {items : List (ℝ × ℕ)} :
    (fsd n items).isSome ↔ (items.map Prod.snd).sum ≤ n := by
  unfold fsd; split_ifs with h <;> simp [h]

theorem Returns.bind {α : Type} {o : Option α} {f : α → Option Scheme} {P Q : Prop} {d : ℕ}
    (h1 : o.isSome ↔ P) (h2 : ∀ a, Returns (f a) d Q) : Returns (o >>= f) d (P ∧ Q) := by
  cases o with
  | none => simp at h1; exact ⟨fun h => absurd h.1 h1, fun _ => rfl⟩
  | some a =>
    simp at h1
    exact ⟨fun h => (h2 a).1 h.2, fun h => (h2 a).2 fun hq => h ⟨h1, hq⟩⟩

theorem Returns.pure {S : Scheme} {d : ℕ} (h : S.degree = d) :
    Returns (Pure.pure S) d True := ⟨fun _ => ⟨S, rfl, h⟩, fun h => absurd trivial h⟩

theorem Returns.iff {o : Option Scheme} {d : ℕ} {P Q : Prop} (h : Returns o d P) (hpq : P ↔ Q) :
    Returns o d Q := by rwa [← hpq]

macro "returns_tac" : tactic => `(tactic| (
  try dsimp only
  apply Returns.iff
  · repeat first
      | exact Returns.pure rfl
      | (apply Returns.bind guard_isSome; intro _)
      | (apply Returns.bind sqrtO_isSome; intro _)
      | (apply Returns.bind fsd_isSome; intro _)
      | (apply Returns.bind rd_isSome; intro _)
  simp
  try omega))

end Quadpy
