import Verif.Model.GoodScheme
import Mathlib.Tactic.IntervalCases

/-!
# C45: get_good_scheme

The claim holds for all domains but two: `c2` fails at 22, and `s3` returns nothing for degrees its
table covers.
-/

namespace Quadpy.Good

/-- The largest degree in the table. -/
def top : Domain → ℕ
  | .c2 => 21
  | .c3 => 11
  | .s2 => 19
  | .s3 => 14
  | .t2 => 50
  | .t3 => 14
  | .u3 => 47
  | .e2r => 15
  | .e2r2 => 15
  | .e3r => 7
  | .e3r2 => 7

/-- `top` is what its name says. -/
theorem top_spec (d : Domain) : (∃ e ∈ table d, e.1 = top d) ∧ ∀ e ∈ table d, e.1 ≤ top d := by
  cases d <;> decide

/-- What one lookup has to satisfy to be good. -/
def Serves (r : Result) (k : ℤ) : Prop :=
  ∃ name claimed, r = .found name claimed ∧ ∀ c : ℕ, claimed = some c → k ≤ c

/-- `Serves` as a test. -/
def servesB (r : Result) (k : ℤ) : Bool :=
  match r with
  | .found _ (some c) => k ≤ c
  | .found _ .none => true
  | _ => false

theorem serves_of {r : Result} {k : ℤ} (h : servesB r k = true) : Serves r k := by
  match r, h with
  | .found name (some c), h => exact ⟨name, some c, rfl, fun c' hc => by
      simp only [servesB, decide_eq_true_eq] at h; cases hc; exact h⟩
  | .found name .none, _ => exact ⟨name, .none, rfl, fun c' hc => by cases hc⟩

theorem serves_all (d : Domain) (k : ℕ) (hk : k ≤ top d) (hl : (k : ℤ) ≤ limit d) :
    Serves (getGoodScheme d k) k := by
  apply serves_of
  have h : ∀ d : Domain, ∀ k ∈ List.range (top d + 1), (k : ℤ) ≤ limit d →
      servesB (getGoodScheme d k) k = true := by
    intro d
    cases d <;> decide +kernel
  exact h d k (List.mem_range.2 (by omega)) hl

/-- C45 for all domains other than `c2` and `s3`: every nonnegative degree the table covers yields a
scheme whose claimed degree (as far as it is in the source) is at least the requested one, and every
larger degree yields `None`. -/
theorem C45_get_good_scheme_partial (d : Domain) (hc : d ≠ .c2) (hs : d ≠ .s3) (degree : ℤ) (h : 0 ≤ degree) :
    (degree ≤ top d → Serves (getGoodScheme d degree) degree) ∧
    ((top d : ℤ) < degree → getGoodScheme d degree = .none) := by
  obtain ⟨k, rfl⟩ := Int.eq_ofNat_of_zero_le h
  have hlim : limit d = top d := by cases d <;> first | rfl | exact absurd rfl hc | exact absurd rfl hs
  refine ⟨fun hk => serves_all d k (by omega) (by omega), fun hk => ?_⟩
  rw [getGoodScheme, lookup, if_neg (by omega)]

/-- C45 on the square: as claimed except for degree 22. -/
theorem C45_c2_partial (degree : ℤ) (h : 0 ≤ degree) (h22 : degree ≠ 22) :
    (degree ≤ 21 → Serves (getGoodScheme .c2 degree) degree) ∧
    (21 < degree → getGoodScheme .c2 degree = .none) := by
  obtain ⟨k, rfl⟩ := Int.eq_ofNat_of_zero_le h
  have e : limit .c2 = 22 := rfl
  refine ⟨fun hk => serves_all .c2 k (by show k ≤ 21; omega) (by omega), fun hk => ?_⟩
  rw [getGoodScheme, lookup, if_neg (by omega)]

/-- C45 is false for the square: `quadpy.c2.get_good_scheme(22)` raises a `KeyError`. -/
theorem C45_c2_refuted : getGoodScheme .c2 22 = .keyError := by decide +kernel

/-- C45 on the ball: as claimed up to degree 7. -/
theorem C45_s3_partial (degree : ℤ) (h : 0 ≤ degree) :
    (degree ≤ 7 → Serves (getGoodScheme .s3 degree) degree) ∧
    (7 < degree → getGoodScheme .s3 degree = .none) := by
  obtain ⟨k, rfl⟩ := Int.eq_ofNat_of_zero_le h
  have e : limit .s3 = 7 := rfl
  refine ⟨fun hk => serves_all .s3 k (by show k ≤ 14; omega) (by omega), fun hk => ?_⟩
  rw [getGoodScheme, lookup, if_neg (by omega)]

/-- C45 is false for the ball: degrees 8 to 14 are in the table but yield `None`. -/
theorem C45_s3_refuted (degree : ℤ) (h8 : 8 ≤ degree) (h14 : degree ≤ 14) :
    getGoodScheme .s3 degree = .none ∧ ∃ e ∈ table .s3, e.1 = degree := by
  have e : limit .s3 = 7 := rfl
  refine ⟨by rw [getGoodScheme, lookup, if_neg (by omega)], ?_⟩
  interval_cases degree <;> decide +kernel

/-- C45: negative degrees are admitted by every guard and raise a `KeyError`. -/
theorem C45_negative (d : Domain) (degree : ℤ) (h : degree < 0) : getGoodScheme d degree = .keyError := by
  have h0 : ∀ d : Domain, (0 ≤ limit d) ∧ ∀ e ∈ table d, 0 ≤ e.1 := by
    intro d; cases d <;> decide +kernel
  rw [getGoodScheme, lookup, if_pos (by have := (h0 d).1; omega)]
  have hf : (table d).find? (fun e => e.1 = degree) = none := by
    rw [List.find?_eq_none]
    intro e he hh
    have := (h0 d).2 e he
    simp only [decide_eq_true_eq] at hh
    omega
  rw [hf]

/-! A concrete case. -/
example : getGoodScheme .t2 5 = .found "hammer_marlowe_stroud_5" (some 5) := by decide +kernel

end Quadpy.Good
