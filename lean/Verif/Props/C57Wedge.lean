import Verif.Lemmas.Near
import Verif.Model.MixedWedge
import Verif.Props.C56Wedge
import Verif.Props.C57

/-!
# C57: the wedge rules of Felippa with decimal numbers
-/

namespace Quadpy.W3
open MeasureTheory Finset Dec

/-- All points with their weights. -/
def flatG (data : List (ℝ × List (List ℝ))) : List (ℝ × List ℝ) :=
  data.flatMap fun g => g.2.map fun x => (g.1, x)

theorem fsum_flatG (n : ℕ) (data : List (ℝ × List (List ℝ))) (f : (Fin n → ℝ) → ℝ) :
    fsum n (flatG data) f = (data.map fun g => g.1 * osum n g.2 f).sum := by
  induction data with
  | nil => simp [flatG, fsum]
  | cons g data ih =>
    have : flatG (g :: data) = (g.2.map fun x => (g.1, x)) ++ flatG data := rfl
    rw [this, fsum_append, fsum_orbit, ih]
    simp

theorem near_of_check {data : List (ℝ × List (List ℝ))} {deg Dw D T B N W : ℕ} {Z : List (ℤ × List ℤ)}
    {ew e eps : ℝ} (hn : NearF Dw D ew e (flatG data) Z) (hew : 0 ≤ ew) (he : 0 ≤ e)
    (hB : (B : ℝ) / D + e ≤ 1) (heps : 1 / (T : ℝ) + (N * ew + W / Dw * (deg * e)) ≤ eps)
    (h : (Nat.blt 0 Dw && Nat.blt 0 D && Nat.blt 0 T && check 3 deg momWedge Dw D T [] Z &&
      bounds 3 B N W Z) = true) : Approx (schemeOf 3 data deg) eps := by
  simp only [Bool.and_eq_true] at h
  obtain ⟨⟨⟨⟨h1, h2⟩, h4⟩, h5⟩, h6⟩ := h
  have hl : ∀ p ∈ Z, p.2.length = 3 := fun p hp => by
    have h7 := (Bool.and_eq_true_iff.1 (Bool.and_eq_true_iff.1 h6).1).1
    exact Nat.eq_of_beq_eq_true (Bool.and_eq_true_iff.1 (List.all_eq_true.1 h7 p hp)).1
  refine approx_of_ref (schemeOf_wellShaped _ _ _ fun g hg x hx => ?_) ?_
  · obtain ⟨q, hq, h8⟩ := forall₂_mem hn (List.mem_flatMap.2 ⟨g, hg, List.mem_map.2 ⟨x, hx, rfl⟩⟩)
    have := h8.2.length_eq
    rw [hl q hq] at this
    exact this
  · refine approxUpTo_of_mono (dot_linOnMono _ _) ratMom_wedge.lin fun α hα => ?_
    have h7 := fsum_approx (M := 1) (Nat.le_of_ble_eq_true h1) (Nat.le_of_ble_eq_true h2)
      (Nat.le_of_ble_eq_true h4) hew he le_rfl hB (by simpa using heps) hn h5 h6 α hα (ratMom_wedge.den α)
    have h8 := ratMom_wedge.mom α
    simp only [integral_ref_one, one_mul] at h8
    rw [dot_schemeOf, ← fsum_flatG, h8]
    exact h7

macro "near_flat" : tactic => `(tactic|
  (simp only [flatG, s3, s3_z, s21, s21_z, s111_z, List.flatMap_cons, List.flatMap_nil, List.map_cons,
     List.map_nil, List.cons_append, List.nil_append]
   unfold NearF NearL
   repeat' first
     | exact List.Forall₂.nil
     | refine List.Forall₂.cons ?_ ?_
     | refine And.intro ?_ ?_
   all_goals
     rw [rz, abs_le]
     constructor
   all_goals first
     | (norm_num; done)
     | (push_cast; linarith)))

set_option maxHeartbeats 2000000 in
/-- C57, felippa_4 on the wedge. -/
theorem C57_w3_felippa_4 : Approx felippa_4 1.1e-16 := by
  obtain ⟨l0, u0⟩ : -1e-39 ≤ √10 - 3.162277660168379331998893544432718533720 ∧
      √10 - 3.162277660168379331998893544432718533720 ≤ 1e-39 := by near_sqrt
  obtain ⟨l1, u1⟩ : -1e-36 ≤ √(950 - 220 * √10) - 15.946752483278736428644100571638271625 ∧
      √(950 - 220 * √10) - 15.946752483278736428644100571638271625 ≤ 1e-36 := by near_sqrt
  obtain ⟨l2, u2⟩ : -1e-33 ≤ √(3 / 5) - 0.774596669241483377035853079956480 ∧
      √(3 / 5) - 0.774596669241483377035853079956480 ≤ 1e-33 := by near_sqrt
  refine near_of_check (Dw := 12000000000000000000000000000000) (D := 12000000000000000000000000000000) (T := 10 ^ 16)
    (B := 9802170875765502156970284878347) (N := 18) (W := 12000000000000000600000000000000) (ew := 1e-29) (e := 1e-29)
    (Z := [(744605298926704920000000000000, [5351381890991578635819951046597,
      1297236218016842728360097906807, 9295160030897800524430236959478]),
      (744605298926704920000000000000, [1297236218016842728360097906807, 5351381890991578635819951046597,
      9295160030897800524430236959478]), (744605298926704920000000000000,
      [5351381890991578635819951046597, 5351381890991578635819951046597,
      9295160030897800524430236959478]), (744605298926704920000000000000,
      [5351381890991578635819951046597, 1297236218016842728360097906807,
      -9295160030897800524430236959478]), (744605298926704920000000000000,
      [1297236218016842728360097906807, 5351381890991578635819951046597,
      -9295160030897800524430236959478]), (744605298926704920000000000000,
      [5351381890991578635819951046597, 5351381890991578635819951046597,
      -9295160030897800524430236959478]), (366505812184406280000000000000,
      [1098914562117248921514857560826, 9802170875765502156970284878347,
      9295160030897800524430236959478]), (366505812184406280000000000000,
      [9802170875765502156970284878347, 1098914562117248921514857560826,
      9295160030897800524430236959478]), (366505812184406280000000000000,
      [1098914562117248921514857560826, 1098914562117248921514857560826,
      9295160030897800524430236959478]), (366505812184406280000000000000,
      [1098914562117248921514857560826, 9802170875765502156970284878347,
      -9295160030897800524430236959478]), (366505812184406280000000000000,
      [9802170875765502156970284878347, 1098914562117248921514857560826,
      -9295160030897800524430236959478]), (366505812184406280000000000000,
      [1098914562117248921514857560826, 1098914562117248921514857560826,
      -9295160030897800524430236959478]), (1191368478282727800000000000000,
      [5351381890991578635819951046597, 1297236218016842728360097906807, 0]),
      (1191368478282727800000000000000, [1297236218016842728360097906807,
      5351381890991578635819951046597, 0]), (1191368478282727800000000000000,
      [5351381890991578635819951046597, 5351381890991578635819951046597, 0]),
      (586409299495050000000000000000, [1098914562117248921514857560826, 9802170875765502156970284878347,
      0]), (586409299495050000000000000000, [9802170875765502156970284878347,
      1098914562117248921514857560826, 0]), (586409299495050000000000000000,
      [1098914562117248921514857560826, 1098914562117248921514857560826, 0])])
    ?_ (by norm_num) (by norm_num) (by norm_num) (by norm_num) (by decide +kernel)
  near_flat

set_option maxHeartbeats 2000000 in
/-- C57, felippa_5 on the wedge. -/
theorem C57_w3_felippa_5 : Approx felippa_5 1.1e-17 := by
  obtain ⟨l0, u0⟩ : -1e-39 ≤ √15 - 3.872983346207416885179265399782399610833 ∧
      √15 - 3.872983346207416885179265399782399610833 ≤ 1e-39 := by near_sqrt
  obtain ⟨l1, u1⟩ : -1e-36 ≤ √(3 / 5) - 0.774596669241483377035853079956479922 ∧
      √(3 / 5) - 0.774596669241483377035853079956479922 ≤ 1e-36 := by near_sqrt
  refine near_of_check (Dw := 12000000000000000000000000000000) (D := 12000000000000000000000000000000) (T := 10 ^ 17)
    (B := 9569123824237047868776303314037) (N := 21) (W := 11999999999999999880000000000000) (ew := 1e-29) (e := 1e-29)
    (Z := [(419797268482757160000000000000, [1215438087881476065611848342981,
      9569123824237047868776303314037, 9295160030897800524430236959478]),
      (419797268482757160000000000000, [9569123824237047868776303314037, 1215438087881476065611848342981,
      9295160030897800524430236959478]), (419797268482757160000000000000,
      [1215438087881476065611848342981, 1215438087881476065611848342981,
      9295160030897800524430236959478]), (419797268482757160000000000000,
      [1215438087881476065611848342981, 9569123824237047868776303314037,
      -9295160030897800524430236959478]), (419797268482757160000000000000,
      [9569123824237047868776303314037, 1215438087881476065611848342981,
      -9295160030897800524430236959478]), (419797268482757160000000000000,
      [1215438087881476065611848342981, 1215438087881476065611848342981,
      -9295160030897800524430236959478]), (441313842628353960000000000000,
      [5641704769261381077245294514161, 716590461477237845509410971677,
      9295160030897800524430236959478]), (441313842628353960000000000000,
      [716590461477237845509410971677, 5641704769261381077245294514161,
      9295160030897800524430236959478]), (441313842628353960000000000000,
      [5641704769261381077245294514161, 5641704769261381077245294514161,
      9295160030897800524430236959478]), (441313842628353960000000000000,
      [5641704769261381077245294514161, 716590461477237845509410971677,
      -9295160030897800524430236959478]), (441313842628353960000000000000,
      [716590461477237845509410971677, 5641704769261381077245294514161,
      -9295160030897800524430236959478]), (441313842628353960000000000000,
      [5641704769261381077245294514161, 5641704769261381077245294514161,
      -9295160030897800524430236959478]), (750000000000000000000000000000,
      [4000000000000000000000000000000, 4000000000000000000000000000000,
      9295160030897800524430236959478]), (750000000000000000000000000000,
      [4000000000000000000000000000000, 4000000000000000000000000000000,
      -9295160030897800524430236959478]), (671675629572411360000000000000,
      [1215438087881476065611848342981, 9569123824237047868776303314037, 0]),
      (671675629572411360000000000000, [9569123824237047868776303314037, 1215438087881476065611848342981,
      0]), (671675629572411360000000000000, [1215438087881476065611848342981,
      1215438087881476065611848342981, 0]), (706102148205366360000000000000,
      [5641704769261381077245294514161, 716590461477237845509410971677, 0]),
      (706102148205366360000000000000, [716590461477237845509410971677, 5641704769261381077245294514161,
      0]), (706102148205366360000000000000, [5641704769261381077245294514161,
      5641704769261381077245294514161, 0]), (1200000000000000000000000000000,
      [4000000000000000000000000000000, 4000000000000000000000000000000, 0])])
    ?_ (by norm_num) (by norm_num) (by norm_num) (by norm_num) (by decide +kernel)
  near_flat

set_option maxHeartbeats 2000000 in
/-- C57, felippa_6 on the wedge. -/
theorem C57_w3_felippa_6 : Approx felippa_6 1.1e-16 := by
  refine near_of_check (Dw := 12000000000000000000000000000000) (D := 12000000000000000000000000000000) (T := 10 ^ 16)
    (B := 10485863652203946480000000000000) (N := 48) (W := 12000000000000000024000000000000) (ew := 1e-29) (e := 1e-29)
    (Z := [(106119882188619804000000000000, [757068173898026760000000000000,
      10485863652203946480000000000000, -10333635739128631200000000000000]),
      (106119882188619804000000000000, [10485863652203946480000000000000, 757068173898026760000000000000,
      -10333635739128631200000000000000]), (106119882188619804000000000000,
      [757068173898026760000000000000, 757068173898026760000000000000,
      -10333635739128631200000000000000]), (106119882188619804000000000000,
      [757068173898026760000000000000, 10485863652203946480000000000000,
      10333635739128631200000000000000]), (106119882188619804000000000000,
      [10485863652203946480000000000000, 757068173898026760000000000000,
      10333635739128631200000000000000]), (106119882188619804000000000000,
      [757068173898026760000000000000, 757068173898026760000000000000,
      10333635739128631200000000000000]), (243748031141878080000000000000,
      [2991440942050924800000000000000, 6017118115898150400000000000000,
      -10333635739128631200000000000000]), (243748031141878080000000000000,
      [6017118115898150400000000000000, 2991440942050924800000000000000,
      -10333635739128631200000000000000]), (243748031141878080000000000000,
      [2991440942050924800000000000000, 2991440942050924800000000000000,
      -10333635739128631200000000000000]), (243748031141878080000000000000,
      [2991440942050924800000000000000, 6017118115898150400000000000000,
      10333635739128631200000000000000]), (243748031141878080000000000000,
      [6017118115898150400000000000000, 2991440942050924800000000000000,
      10333635739128631200000000000000]), (243748031141878080000000000000,
      [2991440942050924800000000000000, 2991440942050924800000000000000,
      10333635739128631200000000000000]), (172920888472204920000000000000,
      [3724229412405412800000000000000, 7638029989456783800000000000000,
      10333635739128631200000000000000]), (172920888472204920000000000000,
      [637740598137803400000000000000, 3724229412405412800000000000000,
      10333635739128631200000000000000]), (172920888472204920000000000000,
      [7638029989456783800000000000000, 637740598137803400000000000000,
      10333635739128631200000000000000]), (172920888472204920000000000000,
      [7638029989456783800000000000000, 3724229412405412800000000000000,
      10333635739128631200000000000000]), (172920888472204920000000000000,
      [637740598137803400000000000000, 7638029989456783800000000000000,
      10333635739128631200000000000000]), (172920888472204920000000000000,
      [3724229412405412800000000000000, 637740598137803400000000000000,
      10333635739128631200000000000000]), (172920888472204920000000000000,
      [3724229412405412800000000000000, 7638029989456783800000000000000,
      -10333635739128631200000000000000]), (172920888472204920000000000000,
      [637740598137803400000000000000, 3724229412405412800000000000000,
      -10333635739128631200000000000000]), (172920888472204920000000000000,
      [7638029989456783800000000000000, 637740598137803400000000000000,
      -10333635739128631200000000000000]), (172920888472204920000000000000,
      [7638029989456783800000000000000, 3724229412405412800000000000000,
      -10333635739128631200000000000000]), (172920888472204920000000000000,
      [637740598137803400000000000000, 7638029989456783800000000000000,
      -10333635739128631200000000000000]), (172920888472204920000000000000,
      [3724229412405412800000000000000, 637740598137803400000000000000,
      -10333635739128631200000000000000]), (198949556032621080000000000000,
      [757068173898026760000000000000, 10485863652203946480000000000000,
      4079772523018275600000000000000]), (198949556032621080000000000000,
      [10485863652203946480000000000000, 757068173898026760000000000000,
      4079772523018275600000000000000]), (198949556032621080000000000000,
      [757068173898026760000000000000, 757068173898026760000000000000, 4079772523018275600000000000000]),
      (198949556032621080000000000000, [757068173898026760000000000000, 10485863652203946480000000000000,
      -4079772523018275600000000000000]), (198949556032621080000000000000,
      [10485863652203946480000000000000, 757068173898026760000000000000,
      -4079772523018275600000000000000]), (198949556032621080000000000000,
      [757068173898026760000000000000, 757068173898026760000000000000,
      -4079772523018275600000000000000]), (456969623216398080000000000000,
      [2991440942050924800000000000000, 6017118115898150400000000000000,
      4079772523018275600000000000000]), (456969623216398080000000000000,
      [6017118115898150400000000000000, 2991440942050924800000000000000,
      4079772523018275600000000000000]), (456969623216398080000000000000,
      [2991440942050924800000000000000, 2991440942050924800000000000000,
      4079772523018275600000000000000]), (456969623216398080000000000000,
      [2991440942050924800000000000000, 6017118115898150400000000000000,
      -4079772523018275600000000000000]), (456969623216398080000000000000,
      [6017118115898150400000000000000, 2991440942050924800000000000000,
      -4079772523018275600000000000000]), (456969623216398080000000000000,
      [2991440942050924800000000000000, 2991440942050924800000000000000,
      -4079772523018275600000000000000]), (324185565238036560000000000000,
      [3724229412405412800000000000000, 7638029989456783800000000000000,
      4079772523018275600000000000000]), (324185565238036560000000000000,
      [637740598137803400000000000000, 3724229412405412800000000000000,
      4079772523018275600000000000000]), (324185565238036560000000000000,
      [7638029989456783800000000000000, 637740598137803400000000000000,
      4079772523018275600000000000000]), (324185565238036560000000000000,
      [7638029989456783800000000000000, 3724229412405412800000000000000,
      4079772523018275600000000000000]), (324185565238036560000000000000,
      [637740598137803400000000000000, 7638029989456783800000000000000,
      4079772523018275600000000000000]), (324185565238036560000000000000,
      [3724229412405412800000000000000, 637740598137803400000000000000,
      4079772523018275600000000000000]), (324185565238036560000000000000,
      [3724229412405412800000000000000, 7638029989456783800000000000000,
      -4079772523018275600000000000000]), (324185565238036560000000000000,
      [637740598137803400000000000000, 3724229412405412800000000000000,
      -4079772523018275600000000000000]), (324185565238036560000000000000,
      [7638029989456783800000000000000, 637740598137803400000000000000,
      -4079772523018275600000000000000]), (324185565238036560000000000000,
      [7638029989456783800000000000000, 3724229412405412800000000000000,
      -4079772523018275600000000000000]), (324185565238036560000000000000,
      [637740598137803400000000000000, 7638029989456783800000000000000,
      -4079772523018275600000000000000]), (324185565238036560000000000000,
      [3724229412405412800000000000000, 637740598137803400000000000000,
      -4079772523018275600000000000000])])
    ?_ (by norm_num) (by norm_num) (by norm_num) (by norm_num) (by decide +kernel)
  near_flat

/-- The error for the volume of the reference wedge. -/
example : |integrate felippa_6 (fun _ => 1) ![![![0, 0, -1], ![1, 0, -1], ![0, 1, -1]],
        ![![0, 0, 1], ![1, 0, 1], ![0, 1, 1]]] -
      ∫ _ in convexHull ℝ (Set.range fun k : Fin 2 × Fin 3 =>
        ![![![(0 : ℝ), 0, -1], ![1, 0, -1], ![0, 1, -1]], ![![0, 0, 1], ![1, 0, 1], ![0, 1, 1]]] k.1 k.2),
        (1 : ℝ)| ≤
    1.1e-16 * volume.real (convexHull ℝ (Set.range fun k : Fin 2 × Fin 3 =>
        ![![![(0 : ℝ), 0, -1], ![1, 0, -1], ![0, 1, -1]], ![![0, 0, 1], ![1, 0, 1], ![0, 1, 1]]] k.1 k.2)) := by
  have := C57_w3_felippa_6.2 ![![![0, 0, -1], ![1, 0, -1], ![0, 1, -1]],
        ![![0, 0, 1], ![1, 0, 1], ![0, 1, 1]]] (by
      constructor <;> ext i <;> fin_cases i <;> simp) 1 1 (by simp) (by simp) (by simp)
  rw [show (1 : MvPolynomial (Fin 3) ℝ) = MvPolynomial.monomial 0 1 from rfl,
    MvPolynomial.support_monomial, if_neg one_ne_zero] at this
  simpa using this

end Quadpy.W3
