import Verif.Model.DecimalRules
import Verif.Model.Kubatko
import Verif.Model.MixedRules
import Verif.Model.MixedWedge

/-!
# C56, C57: the degrees reported by the rules

The error bounds of C56 and C57 are about polynomials up to the degree which the rule reports; these
are the reported degrees.
-/

namespace Quadpy

/-- C56: the degrees reported by the rules with decimal numbers. -/
theorem C56_degrees :
    DecimalT2.lyness_jespersen_05.degree = 4 ∧
    DecimalT2.lyness_jespersen_12.degree = 6 ∧
    DecimalT2.lyness_jespersen_13.degree = 7 ∧
    DecimalT2.lyness_jespersen_14.degree = 7 ∧
    DecimalT2.lyness_jespersen_15.degree = 8 ∧
    DecimalT2.lyness_jespersen_16.degree = 8 ∧
    DecimalT2.lyness_jespersen_17.degree = 8 ∧
    DecimalT2.lyness_jespersen_18.degree = 9 ∧
    DecimalT2.lyness_jespersen_19.degree = 9 ∧
    DecimalT2.lyness_jespersen_20.degree = 11 ∧
    DecimalT2.lyness_jespersen_21.degree = 11 ∧
    DecimalT2.laursen_gellert_06.degree = 4 ∧
    DecimalT2.laursen_gellert_07.degree = 5 ∧
    DecimalT2.strang_fix_cowper_06.degree = 4 ∧
    DecimalT2.strang_fix_cowper_07.degree = 5 ∧
    DecimalT2.franke_09.degree = 7 ∧
    DecimalT2.franke_10.degree = 7 ∧
    DecimalT3.keast_3.degree = 3 ∧
    DecimalT3.keast_5.degree = 4 ∧
    DecimalC2.franke_8.degree = 1 ∧
    DecimalC3.witherden_vincent_07.degree = 7 ∧
    DecimalC3.witherden_vincent_09.degree = 9 ∧
    DecimalC3.witherden_vincent_11.degree = 11 ∧
    W3.Kubatko.kubatko_yeager_maggi_2a.degree = 2 ∧
    W3.Kubatko.kubatko_yeager_maggi_3a.degree = 3 ∧
    W3.Kubatko.kubatko_yeager_maggi_3d.degree = 3 ∧
    W3.Kubatko.kubatko_yeager_maggi_4a.degree = 4 ∧
    W3.Kubatko.kubatko_yeager_maggi_4b.degree = 4 ∧
    W3.Kubatko.kubatko_yeager_maggi_5a.degree = 5 ∧
    W3.Kubatko.kubatko_yeager_maggi_5b.degree = 5 ∧
    W3.Kubatko.kubatko_yeager_maggi_5c.degree = 5 ∧
    W3.Kubatko.kubatko_yeager_maggi_6a.degree = 6 ∧
    W3.Kubatko.kubatko_yeager_maggi_6b.degree = 6 ∧
    W3.Kubatko.kubatko_yeager_maggi_6c.degree = 6 ∧
    W3.Kubatko.kubatko_yeager_maggi_7a.degree = 7 ∧
    W3.Kubatko.kubatko_yeager_maggi_7b.degree = 7 ∧
    W3.Kubatko.kubatko_yeager_maggi_7c.degree = 7 ∧
    W3.Kubatko.kubatko_yeager_maggi_8a.degree = 8 ∧
    W3.Kubatko.kubatko_yeager_maggi_8b.degree = 8 ∧
    W3.Kubatko.kubatko_yeager_maggi_9.degree = 9 := by
  and_intros <;> rfl

/-- C57: the degrees reported by the rules mixing decimal numbers with roots or pi. -/
theorem C57_degrees :
    Mixed.franke_2a.degree = 7 ∧
    Mixed.franke_2b.degree = 7 ∧
    Mixed.franke_3a.degree = 9 ∧
    Mixed.franke_3b.degree = 9 ∧
    Mixed.franke_3c.degree = 9 ∧
    Mixed.hammer_stroud_3_2.degree = 7 ∧
    Mixed.hammer_stroud_6_3.degree = 7 ∧
    Mixed.hammer_stroud_19.degree = 9 ∧
    Mixed.hammer_stroud_21.degree = 15 ∧
    Mixed.wissmann_becker_6_1.degree = 6 ∧
    Mixed.wissmann_becker_6_2.degree = 6 ∧
    Mixed.wissmann_becker_8_1.degree = 8 ∧
    W3.felippa_4.degree = 4 ∧
    W3.felippa_5.degree = 5 ∧
    W3.felippa_6.degree = 6 ∧
    P3.felippa_9.degree = 5 := by
  and_intros <;> rfl

end Quadpy
