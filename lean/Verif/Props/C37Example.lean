import Verif.Props.C37
import Verif.Props.C44

/-!
# A concrete run of the adaptive loop

`|x|` on `[-1, 1]` with the pair Simpson/midpoint and `eps_abs = 1/2`: the first evaluation is
rejected (estimate `8/9`), one bisection follows, both halves are accepted, the result is `1` with
error `0`.  This run meets the hypotheses of the theorems of C36, C37 and C39.
-/

namespace Quadpy
namespace Adaptive

/-- Simpson/midpoint. -/
noncomputable def exGK : GK := ⟨[-1, 0, 1], [1 / 3, 4 / 3, 1 / 3], [2]⟩

noncomputable def exCfg : Config := ⟨some (1 / 2), none, npAny, 1 / 4, some 10⟩

theorem ex_half (I : Ivl Unit) (hI : I = (fun _ => -1, fun _ => 0) ∨ I = (fun _ => 0, fun _ => 1)) :
    errEst exGK (fun x (_ : Unit) => |x ()|) I () = 0 ∧ len I = 1 ∧
      valGauss exGK (fun x (_ : Unit) => |x ()|) I () = 1 / 2 := by
  have hl : len I = 1 := by rcases hI with rfl | rfl <;> simp [len]
  have hg : valGauss exGK (fun x (_ : Unit) => |x ()|) I () = 1 / 2 := by
    rcases hI with rfl | rfl <;> simp only [valGauss, hl] <;> simp [exGK, vdot, affine, odds]
  have ha : average exGK (fun x (_ : Unit) => |x ()|) I () = 1 / 2 := by
    rcases hI with rfl | rfl <;> simp [average, exGK, vdot, affine] <;> norm_num
  have hk : valKronrod exGK (fun x (_ : Unit) => |x ()|) I () = 1 / 2 := by
    simp only [valKronrod, ha, hl]; norm_num
  have hi : Itilde exGK (fun x (_ : Unit) => |x ()|) I () = 1 / 6 := by
    simp only [Itilde, ha, hl]
    rcases hI with rfl | rfl <;> simp [exGK, vdot, affine] <;> norm_num [abs_of_pos, abs_of_neg]
  exact ⟨C44_zero _ _ _ _ (by rw [hi]; norm_num [abs_of_pos]) (by rw [hk, hg]), hl, hg⟩

theorem example_run : ∃ v e, integrateAdaptive (δ := Unit) (ι := Unit) exGK exCfg
    (fun x _ => |x ()|) [(fun _ => -1, fun _ => 1)] 1 = .returned v e ∧ v () = 1 ∧ e () = 0 := by
  have h0 : good0 (δ := Unit) exGK exCfg (fun x (_ : Unit) => |x ()|) (fun _ => -1, fun _ => 1) = false := by
    have : errEst (δ := Unit) (ι := Unit) exGK (fun x _ => |x ()|) (fun _ => -1, fun _ => 1) () =
        8 / 9 := C44_example
    simp only [exCfg, good0, npAny, List.append_nil, List.any_cons, List.any_nil,
      Bool.or_false, id]
    rw [decide_eq_false_iff_not]
    intro h
    have := (h ()).trans_eq' this
    norm_num at this
  have hb : bisect [((fun _ => -1, fun _ => 1) : Ivl Unit)] =
      [(fun _ => -1, fun _ => 0), (fun _ => 0, fun _ => 1)] := by
    simp [bisect]
  have hl := ex_half _ (Or.inl rfl)
  have hr := ex_half _ (Or.inr rfl)
  have hi : init exGK exCfg (fun x (_ : Unit) => |x ()|) [(fun _ => -1, fun _ => 1)] =
      ⟨[(fun _ => -1, fun _ => 1)], fun _ => 0, fun _ => 0, 1, 0⟩ := by
    simp only [init, h0, List.filter_cons, Bool.not_false, if_true, List.filter_nil]
    rfl
  have hg : ∀ I ∈ [((fun _ => -1, fun _ => 0) : Ivl Unit), (fun _ => 0, fun _ => 1)],
      ∀ ttv : Unit → ℝ, goodN exGK exCfg (fun x (_ : Unit) => |x ()|) ttv (fun _ => 0) 2 I = true := by
    intro I hI ttv
    have hI' : I = (fun _ => -1, fun _ => 0) ∨ I = (fun _ => 0, fun _ => 1) := by simpa using hI
    obtain ⟨h1, h2, -⟩ := ex_half I hI'
    simp only [exCfg, goodN, npAny, List.append_nil, List.any_cons, List.any_nil, Bool.or_false, id,
      decide_eq_true_eq]
    refine ⟨by norm_num, fun _ => ?_⟩
    rw [h1, h2]; norm_num
  have hsum : (([((fun _ => -1, fun _ => 0) : Ivl Unit), (fun _ => 0, fun _ => 1)]).map len).sum
      = 2 := by
    simp only [List.map_cons, List.map_nil, List.sum_cons, List.sum_nil, hl.2.1, hr.2.1]; norm_num
  obtain ⟨s', hs'⟩ : ∃ s', round exGK exCfg (fun x (_ : Unit) => |x ()|)
      ⟨[(fun _ => -1, fun _ => 1)], fun _ => 0, fun _ => 0, 1, 0⟩ = .next s' := by
    simp only [round, hb]
    rw [if_neg, if_neg]
    · exact ⟨_, rfl⟩
    · rintro ⟨I, hI, h⟩
      have hI' : I = (fun _ => -1, fun _ => 0) ∨ I = (fun _ => 0, fun _ => 1) := by simpa using hI
      rw [(ex_half I hI').2.1] at h
      norm_num [exCfg] at h
    · simp [exCfg]
  have hn := (round_next hs').2.2
  simp only [hb, hsum] at hn
  rw [List.filter_eq_self.2 fun I hI => hg I hI _, List.filter_eq_nil_iff.2 fun I hI => by
    rw [hg I hI]; simp] at hn
  refine ⟨s'.values, s'.errors, ?_, ?_, ?_⟩
  · rw [integrateAdaptive, if_pos ⟨by simp, by simp [exCfg]⟩, hi, loop, if_neg (by simp)]
    simp only [hs']
    rw [loop, if_pos (by rw [hn]), reshape, if_pos (by simp)]
  · rw [hn]
    simp only [total, List.map_cons, List.map_nil, List.sum_cons, List.sum_nil, hl.2.2, hr.2.2]
    norm_num
  · rw [hn]
    simp only [total, List.map_cons, List.map_nil, List.sum_cons, List.sum_nil, hl.1, hr.1]
    norm_num

/-- The reported error respects the tolerance in this run, as `C37_abs` says. -/
example : ∃ v e, integrateAdaptive (δ := Unit) (ι := Unit) exGK exCfg
    (fun x _ => |x ()|) [(fun _ => -1, fun _ => 1)] 1 = .returned v e ∧ ∀ i, e i < 1 / 2 := by
  obtain ⟨v, e, h, -⟩ := example_run
  exact ⟨v, e, h, C37_abs _ _ _ _ _ _ _ _ rfl rfl (Or.inl rfl) h⟩

end Adaptive
end Quadpy
