import Verif.Lemmas.LegendreChebyshev
import Verif.Props.C73

/-!
# C47: the degree of the Gauss-Kronrod rules for every `n`
-/

namespace Quadpy

open OneDim Spec Polynomial Legendre

theorem Legendre.odds_sublist : ∀ l : List ℝ, (Adaptive.odds l).Sublist l
  | [] => List.nil_sublist _
  | [_] => List.nil_sublist _
  | _ :: b :: t => ((odds_sublist t).cons_cons b).cons _

/-- The polynomial with the given roots. -/
noncomputable def Legendre.nodal (l : List ℝ) : ℝ[X] := (l.map fun x => X - C x).prod

theorem Legendre.nodal_natDegree (l : List ℝ) : (nodal l).natDegree = l.length := by
  have := natDegree_multiset_prod_X_sub_C_eq_card (l : Multiset ℝ)
  simpa [nodal] using this

theorem Legendre.nodal_eval {l : List ℝ} {x : ℝ} (hx : x ∈ l) : (nodal l).eval x = 0 := by
  rw [nodal, eval_list_prod]
  refine List.prod_eq_zero ?_
  simp only [List.map_map, List.mem_map]
  exact ⟨x, hx, by simp⟩

theorem Legendre.vdot_zero {v w : List ℝ} (h : ∀ x ∈ v, x = 0) : Adaptive.vdot v w = 0 := by
  rw [Adaptive.vdot]
  refine List.sum_eq_zero fun x hx => ?_
  rw [← List.map_uncurry_zip_eq_zipWith] at hx
  obtain ⟨p, hp, rfl⟩ := List.mem_map.1 hx
  exact mul_eq_zero_of_left (h _ (List.of_mem_zip hp).1) _

/-- However `n + 1` points are added to the `n ≥ 2` points of `gauss_legendre(n)`, and whatever the weights are: the
rule does not reach the degree `3 n + 2` (even `n`) or `3 n + 3` (odd `n`). -/
theorem C47_no_extension {n : ℕ} [NeZero n] (h2 : 2 ≤ n) {Q V : List ℝ} (hQ : GaussLegendre n Q V) {R P W : List ℝ}
    (hR : R.length = n + 1) (hP : P.Perm (Q ++ R)) : ¬ ExactC1 P W (3 * n + 2 + n % 2) := by
  intro hx
  obtain ⟨hE, hl, -⟩ := (C19_gauss_legendre n).2 Q V hQ
  refine no_stieltjes (n := n) (p := nodal Q) (by omega) (by rw [nodal_natDegree, hl]) (fun q hq => ?_) h2
    (E := nodal R) (by rw [nodal_natDegree, hR]) fun q hq => ?_
  · have hq' : q.natDegree < n := by
      rcases eq_or_ne q 0 with rfl | h0
      · simp; omega
      · exact (natDegree_lt_iff_degree_lt h0).2 hq
    have := hE.2 (nodal Q * q) (natDegree_mul_le.trans (by rw [nodal_natDegree, hl]; omega))
    refine this.symm.trans (vdot_zero fun y hy => ?_)
    obtain ⟨x, hx, rfl⟩ := List.mem_map.1 hy
    rw [eval_mul, nodal_eval hx, zero_mul]
  · have := hx.2 (nodal Q * (nodal R * q)) (natDegree_mul_le.trans (by
      have := natDegree_mul_le (p := nodal R) (q := q)
      rw [nodal_natDegree] at *
      rw [hl]
      omega))
    refine this.symm.trans (vdot_zero fun y hy => ?_)
    obtain ⟨x, hx, rfl⟩ := List.mem_map.1 hy
    rcases List.mem_append.1 (hP.subset hx) with h | h
    · rw [eval_mul, nodal_eval h, zero_mul]
    · rw [eval_mul, eval_mul, nodal_eval h, zero_mul, mul_zero]

theorem exactL_legendre {P W : List ℝ} {d : ℕ} : ExactL P W d
    (weightInt (Set.Ioo (-1) 1) fun x => (1 - x) ^ (0 : ℝ) * (1 + x) ^ (0 : ℝ)) ↔ ExactC1 P W d := by
  have e : ∀ p : ℝ[X], weightInt (Set.Ioo (-1) 1) (fun x => (1 - x) ^ (0 : ℝ) * (1 + x) ^ (0 : ℝ)) p =
      ∫ x in (-1 : ℝ)..1, p.eval x := fun p => by
    rw [weightInt, intervalIntegral.integral_of_le (by norm_num), MeasureTheory.integral_Ioc_eq_integral_Ioo]
    simp
  simp only [ExactL, ExactC1, e]

/-- The degree of `gauss_kronrod(n)`, whenever it has a result: `3 n + 1` for even and `3 n + 2` for odd `n`, and no
more. The degree it claims is larger by two for every `n`. -/
theorem C47_degree {n : ℕ} [NeZero n]
    (hr : KronrodRegular n (jacobiAlpha 0 0) (Function.update (jacobiBeta 0 0) 0 (jacobiInt 0 0)))
    {P W : List ℝ} (h : GaussKronrod n 0 0 P W) :
    ExactC1 P W (3 * n + 1 + n % 2) ∧ ¬ ExactC1 P W (3 * n + 2 + n % 2) ∧
      kronrodDegree n = 3 * n + 1 + n % 2 + 2 := by
  have hn : 0 < n := Nat.pos_of_ne_zero (NeZero.ne n)
  refine ⟨?_, ?_, ?_⟩
  · rcases Nat.mod_two_eq_zero_or_one n with h0 | h0
    · rw [h0]
      exact exactL_legendre.1 (C47_exact hn (by norm_num) (by norm_num) h).2.2.2
    · rw [h0]
      exact exactL_legendre.1 (C47_exact_odd (Nat.odd_iff.2 h0) (by norm_num) h)
  · rcases Nat.lt_or_ge n 2 with h1 | h1
    · obtain rfl : n = 1 := by omega
      intro hx
      exact (C47_degree_refuted (a := 0) (b := 0) (by norm_num) (by norm_num)).2.2 P W h (exactL_legendre.2 hx)
    · obtain ⟨Q, V, hQ⟩ := (C19_gauss_legendre n).1
      have ho := C72_legendre hr h hQ
      obtain ⟨R, hR⟩ := (odds_sublist P).exists_perm_append
      rw [ho] at hR
      refine C47_no_extension h1 hQ ?_ hR
      have h3 := hR.length_eq
      rw [(C47_exact hn (by norm_num) (by norm_num) h).1, List.length_append,
        ((C19_gauss_legendre n).2 Q V hQ).2.1] at h3
      omega
  · rw [kronrodDegree, kronrodLength]
    omega

/-- So the claim is false for every `n`. -/
theorem C47_claim_false {n : ℕ} [NeZero n]
    (hr : KronrodRegular n (jacobiAlpha 0 0) (Function.update (jacobiBeta 0 0) 0 (jacobiInt 0 0)))
    {P W : List ℝ} (h : GaussKronrod n 0 0 P W) : ¬ ExactC1 P W (kronrodDegree n) := by
  obtain ⟨-, h1, h2⟩ := C47_degree hr h
  exact fun hx => h1 ⟨hx.1, fun p hp => hx.2 p (by omega)⟩

/-- The two Gauss points and any three others. -/
example {Q V : List ℝ} (hQ : GaussLegendre 2 Q V) (x y z : ℝ) (W : List ℝ) : ¬ ExactC1 (x :: y :: z :: Q) W 8 :=
  C47_no_extension (R := [x, y, z]) le_rfl hQ rfl (List.perm_append_comm (l₁ := [x, y, z]))

end Quadpy
