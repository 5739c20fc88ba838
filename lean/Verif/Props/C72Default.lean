import Verif.Lemmas.KronrodCert
import Verif.Props.C47Legendre
import Verif.Props.C70
import Verif.Props.C76

/-!
# C72 and C47 for the rule `integrate_adaptive` uses by default

`kronrod_degree=10` (c1/_adaptive.py:22). The run of the algorithm is followed in rational numbers.
-/

namespace Quadpy

open OneDim Spec Polynomial

namespace OneDim

/-- A table of rational numbers as `KronrodCert` wants it. -/
def certVal (G : List (List ℚ)) (k l : ℕ) : ℚ := if l < k then 0 else (G.getD k []).getD l 0

/-- What `KronrodCert` says for the Legendre weight, in rational numbers. -/
def CertOK (N : ℕ) (B : List ℚ) (G : List (List ℚ)) : Prop :=
  (∀ i < 2 * (N + 1) + 1, 0 < i → 0 < B.getD i 0) ∧
  (∀ i < 2 * (N + 1) + 1, 0 < i → 2 * i < N + 1 + 2 * (N + 1 + 1) → B.getD i 0 * (4 * i ^ 2 - 1) = i ^ 2) ∧
  certVal G 0 0 * (4 * (N + 2) ^ 2 - 1) = (N + 2) ^ 2 ∧
  (∀ k < N, certVal G k (k + 1) = 0) ∧
  (∀ k < N, ∀ l < N, k + l < N → k ≤ l + 1 →
    certVal G (k + 1) l + (if k = 0 then 0 else B.getD (k + (N + 1) + 1) 0 * certVal G (k - 1) l) =
    certVal G k (l + 1) + (if l = 0 then 0 else B.getD l 0 * certVal G k (l - 1))) ∧
  (∀ l < N + 1, ∀ k < l, N ≤ k + l →
    certVal G (k + 1) l + (if k = 0 then 0 else B.getD (k + (N + 1) + 1) 0 * certVal G (k - 1) l) =
    (if l = N then 0 else certVal G k (l + 1)) + (if l = 0 then 0 else B.getD l 0 * certVal G k (l - 1))) ∧
  (∀ k < N + 1, k ≠ 0 → N ≤ 2 * k - 1 →
    B.getD (k + (N + 1) + 1) 0 * certVal G (k - 1) (k - 1) = certVal G k k) ∧
  ∀ k < N + 1, certVal G k k ≠ 0

theorem jacobiBeta_zero {i : ℕ} (h : 0 < i) : jacobiBeta 0 0 i * (4 * (i : ℝ) ^ 2 - 1) = (i : ℝ) ^ 2 := by
  match i with
  | 1 => norm_num [jacobiBeta]
  | k + 2 =>
    simp only [jacobiBeta]
    have hk : (0 : ℝ) ≤ k := Nat.cast_nonneg k
    push_cast
    rw [show 2 * ((k : ℝ) + 2) + 0 + 0 - 1 = 2 * k + 3 by ring,
      show 2 * ((k : ℝ) + 2) + 0 + 0 + 1 = 2 * k + 5 by ring,
      show 2 * ((k : ℝ) + 2) + 0 + 0 = 2 * (k + 2) by ring]
    field_simp
    ring

theorem CertOK.cert {N : ℕ} {B : List ℚ} {G : List (List ℚ)} (h : CertOK N B G) (c : ℝ) :
    KronrodCert N (Function.update (jacobiBeta 0 0) 0 c) (fun i => (B.getD i 0 : ℚ))
      (fun k l => (certVal G k l : ℚ)) := by
  obtain ⟨-, hlow, hinit, hodd, hfirst, hsecond, hsub, hdiag⟩ := h
  have h4 : ∀ i : ℕ, 0 < i → (4 * (i : ℝ) ^ 2 - 1) ≠ 0 := fun i hi => by
    have : (1 : ℝ) ≤ i := by exact_mod_cast hi
    nlinarith
  refine ⟨fun i h0 hi => ?_, ?_, fun k l hlk _ => ?_, fun k hk => ?_, fun k l hkl hk => ?_,
    fun k l hkl hk hl => ?_, fun k h0 h1 hk => ?_, fun k hk => ?_⟩
  · rw [Function.update_of_ne (by omega)]
    refine mul_right_cancel₀ (h4 i h0) ?_
    rw [jacobiBeta_zero h0]
    exact_mod_cast hlow i (by omega) h0 hi
  · rw [Function.update_of_ne (by omega)]
    refine mul_right_cancel₀ (h4 (N + 1 + 1) (by omega)) ?_
    rw [jacobiBeta_zero (i := N + 1 + 1) (by omega)]
    have := congrArg (fun q : ℚ => (q : ℝ)) hinit
    push_cast at this ⊢
    rw [show (N : ℝ) + 1 + 1 = N + 2 by ring]
    exact this
  · rw [certVal, if_pos hlk, Rat.cast_zero]
  · rw [hodd k hk, Rat.cast_zero]
  · have := hfirst k (by omega) l (by omega) hkl hk
    split_ifs at this ⊢ <;> exact_mod_cast this
  · have := hsecond l (by omega) k hk hkl
    split_ifs at this ⊢ <;> exact_mod_cast this
  · exact_mod_cast hsub k (by omega) h0 h1
  · exact_mod_cast hdiag k (by omega)

/-- The coefficients of `gauss_kronrod(10)`. -/
def kronrodB10 : List ℚ :=
  [0, 1/3, 4/15, 9/35, 16/63, 25/99, 36/143, 49/195, 64/255, 81/323, 100/399, 121/483, 144/575, 169/675,
      196/783, 225/899, 1136890210622337/4515547956920000,
      88977412860404224721433891291/349605602467895355266124440000,
      312300031274911285975403555524468806957390625/1210144019857076943732783975976439563064465283,
      93063492316526259751875111206894634894017101215571082956756012565932/347505309369455714405001865415940714446839304024732241014669546394213,
      230793726814135601709359874397956291639/689213862123942148359511294950551849837]

/-- The mixed moments of `gauss_kronrod(10)`. -/
def kronrodG10 : List (List ℚ) :=
  [
        [121/483, 0, -17303/833175, 0, -118459/134141175, 0, -185535229/2236804093125, 0,
      -459566879101/44427722441090625, 0],
        [0, 5808/92575, 0, -85184/13687875, 0, -6159143936/20131236838125, 0, -30790515712/987282720913125, 0,
      -72563191437/27973010425871875],
        [0, 0, 327184/20829375, 0, -3599024/2161163375, 0, -21653364304/247646167453125, 0,
      -5129406880279/655024112913515625, 0],
        [0, 0, 0, 9161152/2329914375, 0, -6449451008/14951060544375, 0, -29636175833/1347478175136375, 0,
      -1588979774008/1208987362691803125],
        [0, 0, 0, 0, 9161152/9309302325, 0, -58997147049401/542734264985484375, 0,
      -753922786423708/154679265520863046875, 0],
        [0, 0, 0, 0, 0, 1389532479649523/5608254071516671875, 0, -12321601448926396/461746251888205984375, 0,
      -2228073231350428/2494047480934624296875],
        [0, 0, 0, 0, 0, 0, 29659137620134741573811297097/470344539663716721179483125000000, 0,
      -1208448494305165358683599899859/189901607889225626176216311718750000, 0],
        [0, 0, 0, 0, 0, 0, 0,
      689213862123942148359511294950551849837/42352263158329315718339593446102427801720000, 0,
      -93600254644632426675014122697725911813/68398905000701844885118443415455420899777800],
        [0, 0, 0, 0, 0, 0, 0, 0,
      26311481186103503291706383192088555918220203309026533/6037400886567972537355676936673907369583179766951643570000,
      0],
        [0, 0, 0, 0, 0, 0, 0, 0, 0,
      78934443558310509875119149576265667754660609927079599/54088043548597470380930684827960483669857753159884630930000]]

theorem kronrod10_ok : CertOK 9 kronrodB10 kronrodG10 := 
  ⟨by decide +kernel, by decide +kernel, by decide +kernel, by decide +kernel, by decide +kernel,
    by decide +kernel, by decide +kernel, by decide +kernel⟩

/-- The quotients of successive polynomials at 1. -/
def ratioOne (B : List ℚ) : ℕ → ℚ
  | 0 => 1
  | k + 1 => 1 - B.getD (k + 1) 0 / ratioOne B k

theorem kronrod10_ratio : ∀ k < 21, 0 < ratioOne kronrodB10 k := by decide +kernel

/-- With positive quotients at 1, the polynomials have no zero at 1 or above. -/
theorem recPoly_pos_of_ratio {α β r : ℕ → ℝ} {m : ℕ} (hα : ∀ k < m, α k = 0) (hβ : ∀ k, 0 < k → k < m → 0 < β k)
    (h0 : r 0 = 1) (hr : ∀ k, r (k + 1) = 1 - β (k + 1) / r k) (hpos : ∀ k < m, 0 < r k) {x : ℝ} (hx : 1 ≤ x) :
    ∀ k ≤ m, 0 < (recPoly α β k).eval x ∧
      (k < m → r k * (recPoly α β k).eval x ≤ (recPoly α β (k + 1)).eval x) := by
  intro k
  induction k with
  | zero =>
    intro _
    refine ⟨by simp [recPoly], fun h => ?_⟩
    simpa [recPoly, h0, hα 0 h] using hx
  | succ k ih =>
    intro hk
    obtain ⟨i1, i2⟩ := ih (by omega)
    have h2 := i2 (by omega)
    have hrk := hpos k (by omega)
    have hp : 0 < (recPoly α β (k + 1)).eval x := (mul_pos hrk i1).trans_le h2
    refine ⟨hp, fun hk2 => ?_⟩
    rw [recPoly, eval_sub, eval_mul, eval_mul, hα (k + 1) hk2, hr k]
    simp only [eval_sub, eval_X, eval_C, sub_zero]
    have hb := hβ (k + 1) (by omega) hk2
    have h3 : β (k + 1) * (recPoly α β k).eval x ≤ β (k + 1) / r k * (recPoly α β (k + 1)).eval x := by
      rw [div_mul_eq_mul_div, le_div_iff₀ hrk, mul_assoc]
      exact mul_le_mul_of_nonneg_left (by rwa [mul_comm]) hb.le
    nlinarith

end OneDim

/-- From a table without zeros, positive coefficients and positive quotients: the rule exists, with points
inside. -/
theorem OneDim.CertOK.rule {N : ℕ} {B : List ℚ} {G : List (List ℚ)} (H : CertOK N B G)
    (hq : ∀ k < 2 * (N + 1) + 1, 0 < ratioOne B k) :
    KronrodRegular (N + 1) (jacobiAlpha 0 0) (Function.update (jacobiBeta 0 0) 0 (jacobiInt 0 0)) ∧
    (∃ P W, GaussKronrod (N + 1) 0 0 P W) ∧
    ∀ P W, GaussKronrod (N + 1) 0 0 P W → ∀ x ∈ P, -1 < x ∧ x < 1 := by
  have ha : jacobiAlpha 0 0 = fun _ => 0 := by funext k; cases k <;> simp [jacobiAlpha]
  have hC := H.cert (jacobiInt 0 0)
  have hreg := hC.regular
  rw [← ha] at hreg
  set b0 := Function.update (jacobiBeta 0 0) 0 (jacobiInt 0 0) with hb0
  have hβ : ∀ k, 0 < k → k < 2 * (N + 1) + 1 → outB N (jacobiAlpha 0 0) b0 k = ((B.getD k 0 : ℚ) : ℝ) :=
    fun k h0 hk => by rw [ha]; exact hC.outB_eq h0 (by omega)
  have hpos : ∀ k, 0 < k → k < 2 * (N + 1) + 1 → 0 < outB N (jacobiAlpha 0 0) b0 k := fun k h0 hk => by
    rw [hβ k h0 hk]
    exact_mod_cast H.1 k (by omega) h0
  refine ⟨hreg, schemeFromRc_exists _ _ _ _ fun k h0 hk => (hpos k h0 hk).le, fun P W h => ?_⟩
  have hsym := C73_gauss_kronrod (n := N + 1) (by omega) (by norm_num) hreg h
  have hα : ∀ k < 2 * (N + 1) + 1, outA N (jacobiAlpha 0 0) b0 k = 0 := fun k _ =>
    rKronrod_diag (n := N + 1) (by omega) (fun i => by rw [ha]) k
  have hlt : ∀ x ∈ P, x < 1 := fun x hx => by
    by_contra h1
    have hroot := (schemeFromRc_roots hpos h x).1 hx
    have hr := recPoly_congr (α := outA N (jacobiAlpha 0 0) b0) (β := outB N (jacobiAlpha 0 0) b0)
      (α' := outA N (jacobiAlpha 0 0) b0) (β' := fun k => ((B.getD k 0 : ℚ) : ℝ)) (2 * (N + 1) + 1)
      (fun _ _ => rfl) hβ (2 * (N + 1) + 1) le_rfl
    have := (recPoly_pos_of_ratio (α := outA N (jacobiAlpha 0 0) b0)
      (β := fun k => ((B.getD k 0 : ℚ) : ℝ)) (r := fun k => ((ratioOne B k : ℚ) : ℝ)) (m := 2 * (N + 1) + 1)
      hα (fun k h0 hk => by rw [← hβ k h0 hk]; exact hpos k h0 hk) (by simp [ratioOne])
      (fun k => by simp [ratioOne]) (fun k hk => by exact_mod_cast hq k hk) (not_lt.1 h1)
      (2 * (N + 1) + 1) le_rfl).1
    rw [← hr] at this
    exact this.ne' hroot
  refine fun x hx => ⟨?_, hlt x hx⟩
  have : -x ∈ P := by
    rw [← hsym.1]
    exact List.mem_reverse.2 (List.mem_map.2 ⟨x, hx, rfl⟩)
  linarith [hlt _ this]

/-- `gauss_kronrod(10)` divides by no zero. -/
theorem C72_default_regular :
    KronrodRegular 10 (jacobiAlpha 0 0) (Function.update (jacobiBeta 0 0) 0 (jacobiInt 0 0)) :=
  (kronrod10_ok.rule kronrod10_ratio).1

/-- The two rules of `integrate_adaptive` with the default `kronrod_degree=10`: both exist, the 21-point rule
has points strictly inside the interval and positive weights, contains the points of the 10-point Gauss rule
in the places the code looks for them, and has degree 31 (the claim is 33). Nothing is assumed. -/
theorem C72_default : (∃ P W, GaussKronrod 10 0 0 P W) ∧ (∃ Q V, GaussLegendre 10 Q V) ∧
    ∀ P W, GaussKronrod 10 0 0 P W →
      P.length = 21 ∧ (∀ x ∈ P, -1 < x ∧ x < 1) ∧ (∀ w ∈ W, 0 < w) ∧ W.sum = 2 ∧
      ExactC1 P W 31 ∧ ¬ ExactC1 P W 32 ∧ kronrodDegree 10 = 33 ∧
      ∀ Q V, GaussLegendre 10 Q V → Adaptive.odds P = Q := by
  obtain ⟨Q, V, hQ⟩ := (C19_gauss_legendre 10).1
  refine ⟨(kronrod10_ok.rule kronrod10_ratio).2.1, ⟨Q, V, hQ⟩, fun P W h => ?_⟩
  have hdeg := C47_degree C72_default_regular h
  have hex := C47_exact (n := 10) (by norm_num) (by norm_num) (by norm_num) h
  have hpts := C72_points (by norm_num) (by norm_num) C72_default_regular h (gaussLegendre_iff.1 hQ)
  exact ⟨hex.1, (kronrod10_ok.rule kronrod10_ratio).2.2 P W h, hpts.2.2, hex.2.1.trans (by norm_num [jacobiInt]), hdeg.1, hdeg.2.1, rfl,
    fun Q' V' hQ' => C72_legendre C72_default_regular h hQ'⟩

/-- So the contract `KronrodRule` of C70 holds for the default rules. -/
theorem C70_default_rule {P W Q V : List ℝ} (hP : GaussKronrod 10 0 0 P W) (hQ : GaussLegendre 10 Q V) :
    Adaptive.KronrodRule ⟨P, W, V⟩ ∧ ExactC1 (Adaptive.odds P) V 19 ∧
      (∀ x ∈ Adaptive.odds P, -1 ≤ x ∧ x ≤ 1) ∧ ∀ w ∈ V, 0 ≤ w := by
  obtain ⟨h1, h2, h3, h4, h5, -, -, h6⟩ := C72_default.2.2 P W hP
  have hg := (C19_gauss_legendre 10).2 Q V hQ
  refine ⟨⟨h5.1, fun w hw => (h3 w hw).le, h4, fun x hx => ⟨(h2 x hx).1.le, (h2 x hx).2.le⟩⟩, ?_, ?_, ?_⟩
  · rw [h6 Q V hQ]; exact hg.1
  · exact fun x hx => ⟨(h2 x ((Legendre.odds_sublist P).subset hx)).1.le,
      (h2 x ((Legendre.odds_sublist P).subset hx)).2.le⟩
  · exact fun w hw => (hg.2.2.2.2.1 w hw).le

/-- With an absolute tolerance and no limits, `integrate_adaptive` with its default rule returns for every
continuous integrand. -/
theorem C70_default_returns {ι : Type} [Fintype ι] {P W Q V : List ℝ} (hP : GaussKronrod 10 0 0 P W)
    (hQ : GaussLegendre 10 Q V) (eps : ℝ) (heps : 0 < eps) (f : (Unit → ℝ) → ι → ℝ) (a b : ℝ) (hab : a ≤ b)
    (hf : ContinuousOn f (segment ℝ (fun _ => a) fun _ => b)) :
    ∃ n v e, (∀ fuel, n ≤ fuel → Adaptive.integrateAdaptive ⟨P, W, V⟩
      ⟨some eps, none, Adaptive.npAny, 0, none⟩ f [(fun _ => a, fun _ => b)] fuel = .returned v e) ∧
      ∀ i, e i < eps :=
  Adaptive.C70_returns ⟨P, W, V⟩ (C70_default_rule hP hQ).1 _ eps heps rfl rfl (.inl rfl) rfl le_rfl f
    (fun _ => a, fun _ => b) (fun _ => hab) hf

/-- The call `integrate_adaptive(p, [a, b])` with all defaults: for every polynomial of degree at most 19 it
returns the exact integral. -/
theorem C72_default_polynomial {P W Q V : List ℝ} (hP : GaussKronrod 10 0 0 P W) (hQ : GaussLegendre 10 Q V)
    (p : ℝ[X]) (hp : p.natDegree ≤ 19) (a b : ℝ) (hab : a ≤ b) :
    ∃ n v e, (∀ fuel, n ≤ fuel → Adaptive.integrateAdaptive (δ := Unit) (ι := Unit) ⟨P, W, V⟩
        ⟨some (1 / 10 ^ 10), some (1 / 10 ^ 10), Adaptive.npAny, 0, none⟩ (fun x _ => p.eval (x ()))
        [(fun _ => a, fun _ => b)] fuel = .returned v e) ∧
      v () = (∫ x in a..b, p.eval x) ∧ e () < max (1 / 10 ^ 10) (1 / 10 ^ 10 * |∫ x in a..b, p.eval x|) :=
  Adaptive.C70_polynomial ⟨P, W, V⟩ (C70_default_rule hP hQ).1 19 (C70_default_rule hP hQ).2.1 _ _ (by positivity)
    p hp a b hab

/-- Whatever it returns for a continuous integrand is off by at most twice the length times the distance to a
polynomial of degree 19. -/
theorem C76_default {ι : Type} [Fintype ι] {P W Q V : List ℝ} (hP : GaussKronrod 10 0 0 P W)
    (hQ : GaussLegendre 10 Q V) (c : Adaptive.Config) (f : ℝ → ι → ℝ) (a b : ℝ)
    (hf : ∀ i, ContinuousOn (fun x => f x i) (Set.Icc a b)) (fuel : ℕ) (v e : ι → ℝ)
    (h : Adaptive.integrateAdaptive (δ := Unit) ⟨P, W, V⟩ c (fun x => f (x ())) [(fun _ => a, fun _ => b)] fuel
      = .returned v e) (i : ι) (p : ℝ[X]) (hp : p.natDegree ≤ 19) (ε : ℝ)
    (he : ∀ x ∈ Set.Icc a b, |f x i - p.eval x| ≤ ε) : |v i - ∫ x in a..b, f x i| ≤ 2 * (b - a) * ε :=
  have H := C70_default_rule hP hQ
  Adaptive.C76_uniform ⟨P, W, V⟩ 19 H.2.1 H.2.2.1 H.2.2.2 c f a b hf fuel v e h i p hp ε he

/-- The monomial of degree 19 on `[0, 1]`. -/
example : ∃ P W Q V, GaussKronrod 10 0 0 P W ∧ GaussLegendre 10 Q V ∧ ∃ n v e,
    Adaptive.integrateAdaptive (δ := Unit) (ι := Unit) ⟨P, W, V⟩
      ⟨some (1 / 10 ^ 10), some (1 / 10 ^ 10), Adaptive.npAny, 0, none⟩ (fun x _ => (X ^ 19 : ℝ[X]).eval (x ()))
      [(fun _ => 0, fun _ => 1)] n = .returned v e ∧ v () = 1 / 20 := by
  obtain ⟨⟨P, W, hP⟩, ⟨Q, V, hQ⟩, -⟩ := C72_default
  obtain ⟨n, v, e, h1, h2, -⟩ := C72_default_polynomial hP hQ (X ^ 19) (by simp) 0 1 zero_le_one
  refine ⟨P, W, Q, V, hP, hQ, n, v, e, h1 n le_rfl, ?_⟩
  rw [h2]
  simp [integral_pow]
  norm_num

end Quadpy
