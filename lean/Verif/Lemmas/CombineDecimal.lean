import Verif.Lemmas.Decimal
import Verif.Lemmas.Lobatto
import Verif.Lemmas.Radii
import Mathlib.Data.Fin.Tuple.Sort

/-! Rules whose points are made by `combine` (`rd`, `fsd`) from decimal numbers, in any dimension: the
moments are computed with integers, one for each partition of the degree. -/

namespace Quadpy
open Finset

namespace Dec

/-- The sum of a product function over the templates `partitions s`, first position first. -/
def tSum (g : ℕ → ℕ → ℝ) : List ℕ → List ℕ → ℝ
  | [], s => if s.all (· = 0) then 1 else 0
  | a :: α, s => ((List.range s.length).map fun i =>
      if 0 < s.getD i 0 then g a i * tSum g α (s.set i (s.getD i 0 - 1)) else 0).sum

theorem partitions_tSum (g : ℕ → ℕ → ℝ) : ∀ (α s : List ℕ), α.length = s.sum →
    ((partitions s).map fun t => (List.zipWith g α t).prod).sum = tSum g α s
  | [], s, h => by
    have h0 : ∀ x ∈ s, x = 0 := List.sum_eq_zero_iff.1 (by simpa using h.symm)
    have h1 : s.all (· = 0) = true := by simpa [List.all_eq_true] using h0
    have h2 : ∀ i : Fin s.length, ¬ 0 < s[i.val] := fun i => by
      have := h0 _ (List.getElem_mem i.isLt)
      omega
    have h3 : partitions s = [[]] := by
      rw [partitions_eq, if_pos h1]
      simp only [h2, if_false]
      simp
    rw [h3, tSum, if_pos h1]
    simp
  | a :: α, s, h => by
    have h1 : ¬ (s.all (· = 0) = true) := fun h1 => by
      have : s.sum = 0 := List.sum_eq_zero_iff.2 (by simpa [List.all_eq_true] using h1)
      simp [this] at h
    rw [partitions_eq, if_neg h1, List.nil_append, List.map_flatMap, sum_flatMap_list, tSum,
      ← List.map_coe_finRange_eq_range, List.map_map]
    congr 1
    apply List.map_congr_left
    intro i _
    have hg : s.getD i.val 0 = s[i.val] := by simp
    simp only [Function.comp_apply, hg]
    split_ifs with h0
    · have hs : (s.set i.val (s[i.val] - 1)).sum + 1 = s.sum := by
        have e := List.sum_take_add_sum_drop s i.val
        have e2 : (s.drop i.val) = s[i.val] :: s.drop (i.val + 1) := List.drop_eq_getElem_cons i.isLt
        rw [e2, List.sum_cons] at e
        rw [List.sum_set, if_pos i.isLt]
        omega
      have ih := partitions_tSum g α (s.set i.val (s[i.val] - 1)) (by simp at h; omega)
      rw [← ih, List.map_map, ← List.sum_map_mul_left]
      simp [Function.comp_def]
    · simp

theorem osum_combine (n : ℕ) (elems : List (List ℝ × ℕ)) (hn : (elems.map Prod.snd).sum = n)
    (α : Fin n → ℕ) : osum n (combine elems) (mono α) =
      tSum (fun a i => ((vals elems i).map (· ^ a)).sum) (List.ofFn α) (elems.map Prod.snd) := by
  rw [osum_mono_combine n elems α hn, ← partitions_tSum _ _ _ (by simp [hn]), combine,
    List.map_flatMap, sum_flatMap_list]
  congr 1
  apply List.map_congr_left
  intro t ht
  have hl : (List.ofFn α).length = t.length := by
    rw [length_of_mem_partitions _ _ ht, hn, List.length_ofFn]
  have e : (List.ofFn fun (i : Fin n) (v : ℝ) => v ^ α i) =
      (List.ofFn α).map fun a (v : ℝ) => v ^ a := by
    rw [List.map_ofFn]; rfl
  rw [e, iterProduct_sum_prod _ _ (by simpa using hl), List.zipWith_map_left, List.zipWith_map_right]
  rfl

/-- `c * x`, without a look at `x` if `c = 0`. -/
def mulSkip (c x : ℤ) : ℤ :=
  match c with
  | .ofNat 0 => 0
  | c => c * x

theorem mulSkip_eq (c x : ℤ) : mulSkip c x = c * x := by
  unfold mulSkip
  split
  · simp
  · rfl

/-- The sum of the powers `v ^ a`. -/
def zpows (a : ℕ) (vs : List ℤ) : ℤ := vs.foldr (fun v s => ipow v a + s) 0

/-- One choice of the value list for the next position. -/
def zStep (a : ℕ) : List (List ℤ) → List ℕ → (List ℕ → ℤ) → ℤ
  | v :: V, k :: s, F => bif Nat.beq k 0 then zStep a V s (fun r => F (k :: r)) else
      mulSkip (zpows a v) (F (Nat.sub k 1 :: s)) + zStep a V s (fun r => F (k :: r))
  | _, _, _ => 0

/-- `tSum` with integers. -/
def zSum (V : List (List ℤ)) (α s : List ℕ) : ℤ :=
  α.foldr (fun a F s => zStep a V s F) (fun s => bif s.all (Nat.beq · 0) then 1 else 0) s

theorem foldr_add_eq_sum {α : Type*} (f : α → ℤ) (l : List α) :
    l.foldr (fun x s => f x + s) 0 = (l.map f).sum := by
  induction l with
  | nil => rfl
  | cons a l ih => simp [ih]

/-- The value lists with coordinates that are multiples of `1 / D`. -/
noncomputable def zElems (D : ℕ) (E : List (List ℤ × ℕ)) : List (List ℝ × ℕ) :=
  E.map fun e => (e.1.map (rz D), e.2)

theorem zpows_rz {D : ℕ} (a : ℕ) (vs : List ℤ) :
    ((vs.map (rz D)).map (· ^ a)).sum = (zpows a vs : ℝ) / (D : ℝ) ^ a := by
  rw [zpows, foldr_add_eq_sum]
  induction vs with
  | nil => simp
  | cons v vs ih =>
    simp only [List.map_cons, List.sum_cons] at ih ⊢
    rw [ih, ipow_eq, rz, div_pow]
    push_cast
    rw [add_div]

theorem zStep_eq (a : ℕ) : ∀ (V : List (List ℤ)) (s : List ℕ) (F : List ℕ → ℤ),
    zStep a V s F = ((List.range s.length).map fun i =>
      if 0 < s.getD i 0 then zpows a (V.getD i []) * F (s.set i (s.getD i 0 - 1)) else 0).sum
  | [], s, F => by
    rw [List.sum_eq_zero]
    · rfl
    · intro x hx
      obtain ⟨i, -, rfl⟩ := List.mem_map.1 hx
      simp [zpows]
  | v :: V, [], F => rfl
  | v :: V, k :: s, F => by
    rw [zStep, zStep_eq a V s, List.length_cons, List.range_succ_eq_map, List.map_cons,
      List.sum_cons, List.map_map]
    rcases Nat.eq_zero_or_pos k with rfl | h
    · simp only [Nat.beq, cond_true, List.getD_cons_zero, lt_irrefl, if_false, zero_add]
      rfl
    · have hb : Nat.beq k 0 = false := by
        rw [Bool.eq_false_iff]
        intro hb
        have := Nat.eq_of_beq_eq_true hb
        omega
      simp only [hb, cond_false, List.getD_cons_zero, h, if_true, mulSkip_eq]
      rfl

theorem zSum_cast {D : ℕ} (V : List (List ℤ)) : ∀ α s : List ℕ,
    tSum (fun a i => (((V.getD i []).map (rz D)).map (· ^ a)).sum) α s =
      (zSum V α s : ℝ) / (D : ℝ) ^ α.sum
  | [], s => by
    have e : (s.all (Nat.beq · 0)) = s.all (· = 0) := by
      congr 1
      funext x
      cases x <;> simp [Nat.beq]
    rw [tSum, zSum, List.foldr_nil, e]
    cases s.all (· = 0) <;> simp
  | a :: α, s => by
    have e : zSum V (a :: α) s = zStep a V s (zSum V α) := rfl
    rw [e, zStep_eq, tSum, Int.cast_list_sum, List.map_map, div_eq_mul_inv,
      ← List.sum_map_mul_right]
    congr 1
    apply List.map_congr_left
    intro i _
    have ih := zSum_cast (D := D) V α (s.set i (s.getD i 0 - 1))
    simp only [Function.comp_apply, ← div_eq_mul_inv]
    split_ifs with h
    · rw [ih, zpows_rz, List.sum_cons, pow_add, div_mul_div_comm]
      push_cast
      rfl
    · simp

theorem osum_zElems (D n : ℕ) (E : List (List ℤ × ℕ)) (hn : (E.map Prod.snd).sum = n)
    (α : Fin n → ℕ) : osum n (combine (zElems D E)) (mono α) =
      (zSum (E.map Prod.fst) (List.ofFn α) (E.map Prod.snd) : ℝ) / (D : ℝ) ^ ∑ i, α i := by
  have e1 : (zElems D E).map Prod.snd = E.map Prod.snd := by simp [zElems, Function.comp_def]
  have e2 : ∀ i, vals (zElems D E) i = ((E.map Prod.fst).getD i []).map (rz D) := fun i => by
    simp only [vals, zElems, List.map_map, Function.comp_def, List.getD_eq_getElem?_getD,
      List.getElem?_map]
    cases E[i]? <;> simp
  rw [osum_combine n _ (by rw [e1, hn]), e1]
  simp only [e2]
  rw [zSum_cast, List.sum_ofFn]

/-! Exponents in descending order. -/

/-- All descending lists of length `n` with entries at most `m` and sum at most `d`. -/
def parts : ℕ → ℕ → ℕ → List (List ℕ)
  | 0, _, _ => [[]]
  | n + 1, m, d => (List.range (min m d + 1)).flatMap fun k => (parts n k (d - k)).map (k :: ·)

theorem mem_parts : ∀ {n m d : ℕ} (α : Fin n → ℕ), Antitone α → (∀ i, α i ≤ m) → ∑ i, α i ≤ d →
    List.ofFn α ∈ parts n m d
  | 0, m, d, α, _, _, _ => by simp [parts]
  | n + 1, m, d, α, ha, hm, h => by
    rw [Fin.sum_univ_succ] at h
    rw [List.ofFn_succ, parts, List.mem_flatMap]
    refine ⟨α 0, ?_, List.mem_map.2 ⟨_, mem_parts (fun i => α i.succ) ?_ ?_ ?_, rfl⟩⟩
    · have := hm 0
      rw [List.mem_range]; omega
    · exact fun i j hij => ha (Fin.succ_le_succ_iff.2 hij)
    · exact fun i => ha (Fin.zero_le _)
    · omega

/-- Every tuple of exponents is a permutation of one of the descending ones. -/
theorem exists_antitone {n d : ℕ} (α : Fin n → ℕ) (h : ∑ i, α i ≤ d) :
    ∃ σ : Equiv.Perm (Fin n), List.ofFn (α ∘ σ) ∈ parts n d d := by
  refine ⟨(Fin.revPerm).trans (Tuple.sort α), mem_parts _ ?_ ?_ ?_⟩
  · intro i j hij
    exact Tuple.monotone_sort α (Fin.rev_le_rev.2 hij)
  · intro i
    exact (single_le_sum (f := α) (fun _ _ => Nat.zero_le _) (mem_univ _)).trans h
  · exact (Equiv.sum_comp _ α).trans_le h

/-- One group of points: weight and value lists, as integers. -/
abbrev ZGrp := ℤ × List (List ℤ × ℕ)

/-- The moment of a rule made of groups. -/
def gdot (G : List ZGrp) (α : List ℕ) : ℤ :=
  G.foldr (fun g s => g.1 * zSum (g.2.map Prod.fst) α (g.2.map Prod.snd) + s) 0

/-- The moments, with the weights divided by a number between `lo / Dw` and `hi / Dw`, agree up to
`1 / T`. -/
def check1 (mom : List ℕ → ℕ × ℕ) (lo hi D T : ℕ) (G : List ZGrp) (α : List ℕ) : Bool :=
  Nat.ble ((Int.natAbs (gdot G α * (mom α).2 - (mom α).1 * (lo * D ^ α.sum : ℕ)) +
    (mom α).1 * ((hi - lo) * D ^ α.sum)) * T) ((mom α).2 * (lo * D ^ α.sum))

theorem check1_sound {mom : List ℕ → ℕ × ℕ} {Dw lo hi D T : ℕ} {G : List ZGrp}
    (hDw : 0 < Dw) (hlo : 0 < lo) (hD : 0 < D) (hT : 0 < T) {V : ℝ} (h1 : (lo : ℝ) / Dw ≤ V)
    (h2 : V ≤ (hi : ℝ) / Dw) (α : List ℕ) (h3 : check1 mom lo hi D T G α = true)
    (hq : 0 < (mom α).2) :
    |(gdot G α : ℝ) / (Dw * (D : ℝ) ^ α.sum) / V - ((mom α).1 : ℝ) / (mom α).2| ≤ 1 / T := by
  rw [check1, Nat.ble_eq] at h3
  set q := (mom α).2
  set p := (mom α).1
  set s := gdot G α
  set e := α.sum
  have hq' : (0 : ℝ) < q := by exact_mod_cast hq
  have hDw' : (0 : ℝ) < Dw := by exact_mod_cast hDw
  have hlo' : (0 : ℝ) < lo := by exact_mod_cast hlo
  have hT' : (0 : ℝ) < T := by exact_mod_cast hT
  have hs : (0 : ℝ) < (D : ℝ) ^ e := by positivity
  have hV : 0 < V := lt_of_lt_of_le (by positivity) h1
  have hV1 : (lo : ℝ) ≤ V * Dw := by rwa [div_le_iff₀ hDw'] at h1
  have hV2 : V * Dw ≤ (hi : ℝ) := by rwa [le_div_iff₀ hDw'] at h2
  have hlh : lo ≤ hi := by exact_mod_cast hV1.trans hV2
  have h4 : (|(s : ℝ) * q - p * (lo * (D : ℝ) ^ e)| + p * (((hi : ℝ) - lo) * (D : ℝ) ^ e)) * T ≤
      q * (lo * (D : ℝ) ^ e) := by
    have h5 : (((Int.natAbs (s * q - p * (lo * D ^ e : ℕ)) + p * ((hi - lo) * D ^ e)) * T : ℕ) : ℝ) ≤
        (q * (lo * D ^ e) : ℕ) := by exact_mod_cast h3
    push_cast [Nat.cast_natAbs, Nat.cast_sub hlh] at h5
    exact h5
  have hp : (0 : ℝ) ≤ p := by positivity
  have h6 : |(s : ℝ) * q - p * (V * Dw * (D : ℝ) ^ e)| ≤
      |(s : ℝ) * q - p * (lo * (D : ℝ) ^ e)| + p * (((hi : ℝ) - lo) * (D : ℝ) ^ e) := by
    have e1 : (s : ℝ) * q - p * (V * Dw * (D : ℝ) ^ e) =
        (s * q - p * (lo * (D : ℝ) ^ e)) + -(p * ((V * Dw - lo) * (D : ℝ) ^ e)) := by ring
    rw [e1]
    refine (abs_add_le _ _).trans (add_le_add le_rfl ?_)
    rw [abs_neg, abs_of_nonneg (by have : 0 ≤ V * Dw - lo := by linarith
                                   positivity)]
    refine mul_le_mul_of_nonneg_left (mul_le_mul_of_nonneg_right ?_ hs.le) hp
    linarith
  have h7 : |(s : ℝ) * q - p * (V * Dw * (D : ℝ) ^ e)| * T ≤ q * (V * Dw * (D : ℝ) ^ e) :=
    (mul_le_mul_of_nonneg_right h6 hT'.le).trans (h4.trans
      (mul_le_mul_of_nonneg_left (mul_le_mul_of_nonneg_right hV1 hs.le) hq'.le))
  have hne : (0 : ℝ) < V * Dw * (D : ℝ) ^ e := by positivity
  have e2 : (s : ℝ) / (Dw * (D : ℝ) ^ e) / V - (p : ℝ) / q =
      (s * q - p * (V * Dw * (D : ℝ) ^ e)) / (V * Dw * (D : ℝ) ^ e * q) := by
    field_simp
  rw [e2, abs_div, abs_of_pos (mul_pos hne hq'), div_le_div_iff₀ (mul_pos hne hq') hT', one_mul]
  linarith

/-- Whether a value list is `[v, -v]` or `[0]`. -/
def symm : List ℤ → Bool
  | [v] => v == 0
  | [v, w] => w == -v
  | _ => false

/-- Whether all value lists of a rule are symmetric. -/
def symmG (G : List ZGrp) : Bool := G.all fun g => g.2.all fun e => symm e.1

/-- All moments agree; for symmetric rules one looks at the even exponents only. -/
def checkG (n d : ℕ) (mom : List ℕ → ℕ × ℕ) (lo hi D T : ℕ) (G : List ZGrp) : Bool :=
  bif symmG G then (parts n (d / 2) (d / 2)).all fun p => check1 mom lo hi D T G (p.map (2 * ·))
  else (parts n d d).all (check1 mom lo hi D T G)

theorem symm_odd {vs : List ℤ} (h : symm vs = true) {k : ℕ} (hk : Odd k) (D : ℕ) :
    ((vs.map (rz D)).map fun v => v ^ k).sum = 0 := by
  match vs, h with
  | [v], h =>
    have : v = 0 := by simpa [symm] using h
    simp [this, rz_zero, hk.pos.ne']
  | [v, w], h =>
    have : w = -v := by simpa [symm] using h
    simp [this, rz_neg, hk.neg_pow]

/-- The groups with real numbers. -/
noncomputable def gData (Dw D : ℕ) (G : List ZGrp) : List (ℝ × List (List ℝ)) :=
  G.map fun g => (rz Dw g.1, combine (zElems D g.2))

theorem dot_gData (Dw D n : ℕ) (G : List ZGrp) (hG : ∀ g ∈ G, (g.2.map Prod.snd).sum = n)
    (α : Fin n → ℕ) : ((gData Dw D G).map fun g => g.1 * osum n g.2 (mono α)).sum =
      (gdot G (List.ofFn α) : ℝ) / (Dw * (D : ℝ) ^ ∑ i, α i) := by
  rw [gdot, foldr_add_eq_sum]
  induction G with
  | nil => simp [gData]
  | cons g G ih =>
    have ih := ih fun g hg => hG g (by simp [hg])
    simp only [gData, List.map_cons, List.sum_cons] at ih ⊢
    rw [ih, osum_zElems D n _ (hG g (by simp)), rz, div_mul_div_comm]
    push_cast
    rw [add_div]

/-- `weights /= V` after `untangle`. -/
theorem approx_groups {n : ℕ} {J : Spec.Functional n} {mom : List ℕ → ℕ × ℕ} (hJ : RatMom J mom)
    (hperm : ∀ l l' : List ℕ, l.Perm l' → mom l = mom l')
    (hodd : ∀ l : List ℕ, allEven l = false → (mom l).1 = 0) {Dw lo hi D T deg : ℕ} (hDw : 0 < Dw) (hlo : 0 < lo) (hD : 0 < D) (hT : 0 < T) {G : List ZGrp}
    (hG : G.all (fun g => Nat.beq (g.2.map Prod.snd).sum n) = true)
    (hc : checkG n deg mom lo hi D T G = true)
    {V : ℝ} (h1 : (lo : ℝ) / Dw ≤ V) (h2 : V ≤ (hi : ℝ) / Dw) {S : Scheme}
    (hS : S = ⟨n, (untangle (gData Dw D G)).2.map (· / V), (untangle (gData Dw D G)).1, deg⟩) :
    S.ApproxRel n J (1 / T) := by
  have hG' : ∀ g ∈ G, (g.2.map Prod.snd).sum = n := fun g hg =>
    Nat.eq_of_beq_eq_true (List.all_eq_true.1 hG g hg)
  have hlen : ∀ g ∈ gData Dw D G, ∀ x ∈ g.2, x.length = n := by
    intro g hg x hx
    obtain ⟨g', hg', rfl⟩ := List.mem_map.1 hg
    rw [length_of_mem_combine _ _ hx, ← hG' g' hg']
    simp [zElems, Function.comp_def]
  have hw := schemeOf_wellShaped n deg (gData Dw D G) hlen
  subst hS
  refine ⟨⟨rfl, by simpa [schemeOf] using hw.2.1, hw.2.2⟩, ?_⟩
  refine approxUpTo_of_mono ((dot_linOnMono _ _).const_mul _) hJ.lin fun α hα => ?_
  rw [hJ.mom, ← mul_sub, abs_mul, abs_of_nonneg hJ.pos]
  refine mul_le_mul_of_nonneg_left ?_ hJ.pos
  have e1 : (fun x : ℝ => x / V) = fun x => V⁻¹ * x := by
    funext x; rw [div_eq_inv_mul]
  have e2 : dot n (untangle (gData Dw D G)).2 (untangle (gData Dw D G)).1 (mono α) =
    ((gData Dw D G).map fun g => g.1 * osum n g.2 (mono α)).sum := dot_schemeOf n deg _ _
  have eG : ∀ g ∈ G, ((zElems D g.2).map Prod.snd).sum = n := fun g hg => by
    rw [← hG' g hg]
    simp [zElems, Function.comp_def]
  have hd : ∀ σ : Equiv.Perm (Fin n),
      dot n ((untangle (gData Dw D G)).2.map (· / V)) (untangle (gData Dw D G)).1 (mono α) =
      (gdot G (List.ofFn (α ∘ σ)) : ℝ) / (Dw * (D : ℝ) ^ (List.ofFn (α ∘ σ)).sum) / V := fun σ => by
    have e3 : ((gData Dw D G).map fun g => g.1 * osum n g.2 (mono α)).sum =
        ((gData Dw D G).map fun g => g.1 * osum n g.2 (mono (α ∘ σ))).sum := by
      congr 1
      apply List.map_congr_left
      intro g hg
      obtain ⟨g', hg', rfl⟩ := List.mem_map.1 hg
      rw [combine_perm _ _ (eG g' hg')]
    rw [e1, dot_map_weights, e2, e3, dot_gData Dw D n G hG', div_eq_inv_mul _ V, List.sum_ofFn]
  simp only
  have fin : ∀ σ : Equiv.Perm (Fin n), check1 mom lo hi D T G (List.ofFn (α ∘ σ)) = true →
      |dot n ((untangle (gData Dw D G)).2.map (· / V)) (untangle (gData Dw D G)).1 (mono α) -
        ((mom (List.ofFn α)).1 : ℝ) / (mom (List.ofFn α)).2| ≤ 1 / T := fun σ h => by
    have hp : (List.ofFn (α ∘ σ)).Perm (List.ofFn α) := σ.ofFn_comp_perm α
    have := check1_sound hDw hlo hD hT h1 h2 _ h (hJ.den _)
    rw [hperm _ _ hp] at this
    rw [hd σ]
    exact this
  cases hsy : symmG G with
  | false =>
    rw [checkG, hsy, cond_false] at hc
    obtain ⟨σ, hσ⟩ := exists_antitone α hα
    exact fin σ (List.all_eq_true.1 hc _ hσ)
  | true =>
    rw [checkG, hsy, cond_true] at hc
    rcases allEven_ofFn α with ⟨-, p, rfl⟩ | ⟨he, hi⟩
    · obtain ⟨σ, hσ⟩ := exists_antitone (d := deg / 2) p (by
        rw [← mul_sum] at hα
        have : 2 * ∑ i, p i ≤ deg := hα
        omega)
      refine fin σ ?_
      have := List.all_eq_true.1 hc _ hσ
      rw [List.map_ofFn] at this
      exact this
    · rw [hodd _ he, e1, dot_map_weights, e2]
      have : ((gData Dw D G).map fun g => g.1 * osum n g.2 (mono α)).sum = 0 := by
        apply List.sum_eq_zero
        intro x hx
        obtain ⟨g, hg, rfl⟩ := List.mem_map.1 hx
        obtain ⟨g', hg', rfl⟩ := List.mem_map.1 hg
        rw [combine_odd n _ (eG g' hg') _ α hi, mul_zero]
        intro e he k hk
        obtain ⟨e', he', rfl⟩ := List.mem_map.1 he
        exact symm_odd (List.all_eq_true.1 (List.all_eq_true.1 hsy g' hg') e' he') hk D
      rw [this]
      simp

theorem momEnr2_perm (l l' : List ℕ) (h : l.Perm l') : momEnr2 l = momEnr2 l' := by
  have h1 : allEven l = allEven l' := h.all_eq
  have h2 := h.map (· / 2)
  rw [momEnr2, momEnr2, h1, halves, halves, (h2.map oddFacN).prod_eq, h2.sum_eq]

theorem momBall_perm (n : ℕ) (l l' : List ℕ) (h : l.Perm l') : momBall n l = momBall n l' := by
  have h1 : allEven l = allEven l' := h.all_eq
  have h2 := h.map (· / 2)
  rw [momBall, momBall, h1, halves, halves, (h2.map oddFacN).prod_eq, h2.sum_eq, h.sum_eq]

theorem momEnr2_odd (l : List ℕ) (h : allEven l = false) : (momEnr2 l).1 = 0 := by
  rw [momEnr2, h]; rfl

theorem momBall_odd (n : ℕ) (l : List ℕ) (h : allEven l = false) : (momBall n l).1 = 0 := by
  rw [momBall, h]; rfl

/-! `fsd`, `rd` and `z` of decimal numbers. -/

/-- The value lists of `fsd`. -/
def fsdE (n : ℕ) (items : List (ℤ × ℕ)) : List (List ℤ × ℕ) :=
  items.map (fun it => ([it.1, -it.1], it.2)) ++ [([0], n - (items.map Prod.snd).sum)]

/-- The value lists of `rd`. -/
def rdE (n : ℕ) (items : List (ℤ × ℕ)) : List (List ℤ × ℕ) :=
  items.map (fun it => ([it.1], it.2)) ++ [([0], n - (items.map Prod.snd).sum)]

theorem fsd_rz (D n : ℕ) (items : List (ℤ × ℕ)) (h : (items.map Prod.snd).sum ≤ n) :
    fsd n (items.map fun it => (rz D it.1, it.2)) = some (combine (zElems D (fsdE n items))) := by
  have e : (items.map fun it => (rz D it.1, it.2)).map Prod.snd = items.map Prod.snd := by
    simp [Function.comp_def]
  rw [fsd, e, if_pos h]
  simp [zElems, fsdE, Function.comp_def, rz_neg, rz_zero]

theorem rd_rz (D n : ℕ) (items : List (ℤ × ℕ)) (h0 : items.all (fun it => 0 < it.2) = true)
    (h : (items.map Prod.snd).sum ≤ n) :
    rd n (items.map fun it => (rz D it.1, it.2)) = some (combine (zElems D (rdE n items))) := by
  have e : (items.map fun it => (rz D it.1, it.2)).map Prod.snd = items.map Prod.snd := by
    simp [Function.comp_def]
  rw [rd, e, if_pos ⟨by simpa [List.all_map, Function.comp_def] using h0, h⟩]
  simp [zElems, rdE, Function.comp_def, rz_zero]

theorem partitions_single (n : ℕ) : partitions [n] = [List.replicate n 0] := by
  induction n with
  | zero => rw [partitions_eq]; simp
  | succ n ih =>
    rw [partitions_eq]
    simp [List.finRange_succ, ih, List.replicate_succ]

theorem iterProduct_replicate (n : ℕ) (r : ℝ) :
    iterProduct (List.replicate n [r]) = [List.replicate n r] := by
  induction n with
  | zero => rfl
  | succ n ih => simp [List.replicate_succ, iterProduct, ih]

/-- `z(n)`, `np.full((1, n), r)`. -/
theorem replicate_rz (D n : ℕ) (r : ℤ) :
    [List.replicate n (rz D r)] = combine (zElems D [([r], n)]) := by
  simp [combine, zElems, partitions_single, iterProduct_replicate]

theorem z_rz (D n : ℕ) : z n = combine (zElems D [([0], n)]) := by
  rw [← replicate_rz, rz_zero, z]

end Dec
end Quadpy
