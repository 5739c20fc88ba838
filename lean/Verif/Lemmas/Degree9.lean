import Verif.Lemmas.CubeExact
import Verif.Lemmas.RadialExact

/-!
# Moment conditions of degree 8 and 9 for fully symmetric rules
-/

namespace Quadpy
open Finset

/-- `k e_a + l e_b + m e_c + o e_d`. -/
def e4 {n : ℕ} (a b c d : Fin n) (k l m o : ℕ) : Fin n → ℕ :=
  Pi.single a k + Pi.single b l + Pi.single c m + Pi.single d o

/-- The four indices are distinct. -/
structure Distinct4 {n : ℕ} (a b c d : Fin n) : Prop where
  ab : a ≠ b
  ac : a ≠ c
  ad : a ≠ d
  bc : b ≠ c
  bd : b ≠ d
  cd : c ≠ d

theorem prod_e4 {n : ℕ} {M : Type*} [CommMonoid M] (G : Fin n → ℕ → M) (hG : ∀ i, G i 0 = 1)
    {a b c d : Fin n} (h : Distinct4 a b c d) (k l m o : ℕ) :
    ∏ i, G i (e4 a b c d k l m o i) = G a k * G b l * G c m * G d o := by
  have : ∀ i, G i (e4 a b c d k l m o i) = G i (e3 a b c k l m i) * G i (e1 d o i) := by
    intro i
    by_cases hd : i = d
    · subst hd
      simp [e4, e3, e1, h.ad.symm, h.bd.symm, h.cd.symm, hG]
    · simp [e4, e3, e1, hd, hG]
  rw [prod_congr rfl fun i _ => this i, prod_mul_distrib, prod_e1 G hG,
    prod_e3 G hG h.ab h.ac h.bc]

theorem mono_e4 {n : ℕ} {a b c d : Fin n} (h : Distinct4 a b c d) (k l m o : ℕ)
    (x : Fin n → ℝ) : mono (e4 a b c d k l m o) x = x a ^ k * x b ^ l * x c ^ m * x d ^ o :=
  prod_e4 (fun i k => x i ^ k) (by simp) h k l m o

theorem sum_e4 {n : ℕ} (a b c d : Fin n) (k l m o : ℕ) :
    ∑ i, e4 a b c d k l m o i = k + l + m + o := by
  simp [e4, sum_add_distrib]

theorem e4_comp {n : ℕ} (a b c d : Fin n) (k l m o : ℕ) (σ : Equiv.Perm (Fin n)) :
    e4 a b c d k l m o ∘ σ = e4 (σ.symm a) (σ.symm b) (σ.symm c) (σ.symm d) k l m o := by
  have h1 := e3_comp a b c k l m σ
  have h2 := e1_comp d o σ
  unfold e4 e3 e1 at *
  rw [← h1, ← h2]; rfl

theorem exists_perm4 {n : ℕ} {a b c d a' b' c' d' : Fin n} (h : Distinct4 a b c d)
    (h' : Distinct4 a' b' c' d') :
    ∃ σ : Equiv.Perm (Fin n), σ a = a' ∧ σ b = b' ∧ σ c = c' ∧ σ d = d' := by
  obtain ⟨σ, h1, h2, h3⟩ := exists_perm3 h.ab h.ac h.bc h'.ab h'.ac h'.bc
  refine ⟨σ.trans (Equiv.swap (σ d) d'), ?_, ?_, ?_, ?_⟩
  · simp only [Equiv.trans_apply, h1]
    rw [Equiv.swap_apply_of_ne_of_ne _ h'.ad]
    rw [← h1]; exact fun h0 => h.ad (σ.injective h0)
  · simp only [Equiv.trans_apply, h2]
    rw [Equiv.swap_apply_of_ne_of_ne _ h'.bd]
    rw [← h2]; exact fun h0 => h.bd (σ.injective h0)
  · simp only [Equiv.trans_apply, h3]
    rw [Equiv.swap_apply_of_ne_of_ne _ h'.cd]
    rw [← h3]; exact fun h0 => h.cd (σ.injective h0)
  · simp

theorem FS.e4_eq {n : ℕ} {L : List (List ℝ)} (h : FS n L) (k l m o : ℕ)
    {a b c d a' b' c' d' : Fin n} (h1 : Distinct4 a b c d) (h1' : Distinct4 a' b' c' d') :
    osum n L (mono (e4 a b c d k l m o)) = osum n L (mono (e4 a' b' c' d' k l m o)) := by
  obtain ⟨σ, h1, h2, h3, h4⟩ := exists_perm4 h1 h1'
  rw [← h.perm (e4 a' b' c' d' k l m o) σ, e4_comp, ← h1, ← h2, ← h3, ← h4]
  simp

theorem four_le_of_ne {n : ℕ} {a b c d : Fin n} (h : Distinct4 a b c d) : 4 ≤ n := by
  have := Fintype.card_le_of_injective
    (fun i : Fin 4 => if i = 0 then a else if i = 1 then b else if i = 2 then c else d)
    (by intro i j; fin_cases i <;> fin_cases j <;>
          simp [h.ab, h.ab.symm, h.ac, h.ac.symm, h.bc, h.bc.symm, h.ad, h.ad.symm, h.bd, h.bd.symm,
            h.cd, h.cd.symm])
  simpa using this

/-- `∑_{a,b,c distinct} x_a^4 x_b^2 x_c^2` from power sums. -/
theorem FS.mom422 {n : ℕ} {L : List (List ℝ)} (h : FS n L) {p2 p4 p6 p8 : ℝ}
    (h2 : ConstPow n L 2 p2) (h4 : ConstPow n L 4 p4) (h6 : ConstPow n L 6 p6)
    (h8 : ConstPow n L 8 p8) {a b c : Fin n} (hab : a ≠ b) (hac : a ≠ c) (hbc : b ≠ c) :
    (n : ℝ) * (n - 1) * (n - 2) * osum n L (mono (e3 a b c 4 2 2)) =
      L.length * (p4 * p2 ^ 2 - p4 ^ 2 - 2 * p6 * p2 + 2 * p8) := by
  have hs : osum n L (fun x => x a ^ 4 * x b ^ 2 * ∑ i, x i ^ 2) =
      p2 * osum n L (mono (e2 a b 4 2)) := by
    unfold osum
    rw [← List.sum_map_mul_left]
    congr 1
    apply List.map_congr_left
    intro x hx
    beta_reduce
    rw [h2 x hx, mono_e2 hab]; ring
  have hs2 : osum n L (fun x => x a ^ 4 * x b ^ 2 * ∑ i, x i ^ 2) =
      osum n L (mono (e2 a b 6 2)) + osum n L (mono (e2 a b 4 4)) +
        (n - 2) * osum n L (mono (e3 a b c 4 2 2)) := by
    have e : (fun x : Fin n → ℝ => x a ^ 4 * x b ^ 2 * ∑ i, x i ^ 2) =
        fun x => ∑ i, x a ^ 4 * x b ^ 2 * x i ^ 2 := by
      funext x; rw [mul_sum]
    rw [e, osum_finset_sum]
    rw [← add_sum_erase univ _ (mem_univ a), ← add_sum_erase (univ.erase a) _
      (show b ∈ univ.erase a from mem_erase.2 ⟨hab.symm, mem_univ b⟩)]
    have ea : osum n L (fun x => x a ^ 4 * x b ^ 2 * x a ^ 2) = osum n L (mono (e2 a b 6 2)) :=
      osum_congr L _ _ fun x _ => by rw [mono_e2 hab]; ring
    have eb : osum n L (fun x => x a ^ 4 * x b ^ 2 * x b ^ 2) = osum n L (mono (e2 a b 4 4)) :=
      osum_congr L _ _ fun x _ => by rw [mono_e2 hab]; ring
    have ec : ∀ i ∈ (univ.erase a).erase b, osum n L (fun x => x a ^ 4 * x b ^ 2 * x i ^ 2) =
        osum n L (mono (e3 a b c 4 2 2)) := by
      intro i hi
      rw [mem_erase, mem_erase] at hi
      have hib : b ≠ i := hi.1.symm
      have hia : a ≠ i := hi.2.1.symm
      rw [h.e3_eq 4 2 2 hab hac hbc hab hia hib]
      exact osum_congr L _ _ fun x _ => by rw [mono_e3 hab hia hib]
    rw [ea, eb, sum_congr rfl ec, sum_const, nsmul_eq_mul,
      card_erase_of_mem (mem_erase.2 ⟨hab.symm, mem_univ b⟩), card_erase_of_mem (mem_univ a),
      card_univ, Fintype.card_fin]
    rw [Nat.sub_sub, Nat.cast_sub (two_le_of_ne hab)]
    push_cast; ring
  have m42 := h.mom2 h4 h2 h6 hab
  have m62 := h.mom2 h6 h2 h8 hab
  have m44 := h.mom2 h4 h4 h8 hab
  rw [hs] at hs2
  linear_combination (n : ℝ) * (n - 1) * (-hs2) + p2 * m42 - m62 - m44

/-- `∑_{a,b,c,d distinct} x_a^2 x_b^2 x_c^2 x_d^2` from power sums. -/
theorem FS.mom4 {n : ℕ} {L : List (List ℝ)} (h : FS n L) {p2 p4 p6 p8 : ℝ}
    (h2 : ConstPow n L 2 p2) (h4 : ConstPow n L 4 p4) (h6 : ConstPow n L 6 p6)
    (h8 : ConstPow n L 8 p8) {a b c d : Fin n} (hd : Distinct4 a b c d) :
    (n : ℝ) * (n - 1) * (n - 2) * (n - 3) * osum n L (mono (e4 a b c d 2 2 2 2)) =
      L.length * (p2 ^ 4 - 6 * p2 ^ 2 * p4 + 3 * p4 ^ 2 + 8 * p2 * p6 - 6 * p8) := by
  have hs : osum n L (fun x => x a ^ 2 * x b ^ 2 * x c ^ 2 * ∑ i, x i ^ 2) =
      p2 * osum n L (mono (e3 a b c 2 2 2)) := by
    unfold osum
    rw [← List.sum_map_mul_left]
    congr 1
    apply List.map_congr_left
    intro x hx
    beta_reduce
    rw [h2 x hx, mono_e3 hd.ab hd.ac hd.bc]; ring
  have hs2 : osum n L (fun x => x a ^ 2 * x b ^ 2 * x c ^ 2 * ∑ i, x i ^ 2) =
      3 * osum n L (mono (e3 a b c 4 2 2)) +
        (n - 3) * osum n L (mono (e4 a b c d 2 2 2 2)) := by
    have e : (fun x : Fin n → ℝ => x a ^ 2 * x b ^ 2 * x c ^ 2 * ∑ i, x i ^ 2) =
        fun x => ∑ i, x a ^ 2 * x b ^ 2 * x c ^ 2 * x i ^ 2 := by
      funext x; rw [mul_sum]
    rw [e, osum_finset_sum]
    have mb : b ∈ univ.erase a := mem_erase.2 ⟨hd.ab.symm, mem_univ b⟩
    have mc : c ∈ (univ.erase a).erase b :=
      mem_erase.2 ⟨hd.bc.symm, mem_erase.2 ⟨hd.ac.symm, mem_univ c⟩⟩
    rw [← add_sum_erase univ _ (mem_univ a), ← add_sum_erase (univ.erase a) _ mb,
      ← add_sum_erase ((univ.erase a).erase b) _ mc]
    have ea : osum n L (fun x => x a ^ 2 * x b ^ 2 * x c ^ 2 * x a ^ 2) =
        osum n L (mono (e3 a b c 4 2 2)) :=
      osum_congr L _ _ fun x _ => by rw [mono_e3 hd.ab hd.ac hd.bc]; ring
    have eb : osum n L (fun x => x a ^ 2 * x b ^ 2 * x c ^ 2 * x b ^ 2) =
        osum n L (mono (e3 a b c 4 2 2)) := by
      rw [h.e3_eq 4 2 2 hd.ab hd.ac hd.bc hd.ab.symm hd.bc hd.ac]
      exact osum_congr L _ _ fun x _ => by rw [mono_e3 hd.ab.symm hd.bc hd.ac]; ring
    have ec : osum n L (fun x => x a ^ 2 * x b ^ 2 * x c ^ 2 * x c ^ 2) =
        osum n L (mono (e3 a b c 4 2 2)) := by
      rw [h.e3_eq 4 2 2 hd.ab hd.ac hd.bc hd.ac.symm hd.bc.symm hd.ab]
      exact osum_congr L _ _ fun x _ => by rw [mono_e3 hd.ac.symm hd.bc.symm hd.ab]; ring
    have ed : ∀ i ∈ ((univ.erase a).erase b).erase c,
        osum n L (fun x => x a ^ 2 * x b ^ 2 * x c ^ 2 * x i ^ 2) =
        osum n L (mono (e4 a b c d 2 2 2 2)) := by
      intro i hi
      rw [mem_erase, mem_erase, mem_erase] at hi
      have hd' : Distinct4 a b c i :=
        ⟨hd.ab, hd.ac, hi.2.2.1.symm, hd.bc, hi.2.1.symm, hi.1.symm⟩
      rw [h.e4_eq 2 2 2 2 hd hd']
      exact osum_congr L _ _ fun x _ => by rw [mono_e4 hd']
    rw [ea, eb, ec, sum_congr rfl ed, sum_const, nsmul_eq_mul, card_erase_of_mem mc,
      card_erase_of_mem mb, card_erase_of_mem (mem_univ a), card_univ, Fintype.card_fin]
    rw [Nat.sub_sub, Nat.sub_sub, Nat.cast_sub (three_le_of_ne hd.ab hd.ac hd.bc)]
    push_cast; ring
  have m222 := h.mom3 h2 h4 h6 hd.ab hd.ac hd.bc
  have m422 := h.mom422 h2 h4 h6 h8 hd.ab hd.ac hd.bc
  rw [hs] at hs2
  linear_combination (n : ℝ) * (n - 1) * (n - 2) * (-hs2) + p2 * m222 - 3 * m422

/-- Every multi-index with an odd entry, or of the listed even types, up to degree 9. -/
theorem classify_even9 {n : ℕ} {d : ℕ} (hd : d ≤ 9) (P : (Fin n → ℕ) → Prop)
    (h7 : ∀ α : Fin n → ℕ, ∑ i, α i ≤ min d 7 → P α)
    (odd : ∀ α, (∃ i, Odd (α i)) → P α)
    (h8 : 8 ≤ d → ∀ a, P (e1 a 8))
    (h62 : 8 ≤ d → ∀ a b, a ≠ b → P (e2 a b 6 2))
    (h44 : 8 ≤ d → ∀ a b, a ≠ b → P (e2 a b 4 4))
    (h422 : 8 ≤ d → ∀ a b c, a ≠ b → a ≠ c → b ≠ c → P (e3 a b c 4 2 2))
    (h2222 : 8 ≤ d → ∀ a b c e, Distinct4 a b c e → P (e4 a b c e 2 2 2 2)) :
    ∀ α : Fin n → ℕ, ∑ i, α i ≤ d → P α := by
  intro α hα
  by_cases hodd : ∃ i, Odd (α i)
  · exact odd α hodd
  by_cases h7' : ∑ i, α i ≤ 7
  · exact h7 α (le_min hα h7')
  have hd8 : 8 ≤ d := by omega
  push Not at hodd
  have hev : ∀ i, Even (α i) := fun i => Nat.not_odd_iff_even.1 (hodd i)
  have hse : Even (∑ i, α i) := Finset.even_sum _ fun i _ => hev i
  have hs8 : ∑ i, α i = 8 := by
    obtain ⟨t, ht⟩ := hse
    omega
  obtain ⟨a, ha⟩ : ∃ a, 0 < α a := by
    by_contra hcon
    push Not at hcon
    have : ∑ i, α i = 0 := sum_eq_zero fun i _ => Nat.le_zero.1 (hcon i)
    omega
  have ha2 : 2 ≤ α a := by
    obtain ⟨t, ht⟩ := hev a
    omega
  obtain ⟨β, he⟩ : ∃ β : Fin n → ℕ, α = Pi.single a 2 + β := by
    refine ⟨α - Pi.single a 2, ?_⟩
    funext i
    by_cases hi : i = a
    · subst hi; simp; omega
    · simp [hi]
  have hadd : ∀ (x : Fin n) (k l : ℕ), (Pi.single x k + Pi.single x l : Fin n → ℕ) =
      Pi.single x (k + l) := fun x k l => by
    funext i; by_cases hi : i = x <;> simp [hi]
  have key : ∀ β : Fin n → ℕ, ∑ i, β i ≤ 6 → (∑ i, β i = 6 → (∀ i, Even (β i)) →
      P (Pi.single a 2 + β)) := by
    refine classify_even (by norm_num) _ ?_ ?_ ?_ ?_ ?_ ?_ ?_ ?_
    · rintro β ⟨i, hi⟩ _ hβ
      exact absurd (hβ i) (Nat.not_even_iff_odd.2 hi)
    · intro h; simp at h
    · intro _ b h; rw [sum_e1] at h; omega
    · intro _ b h; rw [sum_e1] at h; omega
    · intro _ b c _ h; rw [sum_e2] at h; omega
    · intro _ b _ _
      by_cases hab : a = b
      · subst hab
        rw [e1, hadd]; exact h8 hd8 a
      · rw [add_comm]
        exact h62 hd8 b a (Ne.symm hab)
    · intro _ b c hbc _ _
      by_cases hab : a = b
      · subst hab
        rw [e2, ← add_assoc, hadd]; exact h62 hd8 a c hbc
      · by_cases hac : a = c
        · subst hac
          rw [e2, add_left_comm, hadd]; exact h44 hd8 b a hbc
        · rw [add_comm]
          exact h422 hd8 b c a hbc (Ne.symm hab) (Ne.symm hac)
    · intro _ b c e hbc hbe hce _ _
      by_cases hab : a = b
      · subst hab
        rw [e3, ← add_assoc, ← add_assoc, hadd]; exact h422 hd8 a c e hbc hbe hce
      · by_cases hac : a = c
        · subst hac
          have : (Pi.single a 2 + e3 b a e 2 2 2 : Fin n → ℕ) = e3 a b e 4 2 2 := by
            rw [e3, e3, ← hadd a 2 2]; abel
          rw [this]
          exact h422 hd8 a b e hab hce hbe
        · by_cases hae : a = e
          · subst hae
            have : (Pi.single a 2 + e3 b c a 2 2 2 : Fin n → ℕ) = e3 a b c 4 2 2 := by
              rw [e3, e3, ← hadd a 2 2]; abel
            rw [this]
            exact h422 hd8 a b c hab hac hbc
          · have : (Pi.single a 2 + e3 b c e 2 2 2 : Fin n → ℕ) = e4 a b c e 2 2 2 2 := by
              rw [e3, e4]; abel
            rw [this]
            exact h2222 hd8 a b c e ⟨hab, hac, hae, hbc, hbe, hce⟩
  have hsum : ∑ i, β i = 6 := by
    have : ∑ i, α i = ∑ i, (Pi.single a 2 : Fin n → ℕ) i + ∑ i, β i := by
      rw [← sum_add_distrib]
      exact sum_congr rfl fun i _ => congrFun he i
    simp at this
    omega
  rw [he]
  refine key _ hsum.le hsum fun i => ?_
  have h := hev i
  rw [he, Pi.add_apply] at h
  by_cases hi : i = a
  · subst hi
    simp only [Pi.single_eq_same] at h
    exact (Nat.even_add.1 h).1 even2
  · simpa [hi] using h

/-- The values of a symmetric moment functional on the even monomials of degree at most 8. -/
structure SymMom9 {n : ℕ} (M : (Fin n → ℕ) → ℝ) (m2 m4 m22 m6 m42 m222 m8 m62 m44 m422 m2222 : ℝ) :
    Prop extends SymMom M m2 m4 m22 m6 m42 m222 where
  eight : ∀ a, M (e1 a 8) = m8
  sixtwo : ∀ a b, a ≠ b → M (e2 a b 6 2) = m62
  fourfour : ∀ a b, a ≠ b → M (e2 a b 4 4) = m44
  ftt : ∀ a b c, a ≠ b → a ≠ c → b ≠ c → M (e3 a b c 4 2 2) = m422
  tttt : ∀ a b c d, Distinct4 a b c d → M (e4 a b c d 2 2 2 2) = m2222

/-- A weighted group with its power sum of order 8. -/
structure Grp9 extends Grp where
  p8 : ℝ

/-- The power sums are right and the points are fully symmetric. -/
structure Grp9.Ok (n : ℕ) (g : Grp9) : Prop extends g.toGrp.Ok n where
  h8 : ConstPow n g.L 8 g.p8

/-- Sum of `w N φ` over the groups. -/
def gsum9 (gs : List Grp9) (φ : Grp9 → ℝ) : ℝ := (gs.map fun g => g.w * g.L.length * φ g).sum

theorem gsum9_eq {n : ℕ} (gs : List Grp9) (α : Fin n → ℕ) (φ : Grp9 → ℝ) (c : ℝ)
    (h : ∀ g ∈ gs, c * osum n g.L (mono α) = g.L.length * φ g) :
    c * (gs.map fun g => g.w * osum n g.L (mono α)).sum = gsum9 gs φ := by
  unfold gsum9
  rw [← List.sum_map_mul_left]
  congr 1
  apply List.map_congr_left
  intro g hg
  have := h g hg
  rw [mul_left_comm, this]; ring

/-- Conditions on the groups of a rule that make it exact of degree 9, for symmetric moments. -/
structure GroupConds9 (n : ℕ) (gs : List Grp9) (m2 m4 m22 m6 m42 m222 m8 m62 m44 m422 m2222 : ℝ) :
    Prop where
  low : GroupConds n 7 (gs.map Grp9.toGrp) m2 m4 m22 m6 m42 m222
  c8 : gsum9 gs (fun g => g.p8) = n * m8
  c62 : gsum9 gs (fun g => g.p6 * g.p2 - g.p8) = (n : ℝ) * (n - 1) * m62
  c44 : gsum9 gs (fun g => g.p4 * g.p4 - g.p8) = (n : ℝ) * (n - 1) * m44
  c422 : gsum9 gs (fun g => g.p4 * g.p2 ^ 2 - g.p4 ^ 2 - 2 * g.p6 * g.p2 + 2 * g.p8) =
      (n : ℝ) * (n - 1) * (n - 2) * m422
  c2222 : gsum9 gs (fun g => g.p2 ^ 4 - 6 * g.p2 ^ 2 * g.p4 + 3 * g.p4 ^ 2 + 8 * g.p2 * g.p6 -
      6 * g.p8) = (n : ℝ) * (n - 1) * (n - 2) * (n - 3) * m2222

theorem fs_moments9 {n : ℕ} (gs : List Grp9) (hok : ∀ g ∈ gs, g.Ok n)
    {M : (Fin n → ℕ) → ℝ} {m2 m4 m22 m6 m42 m222 m8 m62 m44 m422 m2222 : ℝ}
    (hM : SymMom9 M m2 m4 m22 m6 m42 m222 m8 m62 m44 m422 m2222)
    (hc : GroupConds9 n gs m2 m4 m22 m6 m42 m222 m8 m62 m44 m422 m2222) :
    ∀ α : Fin n → ℕ, ∑ i, α i ≤ 9 →
      (gs.map fun g => g.w * osum n g.L (mono α)).sum = M α := by
  have n0 : ∀ a : Fin n, (n : ℝ) ≠ 0 := fun a => by
    have : n ≠ 0 := by rintro rfl; exact a.elim0
    exact_mod_cast this
  have n1 : ∀ a b : Fin n, a ≠ b → (n : ℝ) * (n - 1) ≠ 0 := fun a b hab => by
    have h : (2 : ℝ) ≤ n := by exact_mod_cast two_le_of_ne hab
    have : (0 : ℝ) < n - 1 := by linarith
    exact mul_ne_zero (n0 a) this.ne'
  have n2 : ∀ a b c : Fin n, a ≠ b → a ≠ c → b ≠ c → (n : ℝ) * (n - 1) * (n - 2) ≠ 0 :=
    fun a b c hab hac hbc => by
      have h : (3 : ℝ) ≤ n := by exact_mod_cast three_le_of_ne hab hac hbc
      have : (0 : ℝ) < n - 2 := by linarith
      exact mul_ne_zero (n1 a b hab) this.ne'
  have n3 : ∀ a b c d : Fin n, Distinct4 a b c d →
      (n : ℝ) * (n - 1) * (n - 2) * (n - 3) ≠ 0 := fun a b c d hd => by
      have h : (4 : ℝ) ≤ n := by exact_mod_cast four_le_of_ne hd
      have : (0 : ℝ) < n - 3 := by linarith
      exact mul_ne_zero (n2 a b c hd.ab hd.ac hd.bc) this.ne'
  apply classify_even9 le_rfl
  · intro α hα
    have := fs_moments (n := n) le_rfl (gs.map Grp9.toGrp) (fun g hg => by
      obtain ⟨g', hg', rfl⟩ := List.mem_map.1 hg
      exact (hok g' hg').toOk) hM.toSymMom hc.low.c0 hc.low.c2 hc.low.c4 hc.low.c22 hc.low.c6
      hc.low.c42 hc.low.c222 α (by simpa using hα)
    simpa [Function.comp_def] using this
  · intro α hα
    rw [hM.odd α hα]
    apply List.sum_eq_zero
    intro x hx
    obtain ⟨g, hg, rfl⟩ := List.mem_map.1 hx
    rw [(hok g hg).fs.odd α hα, mul_zero]
  · intro _ a
    rw [hM.eight a]
    apply mul_left_cancel₀ (n0 a)
    rw [← hc.c8]
    exact gsum9_eq gs _ _ _ fun g hg => (hok g hg).fs.mom1 (hok g hg).h8 a
  · intro _ a b hab
    rw [hM.sixtwo a b hab]
    apply mul_left_cancel₀ (n1 a b hab)
    rw [← hc.c62]
    exact gsum9_eq gs _ _ _ fun g hg => (hok g hg).fs.mom2 (hok g hg).h6 (hok g hg).h2 (hok g hg).h8 hab
  · intro _ a b hab
    rw [hM.fourfour a b hab]
    apply mul_left_cancel₀ (n1 a b hab)
    rw [← hc.c44]
    exact gsum9_eq gs _ _ _ fun g hg => (hok g hg).fs.mom2 (hok g hg).h4 (hok g hg).h4 (hok g hg).h8 hab
  · intro _ a b c hab hac hbc
    rw [hM.ftt a b c hab hac hbc]
    apply mul_left_cancel₀ (n2 a b c hab hac hbc)
    rw [← hc.c422]
    exact gsum9_eq gs _ _ _ fun g hg =>
      (hok g hg).fs.mom422 (hok g hg).h2 (hok g hg).h4 (hok g hg).h6 (hok g hg).h8 hab hac hbc
  · intro _ a b c d hd
    rw [hM.tttt a b c d hd]
    apply mul_left_cancel₀ (n3 a b c d hd)
    rw [← hc.c2222]
    exact gsum9_eq gs _ _ _ fun g hg =>
      (hok g hg).fs.mom4 (hok g hg).h2 (hok g hg).h4 (hok g hg).h6 (hok g hg).h8 hd

theorem even8 : Even 8 := ⟨4, rfl⟩

/-- The origin with weight `w`. -/
def gZ9 (n : ℕ) (w : ℝ) : Grp9 := ⟨gZ n w, 0⟩
/-- An `fsd` group. -/
def gFsd9 (w : ℝ) (items : List (ℝ × ℕ)) (L : List (List ℝ)) : Grp9 :=
  ⟨gFsd w items L, (items.map fun it => (it.2 : ℝ) * it.1 ^ 8).sum⟩

theorem gZ9_ok (n : ℕ) (w : ℝ) : (gZ9 n w).Ok n := ⟨gZ_ok n w, zero_pow' n (by norm_num)⟩
theorem gFsd9_ok {n : ℕ} (w : ℝ) {items : List (ℝ × ℕ)} {L : List (List ℝ)}
    (h : fsd n items = some L) : (gFsd9 w items L).Ok n :=
  ⟨gFsd_ok w h, fun x hx => fsd_powersum h 8 even8 (by norm_num) x hx⟩

theorem fsd4_len {n : ℕ} {a : ℝ} {L : List (List ℝ)} (h : fsd n [(a, 4)] = some L) :
    (L.length : ℝ) = 2 / 3 * n * (n - 1) * (n - 2) * (n - 3) := by
  have h1 := fsd_count h
  have hn : 4 ≤ n := by simpa using (fsd_eq_some h).1
  obtain ⟨m, rfl⟩ : ∃ m, n = m + 4 := ⟨n - 4, by omega⟩
  have hf : (m.factorial : ℝ) ≠ 0 := by exact_mod_cast (Nat.factorial_pos m).ne'
  have : (m + 4 - (4 + 0)) = m := by omega
  simp only [List.map_cons, List.map_nil, List.prod_cons, List.prod_nil, List.sum_cons,
    List.sum_nil, this] at h1
  push_cast [Nat.factorial_succ] at h1
  apply mul_left_cancel₀ hf
  push_cast
  linear_combination h1 / 24

end Quadpy
