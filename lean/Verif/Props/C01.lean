import Verif.Lemmas.CombineMem
import Mathlib.Algebra.Order.Group.Unbundled.Abs
import Mathlib.Algebra.Order.Group.Abs

/-!
C01: `rd`, `fsd` and `fs_array` enumerate every arrangement exactly once.

Specification, independent of the model's helpers: the list of slots is
`slots n items = [value1 (count1 times), value2 (count2 times), ..., 0, ..., 0]` of length `n`;
the rows of `rd` are exactly the rearrangements of it, the rows of `fsd` are exactly the rows whose
absolute values are a rearrangement of the absolute values of it.
-/

namespace Quadpy

/-- Specification: the multiset of slots as a list. -/
def slots (n : ℕ) (items : List (ℝ × ℕ)) : List ℝ :=
  items.flatMap (fun it => List.replicate it.2 it.1) ++
    List.replicate (n - (items.map Prod.snd).sum) 0

theorem forall₂_blocks_singleton {α : Type*} (items : List (α × ℕ)) :
    ∀ blocks : List (List α),
    List.Forall₂ (fun b (e : List α × ℕ) => b.length = e.2 ∧ ∀ x ∈ b, x ∈ e.1) blocks
      (items.map fun it => ([it.1], it.2)) ↔
    blocks = items.map fun it => List.replicate it.2 it.1 := by
  induction items with
  | nil => intro b; simp
  | cons it items ih =>
    intro blocks
    simp only [List.map_cons]
    cases blocks with
    | nil => simp
    | cons b bs =>
      rw [List.forall₂_cons, ih bs, List.cons.injEq]
      refine and_congr_left fun _ => ?_
      simp only [List.mem_singleton]
      constructor
      · rintro ⟨h1, h2⟩; exact List.eq_replicate_iff.2 ⟨h1, h2⟩
      · rintro rfl; simp

theorem rd_eq_some {n : ℕ} {items : List (ℝ × ℕ)} {L : List (List ℝ)}
    (h : rd n items = some L) : (∀ it ∈ items, 0 < it.2) ∧ (items.map Prod.snd).sum ≤ n ∧
      L = combine ((items.map fun it => ([it.1], it.2)) ++
      [([0], n - (items.map Prod.snd).sum)]) := by
  unfold rd at h
  split_ifs at h with hc
  simp only [Option.some.injEq] at h
  exact ⟨by simpa using hc.1, hc.2, h.symm⟩

theorem fsd_eq_some {n : ℕ} {items : List (ℝ × ℕ)} {L : List (List ℝ)}
    (h : fsd n items = some L) : (items.map Prod.snd).sum ≤ n ∧
      L = combine ((items.map fun it => ([it.1, -it.1], it.2)) ++
      [([0], n - (items.map Prod.snd).sum)]) := by
  unfold fsd at h
  split_ifs at h with hc
  simp only [Option.some.injEq] at h
  exact ⟨hc, h.symm⟩

/-- C01 (rd), membership: a row is returned iff it is a rearrangement of the slots. -/
theorem C01_rd_mem {n : ℕ} {items : List (ℝ × ℕ)} {L : List (List ℝ)}
    (h : rd n items = some L) (row : List ℝ) : row ∈ L ↔ row.Perm (slots n items) := by
  obtain ⟨_, _, rfl⟩ := rd_eq_some h
  rw [mem_combine_iff]
  have e : (items.map fun it => ([it.1], it.2)) ++ [([0], n - (items.map Prod.snd).sum)] =
      (items ++ [((0 : ℝ), n - (items.map Prod.snd).sum)]).map fun it => ([it.1], it.2) := by simp
  simp only [e, forall₂_blocks_singleton, exists_eq_left]
  have : ((items ++ [((0 : ℝ), n - (items.map Prod.snd).sum)]).map
      fun it => List.replicate it.2 it.1).flatten = slots n items := by
    simp [slots, List.flatMap]
  rw [this]

/-- C01 (rd), errors: the assertions fail exactly when a count is zero or the counts exceed n. -/
theorem C01_rd_none (n : ℕ) (items : List (ℝ × ℕ)) :
    rd n items = none ↔ (∃ it ∈ items, it.2 = 0) ∨ n < (items.map Prod.snd).sum := by
  unfold rd
  split_ifs with hc
  · simp only [false_iff, not_or, not_exists, not_and, not_lt]
    refine ⟨fun it hit h0 => ?_, hc.2⟩
    have := hc.1
    simp only [List.all_eq_true, decide_eq_true_eq] at this
    have := this it hit
    omega
  · simp only [true_iff]
    by_contra hcon
    push Not at hcon
    apply hc
    refine ⟨?_, hcon.2⟩
    simp only [List.all_eq_true, decide_eq_true_eq]
    exact fun it hit => Nat.pos_of_ne_zero (hcon.1 it hit)

/-- C01 (rd): number of rows is the multinomial coefficient n!/(c1! c2! ... (n - sum c)!). -/
theorem C01_rd_length {n : ℕ} {items : List (ℝ × ℕ)} {L : List (List ℝ)}
    (h : rd n items = some L) :
    (items.map fun it => Nat.factorial it.2).prod * Nat.factorial (n - (items.map Prod.snd).sum) *
      L.length = Nat.factorial n := by
  obtain ⟨_, hs, rfl⟩ := rd_eq_some h
  have := length_combine ((items.map fun it => ([it.1], it.2)) ++
      [([(0 : ℝ)], n - (items.map Prod.snd).sum)])
  simp only [List.map_append, List.map_map, List.map_cons, List.map_nil, List.prod_append,
    List.prod_singleton, List.sum_append, List.sum_singleton, Function.comp_def,
    List.length_singleton, one_pow, mul_one, List.map_const', List.prod_replicate] at this
  rw [this]
  congr 1
  have : (List.map (fun x : ℝ × ℕ => x.2) items).sum = (items.map Prod.snd).sum := rfl
  omega

/-- C01 (rd): if the values are distinct and nonzero, no row is returned twice. -/
theorem C01_rd_nodup {n : ℕ} {items : List (ℝ × ℕ)} {L : List (List ℝ)}
    (h : rd n items = some L) (h0 : ∀ it ∈ items, it.1 ≠ 0)
    (hd : items.Pairwise fun a b => a.1 ≠ b.1) : L.Nodup := by
  obtain ⟨_, _, rfl⟩ := rd_eq_some h
  apply nodup_combine
  · intro e he
    simp only [List.mem_append, List.mem_map, List.mem_singleton] at he
    rcases he with ⟨it, _, rfl⟩ | rfl <;> simp
  · rw [List.pairwise_append]
    refine ⟨?_, by simp, ?_⟩
    · rw [List.pairwise_map]
      exact hd.imp fun hab => by simpa using fun h => hab h.symm
    · intro a ha b hb
      simp only [List.mem_map, List.mem_singleton] at ha hb
      obtain ⟨it, hit, rfl⟩ := ha
      subst hb
      simpa using fun h => h0 it hit h.symm

theorem forall₂_comp3 {α β γ : Type*} {r : α → β → Prop} {q : β → γ → Prop} {u : α → γ → Prop}
    (hu : ∀ a b c, r a b → q b c → u a c) : ∀ {l₁ : List α} {l₂ : List β} {l₃ : List γ},
    List.Forall₂ r l₁ l₂ → List.Forall₂ q l₂ l₃ → List.Forall₂ u l₁ l₃
  | _, _, _, .nil, .nil => .nil
  | _, _, _, .cons h1 t1, .cons h2 t2 => .cons (hu _ _ _ h1 h2) (forall₂_comp3 hu t1 t2)

theorem mem_pm_iff (x v : ℝ) : x ∈ [v, -v] ↔ |x| = |v| := by
  simp [abs_eq_abs]

theorem forall₂_blocks_pm (V : ℝ × ℕ → List ℝ) (items : List (ℝ × ℕ))
    (hV : ∀ it ∈ items, ∀ x, x ∈ V it ↔ |x| = |it.1|) : ∀ blocks : List (List ℝ),
    List.Forall₂ (fun b (e : List ℝ × ℕ) => b.length = e.2 ∧ ∀ x ∈ b, x ∈ e.1) blocks
      (items.map fun it => (V it, it.2)) ↔
    blocks.map (List.map abs) = items.map fun it => List.replicate it.2 |it.1| := by
  induction items with
  | nil => intro b; simp
  | cons it items ih =>
    intro blocks
    simp only [List.map_cons]
    cases blocks with
    | nil => simp
    | cons b bs =>
      rw [List.forall₂_cons, ih (fun it hit => hV it (by simp [hit])) bs, List.map_cons,
        List.cons.injEq]
      refine and_congr_left fun _ => ?_
      have h1 : ∀ x, x ∈ V it ↔ |x| = |it.1| := hV it (by simp)
      constructor
      · rintro ⟨h2, h3⟩
        rw [List.eq_replicate_iff]
        refine ⟨by simpa using h2, ?_⟩
        intro y hy
        obtain ⟨x, hx, rfl⟩ := List.mem_map.1 hy
        exact (h1 x).1 (h3 x hx)
      · intro h2
        rw [List.eq_replicate_iff] at h2
        exact ⟨by simpa using h2.1, fun x hx => (h1 x).2 (h2.2 _ (List.mem_map.2 ⟨x, hx, rfl⟩))⟩

theorem exists_blocks_of_map {α β : Type*} (f : α → β) : ∀ (bs : List (List β)) (row : List α),
    row.map f = bs.flatten → ∃ blocks : List (List α), blocks.map (List.map f) = bs ∧
      row = blocks.flatten := by
  intro bs
  induction bs with
  | nil => intro row h; simp at h; exact ⟨[], by simp, by simp [h]⟩
  | cons b bs ih =>
    intro row h
    rw [List.flatten_cons] at h
    obtain ⟨r1, r2, rfl, h1, h2⟩ := List.map_eq_append_iff.1 h
    obtain ⟨blocks, h3, rfl⟩ := ih r2 h2
    exact ⟨r1 :: blocks, by simp [h1, h3], by simp⟩

theorem mem_combine_pm (V : ℝ × ℕ → List ℝ) (items : List (ℝ × ℕ))
    (hV : ∀ it ∈ items, ∀ x, x ∈ V it ↔ |x| = |it.1|) (row : List ℝ) :
    row ∈ combine (items.map fun it => (V it, it.2)) ↔
    (row.map abs).Perm (items.flatMap fun it => List.replicate it.2 |it.1|) := by
  rw [mem_combine_iff]
  simp only [forall₂_blocks_pm V items hV]
  constructor
  · rintro ⟨blocks, h1, h2⟩
    have := h2.map abs
    rw [List.map_flatten, h1] at this
    exact this
  · intro h
    obtain ⟨row', h1, h2⟩ : ∃ row', row.Perm row' ∧
        row'.map abs = items.flatMap fun it => List.replicate it.2 |it.1| := by
      have hf : List.Forall₂ (fun x y => y = |x|) row (row.map abs) := by
        rw [List.forall₂_map_right_iff, List.forall₂_same]; simp
      have hcomp : Relation.Comp (List.Forall₂ fun x y => y = |x|) List.Perm row
          (items.flatMap fun it => List.replicate it.2 |it.1|) := ⟨_, hf, h⟩
      rw [List.forall₂_comp_perm_eq_perm_comp_forall₂] at hcomp
      obtain ⟨row', hp, hf'⟩ := hcomp
      refine ⟨row', hp, ?_⟩
      rw [← List.forall₂_eq_eq_eq, List.forall₂_map_left_iff]
      exact hf'.imp fun _ _ h => h.symm
    obtain ⟨blocks, h3, rfl⟩ := exists_blocks_of_map abs _ row' h2
    exact ⟨blocks, h3, h1⟩

/-- C01 (fsd), membership: a row is returned iff its absolute values are a rearrangement of the
absolute values of the slots, i.e. every arrangement with every choice of signs. -/
theorem C01_fsd_mem {n : ℕ} {items : List (ℝ × ℕ)} {L : List (List ℝ)}
    (h : fsd n items = some L) (row : List ℝ) :
    row ∈ L ↔ (row.map abs).Perm ((slots n items).map abs) := by
  classical
  obtain ⟨_, rfl⟩ := fsd_eq_some h
  set m := n - (items.map Prod.snd).sum with hm
  rw [mem_combine_iff]
  constructor
  · rintro ⟨blocks, h1, h2⟩
    have h1' : List.Forall₂ (fun b (e : List ℝ × ℕ) => b.length = e.2 ∧ ∀ x ∈ b, x ∈ e.1) blocks
        ((items ++ [((0 : ℝ), m)]).map fun it => ([it.1, -it.1], it.2)) := by
      have e : List.Forall₂ (fun (a b : List ℝ × ℕ) => a.2 = b.2 ∧ ∀ x ∈ a.1, x ∈ b.1)
          ((items.map fun it => ([it.1, -it.1], it.2)) ++ [([(0 : ℝ)], m)])
          ((items ++ [((0 : ℝ), m)]).map fun it => ([it.1, -it.1], it.2)) := by
        rw [List.map_append]
        refine List.rel_append (List.forall₂_same.2 fun e _ => by simp) ?_
        simp
      have := forall₂_comp3 (u := fun b (e : List ℝ × ℕ) => b.length = e.2 ∧ ∀ x ∈ b, x ∈ e.1)
        (fun _ _ _ => ?_) h1 e
      · exact this
      · rintro ⟨h3, h4⟩ ⟨h5, h6⟩
        exact ⟨h3.trans h5, fun x hx => h6 x (h4 x hx)⟩
    have := (mem_combine_pm (fun it => [it.1, -it.1]) (items ++ [((0 : ℝ), m)])
      (fun it _ x => mem_pm_iff x it.1) row).1 ((mem_combine_iff _ _).2 ⟨blocks, h1', h2⟩)
    simpa [slots, List.map_flatMap] using this
  · intro h
    have h' : (row.map abs).Perm ((items ++ [((0 : ℝ), m)]).flatMap
        fun it => List.replicate it.2 |it.1|) := by
      simpa [slots, List.map_flatMap] using h
    have := (mem_combine_pm (fun it => [it.1, -it.1]) (items ++ [((0 : ℝ), m)])
      (fun it _ x => mem_pm_iff x it.1) row).2 h'
    obtain ⟨blocks, h1, h2⟩ := (mem_combine_iff _ _).1 this
    refine ⟨blocks, ?_, h2⟩
    have e : List.Forall₂ (fun (a b : List ℝ × ℕ) => a.2 = b.2 ∧ ∀ x ∈ a.1, x ∈ b.1)
          ((items ++ [((0 : ℝ), m)]).map fun it => ([it.1, -it.1], it.2))
          ((items.map fun it => ([it.1, -it.1], it.2)) ++ [([(0 : ℝ)], m)]) := by
        rw [List.map_append]
        refine List.rel_append (List.forall₂_same.2 fun e _ => by simp) ?_
        simp
    have := forall₂_comp3 (u := fun b (e : List ℝ × ℕ) => b.length = e.2 ∧ ∀ x ∈ b, x ∈ e.1)
        (fun _ _ _ => ?_) h1 e
    · exact this
    · rintro ⟨h3, h4⟩ ⟨h5, h6⟩
      exact ⟨h3.trans h5, fun x hx => h6 x (h4 x hx)⟩

/-- C01 (fsd), errors: the assertion fails exactly when the counts exceed n. -/
theorem C01_fsd_none (n : ℕ) (items : List (ℝ × ℕ)) :
    fsd n items = none ↔ n < (items.map Prod.snd).sum := by
  unfold fsd
  split_ifs with hc <;> simp <;> omega

/-- C01 (fsd): number of rows, n!/(c1! c2! ... (n - sum c)!) * 2^(sum c). -/
theorem C01_fsd_length {n : ℕ} {items : List (ℝ × ℕ)} {L : List (List ℝ)}
    (h : fsd n items = some L) :
    (items.map fun it => Nat.factorial it.2).prod * Nat.factorial (n - (items.map Prod.snd).sum) *
      L.length = Nat.factorial n * 2 ^ (items.map Prod.snd).sum := by
  obtain ⟨hs, rfl⟩ := fsd_eq_some h
  have := length_combine ((items.map fun it => ([it.1, -it.1], it.2)) ++
      [([(0 : ℝ)], n - (items.map Prod.snd).sum)])
  simp only [List.map_append, List.map_map, List.map_cons, List.map_nil, List.prod_append,
    List.prod_singleton, List.sum_append, List.sum_singleton, Function.comp_def,
    one_pow, mul_one, List.length_cons, List.length_nil, zero_add] at this
  rw [this]
  have h2 : (List.map (fun x : ℝ × ℕ => x.2) items).sum = (items.map Prod.snd).sum := rfl
  congr 1
  · congr 1; omega
  · have : (fun x : ℝ × ℕ => (1 + 1) ^ x.2) = (fun m => 2 ^ m) ∘ Prod.snd := rfl
    rw [this, ← List.map_map]
    generalize items.map Prod.snd = s
    induction s with
    | nil => rfl
    | cons a s ih => rw [List.map_cons, List.prod_cons, ih, List.sum_cons, pow_add]

/-- C01 (fsd): if the values are nonzero with distinct absolute values, no row is returned twice. -/
theorem C01_fsd_nodup {n : ℕ} {items : List (ℝ × ℕ)} {L : List (List ℝ)}
    (h : fsd n items = some L) (h0 : ∀ it ∈ items, it.1 ≠ 0)
    (hd : items.Pairwise fun a b => |a.1| ≠ |b.1|) : L.Nodup := by
  obtain ⟨_, rfl⟩ := fsd_eq_some h
  apply nodup_combine
  · intro e he
    simp only [List.mem_append, List.mem_map, List.mem_singleton] at he
    rcases he with ⟨it, hit, rfl⟩ | rfl
    · have := h0 it hit
      simp only [List.nodup_cons, List.mem_singleton, List.not_mem_nil, not_false_eq_true,
        List.nodup_nil, and_self, and_true]
      intro h; apply this; linarith
    · simp
  · rw [List.pairwise_append]
    refine ⟨?_, by simp, ?_⟩
    · rw [List.pairwise_map]
      refine hd.imp fun {a b} hab x hx hy => hab ?_
      rw [← (mem_pm_iff _ _).1 hx, ← (mem_pm_iff _ _).1 hy]
    · intro a ha b hb x hx hy
      simp only [List.mem_map, List.mem_singleton] at ha hb
      obtain ⟨it, hit, rfl⟩ := ha
      subst hb
      have h1 := (mem_pm_iff _ _).1 hx
      simp only [List.mem_singleton] at hy
      subst hy
      exact h0 it hit (abs_eq_zero.1 (by rw [← h1]; simp))

/-- C01 (fs_array), membership. -/
theorem C01_fsArray_mem (v row : List ℝ) :
    row ∈ fsArray v ↔ (row.map abs).Perm (v.map abs) := by
  unfold fsArray
  have := mem_combine_pm (fun it => [it.1, -it.1]) (v.map fun x => (x, 1))
    (fun it _ x => mem_pm_iff x it.1) row
  rw [List.map_map] at this
  have e : ((fun it : ℝ × ℕ => ([it.1, -it.1], it.2)) ∘ fun x => (x, 1)) =
    fun vi : ℝ => ([vi, -vi], 1) := rfl
  rw [e] at this
  rw [this, List.flatMap_map]
  rw [show (List.flatMap (fun a => List.replicate 1 |a|) v) = v.map abs from
    List.flatMap_pure_eq_map _ _]

/-- C01 (fs_array): n! 2^n rows (with repetition if values coincide or vanish). -/
theorem C01_fsArray_length (v : List ℝ) :
    (fsArray v).length = Nat.factorial v.length * 2 ^ v.length := by
  unfold fsArray
  have := length_combine (v.map fun vi : ℝ => ([vi, -vi], 1))
  simpa [Function.comp_def] using this

/-! Non-vacuity: a concrete call with two radii in dimension 4. -/
example : ∃ L, fsd 4 [(1, 2), (2, 1)] = some L ∧ L.length = 96 ∧ L.Nodup ∧ [0, -1, 2, 1] ∈ L := by
  have h : fsd 4 [(1, 2), (2, 1)] = some _ := if_pos (by decide)
  refine ⟨_, h, ?_, C01_fsd_nodup h (by simp) (by simp), ?_⟩
  · have := C01_fsd_length h
    simp [Nat.factorial] at this
    simp; omega
  · rw [C01_fsd_mem h]
    have := (by decide : ([0, 1, 2, 1] : List ℕ).Perm [1, 1, 2, 0]).map (fun k : ℕ => (k : ℝ))
    simpa [slots] using this

end Quadpy
