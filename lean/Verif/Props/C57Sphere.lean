import Verif.Lemmas.PlainRules
import Verif.Props.C57

/-!
# C57: McLaren's rule of degree 14 on the sphere
-/

namespace Quadpy
open ProductRules Dec

theorem near_flip {D : ℕ} {x e : ℝ} {z z' : ℤ} (h : |x - rz D z| ≤ e) (hz : z' = -z) :
    |-x - rz D z'| ≤ e := by
  rw [hz, ← abs_neg]
  have h2 : -(-x - rz D (-z)) = x - rz D z := by simp only [rz]; push_cast; ring
  rwa [h2]

theorem quarter {y : ℝ} (hy : 0 ≤ y) : √y / 2 / √((5 + √5) / 10) = √(y * (5 - √5) / 8) := by
  have h5 : √5 ^ 2 = (5 : ℝ) := Real.sq_sqrt (by norm_num)
  have h0 := Real.sqrt_nonneg (5 : ℝ)
  have h1 : √(5 : ℝ) ≤ 3 := by nlinarith
  rw [div_div, ← Real.sqrt_sq (show (0 : ℝ) ≤ 2 by norm_num), ← Real.sqrt_mul (by norm_num),
    ← Real.sqrt_div hy]
  congr 1
  rw [div_eq_div_iff (by positivity) (by norm_num)]
  linear_combination (y * (2 : ℝ) ^ 2 / 10) * h5

theorem pmRoll_three {r s : ℝ} (hr : r ≠ 0) (hs : s ≠ 0) : pmRoll [r, s, 0] =
    [[r, s, 0], [r, -s, 0], [-r, s, 0], [-r, -s, 0], [0, r, s], [0, r, -s], [0, -r, s], [0, -r, -s],
      [s, 0, r], [-s, 0, r], [s, 0, -r], [-s, 0, -r]] := by
  simp [pmRoll, pm, iterProduct, roll, hr, hs, List.range_succ]

/-- The points in terms of sums and differences of six numbers. -/
theorem mc_uvw_eq {q0 q1 q2 q3 q4 q5 : ℝ} (h0 : mc_z0 / 2 / mc_s = q0) (h1 : mc_z1 / 2 / mc_s = q1)
    (h2 : mc_z2 / 2 / mc_s = q2) (h3 : mc_z3 / 2 / mc_s = q3) (h4 : mc_z4 / 2 / mc_s = q4)
    (h5 : mc_z5 / 2 / mc_s = q5) : mc_uvw = [(q3 - q2, q4 + q5, q0 + q1), (q1 - q4, q5 + q3, q0 + q2),
      (q5 - q1, q2 + q4, q0 + q3), (q2 - q5, q3 + q1, q0 + q4), (q4 - q3, q1 + q2, q0 + q5)] := by
  simp only [mc_uvw, sub_div, add_div, h0, h1, h2, h3, h4, h5]

theorem sqrt5_near : -1e-50 ≤ √5 - 2.23606797749978969640917366873127623544061835961153 ∧
    √5 - 2.23606797749978969640917366873127623544061835961153 ≤ 1e-50 := by near_sqrt

set_option maxHeartbeats 4000000 in
/-- C57, McLaren 10 on the sphere. -/
theorem C57_u3_mclaren_10 : mclaren_10.ApproxRel 3 (Spec.sphere 3) 1e-40 := by
  obtain ⟨lf, uf⟩ := sqrt5_near
  obtain ⟨lr, ur⟩ : -1e-47 ≤ mc_r - 0.52573111211913360602566908484787660728549793224 ∧
      mc_r - 0.52573111211913360602566908484787660728549793224 ≤ 1e-47 := by
    unfold mc_r
    near_sqrt
  obtain ⟨ls, us⟩ : -1e-47 ≤ mc_s - 0.85065080835203993218154049706301107224040140376 ∧
      mc_s - 0.85065080835203993218154049706301107224040140376 ≤ 1e-47 := by
    unfold mc_s
    near_sqrt
  obtain ⟨l0, u0⟩ : -1e-47 ≤ mc_z0 / 2 / mc_s - 0.53609764506650979546739562457713892446989457881 ∧
      mc_z0 / 2 / mc_s - 0.53609764506650979546739562457713892446989457881 ≤ 1e-47 := by
    rw [mc_z0, mc_s, quarter (by norm_num)]
    near_sqrt
  obtain ⟨l1, u1⟩ : -1e-47 ≤ mc_z1 / 2 / mc_s - 0.44015367781693667429871552497918127256121916469 ∧
      mc_z1 / 2 / mc_s - 0.44015367781693667429871552497918127256121916469 ≤ 1e-47 := by
    rw [mc_z1, mc_s, quarter (by norm_num)]
    near_sqrt
  obtain ⟨l2, u2⟩ : -1e-47 ≤ mc_z2 / 2 / mc_s - 0.37723238688428974700069669514476210262395892226 ∧
      mc_z2 / 2 / mc_s - 0.37723238688428974700069669514476210262395892226 ≤ 1e-47 := by
    rw [mc_z2, mc_s, quarter (by norm_num)]
    near_sqrt
  obtain ⟨l3, u3⟩ : -1e-47 ≤ mc_z3 / 2 / mc_s - 0.22612411221972817147658358572218017577880475347 ∧
      mc_z3 / 2 / mc_s - 0.22612411221972817147658358572218017577880475347 ≤ 1e-47 := by
    rw [mc_z3, mc_s, quarter (by norm_num)]
    near_sqrt
  obtain ⟨l4, u4⟩ : -1e-47 ≤ mc_z4 / 2 / mc_s - 0.12431532487468487239185020047617710100481763904 ∧
      mc_z4 / 2 / mc_s - 0.12431532487468487239185020047617710100481763904 ≤ 1e-47 := by
    rw [mc_z4, mc_s, quarter (by norm_num)]
    near_sqrt
  obtain ⟨l5, u5⟩ : -1e-47 ≤ mc_z5 / 2 / mc_s - 0.03092527515063120290708096807228708511988690493 ∧
      mc_z5 / 2 / mc_s - 0.03092527515063120290708096807228708511988690493 ≤ 1e-47 := by
    rw [mc_z5, mc_s, quarter (by norm_num)]
    near_sqrt
  refine near_of_check (ratMom_sphere (by norm_num)) (Dw := 10080)
    (D := 12000000000000000000000000000000000000000000) (T := 10 ^ 41)
    (B := 11715015874601357637193333794675842364373365) (N := 72)
    (W := 10080)
    (ew := 0) (e := 1e-42) (M := 1)
    (Z := [⟨.plain, [125, 125, 125, 125, 125, 125, 125, 125, 125, 125, 125, 125, 143, 143, 143, 143, 143,
      143, 143, 143, 143, 143, 143, 143, 143, 143, 143, 143, 143, 143, 143, 143, 143, 143, 143, 143, 143,
      143, 143, 143, 143, 143, 143, 143, 143, 143, 143, 143, 143, 143, 143, 143, 143, 143, 143, 143, 143,
      143, 143, 143, 143, 143, 143, 143, 143, 143, 143, 143, 143, 143, 143, 143],
      [[6308773345429603272308029018174519287425975, 10207809700224479186178485964756132866884817, 0],
      [6308773345429603272308029018174519287425975, -10207809700224479186178485964756132866884817, 0],
      [-6308773345429603272308029018174519287425975, 10207809700224479186178485964756132866884817, 0],
      [-6308773345429603272308029018174519287425975, -10207809700224479186178485964756132866884817, 0],
      [0, 6308773345429603272308029018174519287425975, 10207809700224479186178485964756132866884817], [0,
      6308773345429603272308029018174519287425975, -10207809700224479186178485964756132866884817], [0,
      -6308773345429603272308029018174519287425975, 10207809700224479186178485964756132866884817], [0,
      -6308773345429603272308029018174519287425975, -10207809700224479186178485964756132866884817],
      [10207809700224479186178485964756132866884817, 0, 6308773345429603272308029018174519287425975],
      [-10207809700224479186178485964756132866884817, 0, 6308773345429603272308029018174519287425975],
      [10207809700224479186178485964756132866884817, 0, -6308773345429603272308029018174519287425975],
      [-10207809700224479186178485964756132866884817, 0, -6308773345429603272308029018174519287425975],
      [-1813299295974738906289357313070983122141850, 1862887200303792903587174022581570233496455,
      11715015874601357637193333794675842364373365], [3790060235307021622882383894036050058676818,
      3084592648444312492603974645533607130784300, 10959960383409594509617107836662812325126242],
      [-4910740831995665656699614682882730249295987, 6018572541107695432710562747451270443545319,
      9146661087434855603327750523591829202984392], [4155685340803902529123388724869700210048864,
      7995333480439978149303589328416337380080287, 7924955639294336014310949900639792305696547],
      [-1221705448140519589016800622952036897287845, 9808632776414717055592946641487320502222137,
      6804275042605691980493719111793112115077378], [-1813299295974738906289357313070983122141850,
      -1862887200303792903587174022581570233496455, -11715015874601357637193333794675842364373365],
      [3790060235307021622882383894036050058676818, -3084592648444312492603974645533607130784300,
      -10959960383409594509617107836662812325126242], [-4910740831995665656699614682882730249295987,
      -6018572541107695432710562747451270443545319, -9146661087434855603327750523591829202984392],
      [4155685340803902529123388724869700210048864, -7995333480439978149303589328416337380080287,
      -7924955639294336014310949900639792305696547], [-1221705448140519589016800622952036897287845,
      -9808632776414717055592946641487320502222137, -6804275042605691980493719111793112115077378],
      [1813299295974738906289357313070983122141850, -1862887200303792903587174022581570233496455,
      11715015874601357637193333794675842364373365], [-3790060235307021622882383894036050058676818,
      -3084592648444312492603974645533607130784300, 10959960383409594509617107836662812325126242],
      [4910740831995665656699614682882730249295987, -6018572541107695432710562747451270443545319,
      9146661087434855603327750523591829202984392], [-4155685340803902529123388724869700210048864,
      -7995333480439978149303589328416337380080287, 7924955639294336014310949900639792305696547],
      [1221705448140519589016800622952036897287845, -9808632776414717055592946641487320502222137,
      6804275042605691980493719111793112115077378], [1813299295974738906289357313070983122141850,
      1862887200303792903587174022581570233496455, -11715015874601357637193333794675842364373365],
      [-3790060235307021622882383894036050058676818, 3084592648444312492603974645533607130784300,
      -10959960383409594509617107836662812325126242], [4910740831995665656699614682882730249295987,
      6018572541107695432710562747451270443545319, -9146661087434855603327750523591829202984392],
      [-4155685340803902529123388724869700210048864, 7995333480439978149303589328416337380080287,
      -7924955639294336014310949900639792305696547], [1221705448140519589016800622952036897287845,
      9808632776414717055592946641487320502222137, -6804275042605691980493719111793112115077378],
      [1862887200303792903587174022581570233496455, 11715015874601357637193333794675842364373365,
      -1813299295974738906289357313070983122141850], [3084592648444312492603974645533607130784300,
      10959960383409594509617107836662812325126242, 3790060235307021622882383894036050058676818],
      [6018572541107695432710562747451270443545319, 9146661087434855603327750523591829202984392,
      -4910740831995665656699614682882730249295987], [7995333480439978149303589328416337380080287,
      7924955639294336014310949900639792305696547, 4155685340803902529123388724869700210048864],
      [9808632776414717055592946641487320502222137, 6804275042605691980493719111793112115077378,
      -1221705448140519589016800622952036897287845], [1862887200303792903587174022581570233496455,
      -11715015874601357637193333794675842364373365, 1813299295974738906289357313070983122141850],
      [3084592648444312492603974645533607130784300, -10959960383409594509617107836662812325126242,
      -3790060235307021622882383894036050058676818], [6018572541107695432710562747451270443545319,
      -9146661087434855603327750523591829202984392, 4910740831995665656699614682882730249295987],
      [7995333480439978149303589328416337380080287, -7924955639294336014310949900639792305696547,
      -4155685340803902529123388724869700210048864], [9808632776414717055592946641487320502222137,
      -6804275042605691980493719111793112115077378, 1221705448140519589016800622952036897287845],
      [-1862887200303792903587174022581570233496455, -11715015874601357637193333794675842364373365,
      -1813299295974738906289357313070983122141850], [-3084592648444312492603974645533607130784300,
      -10959960383409594509617107836662812325126242, 3790060235307021622882383894036050058676818],
      [-6018572541107695432710562747451270443545319, -9146661087434855603327750523591829202984392,
      -4910740831995665656699614682882730249295987], [-7995333480439978149303589328416337380080287,
      -7924955639294336014310949900639792305696547, 4155685340803902529123388724869700210048864],
      [-9808632776414717055592946641487320502222137, -6804275042605691980493719111793112115077378,
      -1221705448140519589016800622952036897287845], [-1862887200303792903587174022581570233496455,
      11715015874601357637193333794675842364373365, 1813299295974738906289357313070983122141850],
      [-3084592648444312492603974645533607130784300, 10959960383409594509617107836662812325126242,
      -3790060235307021622882383894036050058676818], [-6018572541107695432710562747451270443545319,
      9146661087434855603327750523591829202984392, 4910740831995665656699614682882730249295987],
      [-7995333480439978149303589328416337380080287, 7924955639294336014310949900639792305696547,
      -4155685340803902529123388724869700210048864], [-9808632776414717055592946641487320502222137,
      6804275042605691980493719111793112115077378, 1221705448140519589016800622952036897287845],
      [11715015874601357637193333794675842364373365, -1813299295974738906289357313070983122141850,
      1862887200303792903587174022581570233496455], [10959960383409594509617107836662812325126242,
      3790060235307021622882383894036050058676818, 3084592648444312492603974645533607130784300],
      [9146661087434855603327750523591829202984392, -4910740831995665656699614682882730249295987,
      6018572541107695432710562747451270443545319], [7924955639294336014310949900639792305696547,
      4155685340803902529123388724869700210048864, 7995333480439978149303589328416337380080287],
      [6804275042605691980493719111793112115077378, -1221705448140519589016800622952036897287845,
      9808632776414717055592946641487320502222137], [11715015874601357637193333794675842364373365,
      1813299295974738906289357313070983122141850, -1862887200303792903587174022581570233496455],
      [10959960383409594509617107836662812325126242, -3790060235307021622882383894036050058676818,
      -3084592648444312492603974645533607130784300], [9146661087434855603327750523591829202984392,
      4910740831995665656699614682882730249295987, -6018572541107695432710562747451270443545319],
      [7924955639294336014310949900639792305696547, -4155685340803902529123388724869700210048864,
      -7995333480439978149303589328416337380080287], [6804275042605691980493719111793112115077378,
      1221705448140519589016800622952036897287845, -9808632776414717055592946641487320502222137],
      [-11715015874601357637193333794675842364373365, 1813299295974738906289357313070983122141850,
      1862887200303792903587174022581570233496455], [-10959960383409594509617107836662812325126242,
      -3790060235307021622882383894036050058676818, 3084592648444312492603974645533607130784300],
      [-9146661087434855603327750523591829202984392, 4910740831995665656699614682882730249295987,
      6018572541107695432710562747451270443545319], [-7924955639294336014310949900639792305696547,
      -4155685340803902529123388724869700210048864, 7995333480439978149303589328416337380080287],
      [-6804275042605691980493719111793112115077378, 1221705448140519589016800622952036897287845,
      9808632776414717055592946641487320502222137], [-11715015874601357637193333794675842364373365,
      -1813299295974738906289357313070983122141850, -1862887200303792903587174022581570233496455],
      [-10959960383409594509617107836662812325126242, 3790060235307021622882383894036050058676818,
      -3084592648444312492603974645533607130784300], [-9146661087434855603327750523591829202984392,
      -4910740831995665656699614682882730249295987, -6018572541107695432710562747451270443545319],
      [-7924955639294336014310949900639792305696547, 4155685340803902529123388724869700210048864,
      -7995333480439978149303589328416337380080287], [-6804275042605691980493719111793112115077378,
      -1221705448140519589016800622952036897287845, -9808632776414717055592946641487320502222137]]⟩])
    ?_ (by norm_num) (by norm_num) (by norm_num) (by norm_num) (by norm_num) (by decide +kernel)
  have hr : mc_r ≠ 0 := by
    intro h
    rw [h] at lr
    norm_num at lr
  have hs : mc_s ≠ 0 := by
    intro h
    rw [h] at ls
    norm_num at ls
  simp only [mc_data, plainOf, pmRoll_three hr hs, mc_uvw_eq rfl rfl rfl rfl rfl rfl, List.map_cons, List.map_nil,
    List.flatMap_cons, List.flatMap_nil, List.cons_append, List.nil_append, List.append_nil]
  generalize mc_z0 / 2 / mc_s = q0 at *
  generalize mc_z1 / 2 / mc_s = q1 at *
  generalize mc_z2 / 2 / mc_s = q2 at *
  generalize mc_z3 / 2 / mc_s = q3 at *
  generalize mc_z4 / 2 / mc_s = q4 at *
  generalize mc_z5 / 2 / mc_s = q5 at *
  generalize mc_r = r at *
  generalize mc_s = s at *
  have p0 : |r - rz 12000000000000000000000000000000000000000000 (6308773345429603272308029018174519287425975)| ≤ 1e-42 := by
    rw [abs_le, rz]
    push_cast
    constructor <;> linarith only [lr, ur]
  have n0 : |-r - rz 12000000000000000000000000000000000000000000 (-6308773345429603272308029018174519287425975)| ≤ 1e-42 :=
    near_flip p0 (by norm_num)
  have p1 : |s - rz 12000000000000000000000000000000000000000000 (10207809700224479186178485964756132866884817)| ≤ 1e-42 := by
    rw [abs_le, rz]
    push_cast
    constructor <;> linarith only [ls, us]
  have n1 : |-s - rz 12000000000000000000000000000000000000000000 (-10207809700224479186178485964756132866884817)| ≤ 1e-42 :=
    near_flip p1 (by norm_num)
  have p2 : |q3 - q2 - rz 12000000000000000000000000000000000000000000 (-1813299295974738906289357313070983122141850)| ≤ 1e-42 := by
    rw [abs_le, rz]
    push_cast
    constructor <;> linarith only [l3, u3, l2, u2]
  have n2 : |-(q3 - q2) - rz 12000000000000000000000000000000000000000000 (1813299295974738906289357313070983122141850)| ≤ 1e-42 :=
    near_flip p2 (by norm_num)
  have p3 : |q1 - q4 - rz 12000000000000000000000000000000000000000000 (3790060235307021622882383894036050058676818)| ≤ 1e-42 := by
    rw [abs_le, rz]
    push_cast
    constructor <;> linarith only [l1, u1, l4, u4]
  have n3 : |-(q1 - q4) - rz 12000000000000000000000000000000000000000000 (-3790060235307021622882383894036050058676818)| ≤ 1e-42 :=
    near_flip p3 (by norm_num)
  have p4 : |q5 - q1 - rz 12000000000000000000000000000000000000000000 (-4910740831995665656699614682882730249295987)| ≤ 1e-42 := by
    rw [abs_le, rz]
    push_cast
    constructor <;> linarith only [l5, u5, l1, u1]
  have n4 : |-(q5 - q1) - rz 12000000000000000000000000000000000000000000 (4910740831995665656699614682882730249295987)| ≤ 1e-42 :=
    near_flip p4 (by norm_num)
  have p5 : |q2 - q5 - rz 12000000000000000000000000000000000000000000 (4155685340803902529123388724869700210048864)| ≤ 1e-42 := by
    rw [abs_le, rz]
    push_cast
    constructor <;> linarith only [l2, u2, l5, u5]
  have n5 : |-(q2 - q5) - rz 12000000000000000000000000000000000000000000 (-4155685340803902529123388724869700210048864)| ≤ 1e-42 :=
    near_flip p5 (by norm_num)
  have p6 : |q4 - q3 - rz 12000000000000000000000000000000000000000000 (-1221705448140519589016800622952036897287845)| ≤ 1e-42 := by
    rw [abs_le, rz]
    push_cast
    constructor <;> linarith only [l4, u4, l3, u3]
  have n6 : |-(q4 - q3) - rz 12000000000000000000000000000000000000000000 (1221705448140519589016800622952036897287845)| ≤ 1e-42 :=
    near_flip p6 (by norm_num)
  have p7 : |q4 + q5 - rz 12000000000000000000000000000000000000000000 (1862887200303792903587174022581570233496455)| ≤ 1e-42 := by
    rw [abs_le, rz]
    push_cast
    constructor <;> linarith only [l4, u4, l5, u5]
  have n7 : |-(q4 + q5) - rz 12000000000000000000000000000000000000000000 (-1862887200303792903587174022581570233496455)| ≤ 1e-42 :=
    near_flip p7 (by norm_num)
  have p8 : |q5 + q3 - rz 12000000000000000000000000000000000000000000 (3084592648444312492603974645533607130784300)| ≤ 1e-42 := by
    rw [abs_le, rz]
    push_cast
    constructor <;> linarith only [l5, u5, l3, u3]
  have n8 : |-(q5 + q3) - rz 12000000000000000000000000000000000000000000 (-3084592648444312492603974645533607130784300)| ≤ 1e-42 :=
    near_flip p8 (by norm_num)
  have p9 : |q2 + q4 - rz 12000000000000000000000000000000000000000000 (6018572541107695432710562747451270443545319)| ≤ 1e-42 := by
    rw [abs_le, rz]
    push_cast
    constructor <;> linarith only [l2, u2, l4, u4]
  have n9 : |-(q2 + q4) - rz 12000000000000000000000000000000000000000000 (-6018572541107695432710562747451270443545319)| ≤ 1e-42 :=
    near_flip p9 (by norm_num)
  have p10 : |q3 + q1 - rz 12000000000000000000000000000000000000000000 (7995333480439978149303589328416337380080287)| ≤ 1e-42 := by
    rw [abs_le, rz]
    push_cast
    constructor <;> linarith only [l3, u3, l1, u1]
  have n10 : |-(q3 + q1) - rz 12000000000000000000000000000000000000000000 (-7995333480439978149303589328416337380080287)| ≤ 1e-42 :=
    near_flip p10 (by norm_num)
  have p11 : |q1 + q2 - rz 12000000000000000000000000000000000000000000 (9808632776414717055592946641487320502222137)| ≤ 1e-42 := by
    rw [abs_le, rz]
    push_cast
    constructor <;> linarith only [l1, u1, l2, u2]
  have n11 : |-(q1 + q2) - rz 12000000000000000000000000000000000000000000 (-9808632776414717055592946641487320502222137)| ≤ 1e-42 :=
    near_flip p11 (by norm_num)
  have p12 : |q0 + q1 - rz 12000000000000000000000000000000000000000000 (11715015874601357637193333794675842364373365)| ≤ 1e-42 := by
    rw [abs_le, rz]
    push_cast
    constructor <;> linarith only [l0, u0, l1, u1]
  have n12 : |-(q0 + q1) - rz 12000000000000000000000000000000000000000000 (-11715015874601357637193333794675842364373365)| ≤ 1e-42 :=
    near_flip p12 (by norm_num)
  have p13 : |q0 + q2 - rz 12000000000000000000000000000000000000000000 (10959960383409594509617107836662812325126242)| ≤ 1e-42 := by
    rw [abs_le, rz]
    push_cast
    constructor <;> linarith only [l0, u0, l2, u2]
  have n13 : |-(q0 + q2) - rz 12000000000000000000000000000000000000000000 (-10959960383409594509617107836662812325126242)| ≤ 1e-42 :=
    near_flip p13 (by norm_num)
  have p14 : |q0 + q3 - rz 12000000000000000000000000000000000000000000 (9146661087434855603327750523591829202984392)| ≤ 1e-42 := by
    rw [abs_le, rz]
    push_cast
    constructor <;> linarith only [l0, u0, l3, u3]
  have n14 : |-(q0 + q3) - rz 12000000000000000000000000000000000000000000 (-9146661087434855603327750523591829202984392)| ≤ 1e-42 :=
    near_flip p14 (by norm_num)
  have p15 : |q0 + q4 - rz 12000000000000000000000000000000000000000000 (7924955639294336014310949900639792305696547)| ≤ 1e-42 := by
    rw [abs_le, rz]
    push_cast
    constructor <;> linarith only [l0, u0, l4, u4]
  have n15 : |-(q0 + q4) - rz 12000000000000000000000000000000000000000000 (-7924955639294336014310949900639792305696547)| ≤ 1e-42 :=
    near_flip p15 (by norm_num)
  have p16 : |q0 + q5 - rz 12000000000000000000000000000000000000000000 (6804275042605691980493719111793112115077378)| ≤ 1e-42 := by
    rw [abs_le, rz]
    push_cast
    constructor <;> linarith only [l0, u0, l5, u5]
  have n16 : |-(q0 + q5) - rz 12000000000000000000000000000000000000000000 (-6804275042605691980493719111793112115077378)| ≤ 1e-42 :=
    near_flip p16 (by norm_num)
  have pz : |(0 : ℝ) - rz 12000000000000000000000000000000000000000000 0| ≤ 1e-42 := by norm_num [rz]
  have w1 : |(125 / 10080 : ℝ) - rz 10080 125| ≤ 0 := by norm_num [rz]
  have w2 : |(143 / 10080 : ℝ) - rz 10080 143| ≤ 0 := by norm_num [rz]
  simp only [List.forall₂_cons, List.forall₂_nil_left_iff, NearE, NearL, and_true, true_and, w1, w2, pz,
    p0, n0, p1, n1, p2, n2, p3, n3, p4, n4, p5, n5, p6, n6, p7, n7, p8, n8, p9, n9, p10, n10, p11, n11,
    p12, n12, p13, n13, p14, n14, p15, n15, p16, n16]

end Quadpy
