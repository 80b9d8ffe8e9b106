import Verif.Lemmas.Spline
import Verif.Lemmas.Project
import Verif.Props.Response2
import Mathlib.Analysis.Calculus.Deriv.Pow
import Mathlib.Analysis.Calculus.Deriv.Mul

/-!
# C159: the interpolation of curves and spectra is the not-a-knot cubic spline
-/

namespace KC
open Spec

/-! ### specification -/

/-- a cubic polynomial -/
structure Cub where
  c0 : ℝ
  c1 : ℝ
  c2 : ℝ
  c3 : ℝ

namespace Cub
/-- value -/
def val (p : Cub) (q : ℝ) : ℝ := p.c0 + p.c1 * q + p.c2 * q ^ 2 + p.c3 * q ^ 3
/-- first derivative -/
def slope (p : Cub) (q : ℝ) : ℝ := p.c1 + 2 * p.c2 * q + 3 * p.c3 * q ^ 2
/-- second derivative -/
def curv (p : Cub) (q : ℝ) : ℝ := 2 * p.c2 + 6 * p.c3 * q
end Cub

/-- `f` is a not-a-knot cubic spline through the points `(x, y)`: a cubic on each interval between neighbouring knots, with the same value and the same
first and second derivative on both sides of each knot, and the same cubic on the first two and on the last two intervals. -/
def NotAKnot (x y : List ℝ) (f : ℝ → ℝ) : Prop :=
  ∃ p : Nat → Cub,
    (∀ i, i + 1 < x.length → ∀ q, ent x i ≤ q → q ≤ ent x (i + 1) → f q = (p i).val q) ∧
    (∀ i, i < x.length → f (ent x i) = ent y i) ∧
    (∀ i, i + 2 < x.length → (p i).slope (ent x (i + 1)) = (p (i + 1)).slope (ent x (i + 1)) ∧ (p i).curv (ent x (i + 1)) = (p (i + 1)).curv (ent x (i + 1))) ∧
    p 0 = p 1 ∧ ∀ k, k + 3 = x.length → p k = p (k + 1)

/-! ### pieces -/

/-- coefficients of the cubic with values `y0`, `y1` and second derivatives `m0`, `m1` at `x0`, `x1` -/
noncomputable def cubOf (x0 x1 y0 y1 m0 m1 : ℝ) : Cub :=
  let h := x1 - x0
  let a := y0 / h - m0 * h / 6
  let b := y1 / h - m1 * h / 6
  ⟨(m0 * x1 ^ 3 - m1 * x0 ^ 3) / (6 * h) + a * x1 - b * x0, (m1 * x0 ^ 2 - m0 * x1 ^ 2) / (2 * h) - a + b, (m0 * x1 - m1 * x0) / (2 * h), (m1 - m0) / (6 * h)⟩

theorem nakPiece_cub (x y : List ℝ) (i : Nat) (q : ℝ) :
    nakPiece x y i q = (cubOf (ent x i) (ent x (i + 1)) (ent y i) (ent y (i + 1)) (nakMoment x y i) (nakMoment x y (i + 1))).val q := by
  simp only [nakPiece, cubOf, Cub.val, gapAt, real_lit, Rat.cast_ofNat]
  by_cases h : ent x (i + 1) - ent x i = 0
  · simp [h]
  · field_simp
    ring

section
variable {x0 x1 y0 y1 m0 m1 : ℝ} (h : x0 < x1)
include h

theorem cubOf_left : (cubOf x0 x1 y0 y1 m0 m1).val x0 = y0 := by
  have : x1 - x0 ≠ 0 := by linarith
  simp only [cubOf, Cub.val]
  field_simp
  ring

theorem cubOf_right : (cubOf x0 x1 y0 y1 m0 m1).val x1 = y1 := by
  have : x1 - x0 ≠ 0 := by linarith
  simp only [cubOf, Cub.val]
  field_simp
  ring

theorem cubOf_curv_left : (cubOf x0 x1 y0 y1 m0 m1).curv x0 = m0 := by
  have : x1 - x0 ≠ 0 := by linarith
  simp only [cubOf, Cub.curv]
  field_simp
  ring

theorem cubOf_curv_right : (cubOf x0 x1 y0 y1 m0 m1).curv x1 = m1 := by
  have : x1 - x0 ≠ 0 := by linarith
  simp only [cubOf, Cub.curv]
  field_simp
  ring

theorem cubOf_slope_left : (cubOf x0 x1 y0 y1 m0 m1).slope x0 = (y1 - y0) / (x1 - x0) - (x1 - x0) * (2 * m0 + m1) / 6 := by
  have : x1 - x0 ≠ 0 := by linarith
  simp only [cubOf, Cub.slope]
  field_simp
  ring

theorem cubOf_slope_right : (cubOf x0 x1 y0 y1 m0 m1).slope x1 = (y1 - y0) / (x1 - x0) + (x1 - x0) * (m0 + 2 * m1) / 6 := by
  have : x1 - x0 ≠ 0 := by linarith
  simp only [cubOf, Cub.slope]
  field_simp
  ring

/-- a cubic is given by its values and second derivatives at two points -/
theorem cubOf_only (p : Cub) : p = cubOf x0 x1 (p.val x0) (p.val x1) (p.curv x0) (p.curv x1) := by
  have : x1 - x0 ≠ 0 := by linarith
  obtain ⟨a, b, c, d⟩ := p
  simp only [cubOf, Cub.val, Cub.curv, Cub.mk.injEq]
  refine ⟨?_, ?_, ?_, ?_⟩ <;> field_simp <;> ring

end

/-- two cubics with the same value, slope, curvature at a point and the same third derivative -/
theorem Cub.ext_at {p r : Cub} (t : ℝ) (h0 : p.val t = r.val t) (h1 : p.slope t = r.slope t) (h2 : p.curv t = r.curv t) (h3 : p.c3 = r.c3) : p = r := by
  obtain ⟨a, b, c, d⟩ := p
  obtain ⟨a', b', c', d'⟩ := r
  simp only [Cub.val, Cub.slope, Cub.curv] at h0 h1 h2 h3
  subst h3
  have e2 : c = c' := by linarith
  subst e2
  have e1 : b = b' := by linarith
  subst e1
  have e0 : a = a' := by linarith
  subst e0
  rfl

/-! ### intervals -/

theorem filter_range_lt (m i : Nat) (hi : i ≤ m) : ((List.range m).filter (fun k => decide (k < i))).length = i := by
  induction m generalizing i with
  | zero => simp; omega
  | succ m ih =>
    rw [List.range_succ, List.filter_append, List.length_append]
    by_cases h : i ≤ m
    · rw [ih i h]
      simp [show ¬ m < i by omega]
    · have e : i = m + 1 := by omega
      subst e
      have : (List.range m).filter (fun k => decide (k < m + 1)) = List.range m := by
        rw [List.filter_eq_self]
        intro k hk
        have := List.mem_range.mp hk
        simp
        omega
      rw [this]
      simp

theorem nakSeg_eq {x : List ℝ} (i : Nat) (q : ℝ) (hi : i + 2 ≤ x.length) (h : ∀ k, k + 2 < x.length → (ent x (k + 1) ≤ q ↔ k < i)) : nakSeg x q = i := by
  unfold nakSeg
  have : (List.range (x.length - 2)).filter (fun k => leb (ent x (k + 1)) q) = (List.range (x.length - 2)).filter (fun k => decide (k < i)) := by
    apply List.filter_congr
    intro k hk
    have hk := List.mem_range.mp hk
    rw [real_leb, decide_eq_decide]
    exact h k (by omega)
  rw [this, filter_range_lt _ _ (by omega)]

theorem ent_mono {x : List ℝ} (h : x.Pairwise (· < ·)) {i j : Nat} (hij : i ≤ j) (hj : j < x.length) : ent x i ≤ ent x j := by
  rcases Nat.lt_or_ge i j with h' | h'
  · exact (ent_lt h h' hj).le
  · have : i = j := by omega
    rw [this]

theorem nakSeg_in {x : List ℝ} (h : Knots x) {i : Nat} (hi : i + 1 < x.length) {q : ℝ} (h1 : ent x i ≤ q) (h2 : q < ent x (i + 1)) : nakSeg x q = i := by
  refine nakSeg_eq i q (by omega) ?_
  intro k hk
  constructor
  · intro hq
    by_contra hc
    have := ent_mono h.incr (i := i + 1) (j := k + 1) (by omega) (by omega)
    linarith
  · intro hki
    exact (ent_mono h.incr (i := k + 1) (j := i) (by omega) (by omega)).trans h1

theorem nakSeg_end {x : List ℝ} (h : Knots x) : nakSeg x (ent x (x.length - 1)) = x.length - 2 := by
  have := h.four
  refine nakSeg_eq _ _ (by omega) ?_
  intro k hk
  constructor
  · intro _; omega
  · intro _
    exact ent_mono h.incr (by omega) (by omega)

/-- the cubics of the model -/
noncomputable def nakCub (x y : List ℝ) (i : Nat) : Cub :=
  cubOf (ent x i) (ent x (i + 1)) (ent y i) (ent y (i + 1)) (nakMoment x y i) (nakMoment x y (i + 1))

theorem nakSpline_knot {x : List ℝ} (h : Knots x) (y : List ℝ) {i : Nat} (hi : i < x.length) : nakSpline x y (ent x i) = ent y i := by
  have h4 := h.four
  by_cases e : i + 1 < x.length
  · have hlt := ent_lt h.incr (Nat.lt_succ_self i) e
    unfold nakSpline
    rw [nakSeg_in h e le_rfl hlt, nakPiece_cub]
    exact cubOf_left hlt
  · obtain ⟨k, rfl⟩ : ∃ k, i = k + 1 := ⟨i - 1, by omega⟩
    have hlt := ent_lt h.incr (Nat.lt_succ_self k) hi
    have e1 : k + 1 = x.length - 1 := by omega
    unfold nakSpline
    conv_lhs => rw [e1, nakSeg_end h, nakPiece_cub, ← e1]
    rw [show x.length - 2 = k by omega]
    exact cubOf_right hlt

theorem nakSpline_piece {x : List ℝ} (h : Knots x) (y : List ℝ) {i : Nat} (hi : i + 1 < x.length) {q : ℝ} (h1 : ent x i ≤ q) (h2 : q ≤ ent x (i + 1)) :
    nakSpline x y q = (nakCub x y i).val q := by
  rcases h2.lt_or_eq with h' | h'
  · unfold nakSpline
    rw [nakSeg_in h hi h1 h', nakPiece_cub]
    rfl
  · subst h'
    rw [nakSpline_knot h y hi]
    exact (cubOf_right (ent_lt h.incr (Nat.lt_succ_self i) hi)).symm

theorem nakCub_c3 {x : List ℝ} (h : Knots x) (y : List ℝ) (i : Nat) (hi : i + 2 < x.length)
    (he : (nakMoment x y (i + 1) - nakMoment x y i) * gapAt x (i + 1) = (nakMoment x y (i + 2) - nakMoment x y (i + 1)) * gapAt x i) :
    (nakCub x y i).c3 = (nakCub x y (i + 1)).c3 := by
  have p0 := gap_pos h (i := i) (by omega)
  have p1 := gap_pos h (i := i + 1) (by omega)
  simp only [nakCub, cubOf]
  unfold gapAt at *
  rw [div_eq_div_iff (by positivity) (by positivity)]
  linear_combination 6 * he

theorem nakCub_joins {x : List ℝ} (h : Knots x) (y : List ℝ) (i : Nat) (hi : i + 2 < x.length) :
    (nakCub x y i).val (ent x (i + 1)) = (nakCub x y (i + 1)).val (ent x (i + 1)) ∧
    (nakCub x y i).slope (ent x (i + 1)) = (nakCub x y (i + 1)).slope (ent x (i + 1)) ∧
    (nakCub x y i).curv (ent x (i + 1)) = (nakCub x y (i + 1)).curv (ent x (i + 1)) := by
  have l0 := ent_lt h.incr (Nat.lt_succ_self i) (by omega)
  have l1 := ent_lt h.incr (Nat.lt_succ_self (i + 1)) (by omega)
  have p0 := (gap_pos h (i := i) (by omega)).ne'
  have p1 := (gap_pos h (i := i + 1) (by omega)).ne'
  refine ⟨?_, ?_, ?_⟩
  · rw [nakCub, nakCub, cubOf_right l0, cubOf_left l1]
  · rw [nakCub, nakCub, cubOf_slope_right l0, cubOf_slope_left l1]
    have := (nak_eqs h y).inner i hi
    unfold gapAt at this p0 p1
    linear_combination this / 6
  · rw [nakCub, nakCub, cubOf_curv_right l0, cubOf_curv_left l1]

/-! ### C159 -/

/-- C159: the interpolation is the not-a-knot cubic spline. -/
theorem C159_spline (x y : List ℝ) (hx : x.Pairwise (· < ·)) (h4 : 4 ≤ x.length) : NotAKnot x y (nakSpline x y) := by
  have h : Knots x := ⟨hx, h4⟩
  have he := nak_eqs h y
  refine ⟨nakCub x y, fun i hi q h1 h2 => nakSpline_piece h y hi h1 h2, fun i hi => nakSpline_knot h y hi, fun i hi => (nakCub_joins h y i hi).2, ?_, ?_⟩
  · obtain ⟨j0, j1, j2⟩ := nakCub_joins h y 0 (by omega)
    exact Cub.ext_at _ j0 j1 j2 (nakCub_c3 h y 0 (by omega) he.first)
  · intro k hk
    obtain ⟨j0, j1, j2⟩ := nakCub_joins h y k (by omega)
    exact Cub.ext_at _ j0 j1 j2 (nakCub_c3 h y k (by omega) (he.last k hk))

/-- every point of the range is between two neighbouring knots -/
theorem between {x : List ℝ} (h4 : 2 ≤ x.length) {q : ℝ} (h1 : ent x 0 ≤ q) (h2 : q ≤ ent x (x.length - 1)) :
    ∃ i, i + 1 < x.length ∧ ent x i ≤ q ∧ q ≤ ent x (i + 1) := by
  have key : ∀ k, k + 1 < x.length → q ≤ ent x (k + 1) → ∃ i, i + 1 < x.length ∧ ent x i ≤ q ∧ q ≤ ent x (i + 1) := by
    intro k
    induction k with
    | zero => intro hk hq; exact ⟨0, hk, h1, hq⟩
    | succ k ih =>
      intro hk hq
      by_cases hc : ent x (k + 1) ≤ q
      · exact ⟨k + 1, hk, hc, hq⟩
      · exact ih (by omega) (not_le.mp hc).le
  exact key (x.length - 2) (by omega) (by rw [show x.length - 2 + 1 = x.length - 1 by omega]; exact h2)

/-- C159: there is only one. -/
theorem C159_unique (x y : List ℝ) (hx : x.Pairwise (· < ·)) (h4 : 4 ≤ x.length) (f : ℝ → ℝ) (hf : NotAKnot x y f) (q : ℝ) (h1 : ent x 0 ≤ q)
    (h2 : q ≤ ent x (x.length - 1)) : f q = nakSpline x y q := by
  have h : Knots x := ⟨hx, h4⟩
  obtain ⟨p, hp, hy, hj, hfirst, hlast⟩ := hf
  have hlt : ∀ i, i + 1 < x.length → ent x i < ent x (i + 1) := fun i hi => ent_lt hx (Nat.lt_succ_self i) hi
  have v0 : ∀ i, i + 1 < x.length → (p i).val (ent x i) = ent y i := fun i hi => by
    rw [← hp i hi _ le_rfl (hlt i hi).le, hy i (by omega)]
  have v1 : ∀ i, i + 1 < x.length → (p i).val (ent x (i + 1)) = ent y (i + 1) := fun i hi => by
    rw [← hp i hi _ (hlt i hi).le le_rfl, hy (i + 1) hi]
  -- the second derivatives at the knots
  obtain ⟨m, hm0, hm1⟩ : ∃ m : Nat → ℝ, (∀ i, i + 1 < x.length → (p i).curv (ent x i) = m i) ∧ ∀ i, i + 1 < x.length → (p i).curv (ent x (i + 1)) = m (i + 1) := by
    refine ⟨fun i => if i + 1 < x.length then (p i).curv (ent x i) else (p (i - 1)).curv (ent x i), ?_, ?_⟩
    · intro i hi
      simp [hi]
    · intro i hi
      simp only [Nat.add_sub_cancel]
      by_cases hc : i + 1 + 1 < x.length
      · rw [if_pos hc]
        exact (hj i hc).2
      · rw [if_neg hc]
  have hcub : ∀ i, i + 1 < x.length → p i = cubOf (ent x i) (ent x (i + 1)) (ent y i) (ent y (i + 1)) (m i) (m (i + 1)) := by
    intro i hi
    have := cubOf_only (hlt i hi) (p i)
    rw [v0 i hi, v1 i hi, hm0 i hi, hm1 i hi] at this
    exact this
  have c3 : ∀ i, i + 2 < x.length → p i = p (i + 1) → (m (i + 1) - m i) * gapAt x (i + 1) = (m (i + 2) - m (i + 1)) * gapAt x i := by
    intro i hi he
    have e := congrArg Cub.c3 he
    rw [hcub i (by omega), hcub (i + 1) (by omega)] at e
    simp only [cubOf] at e
    have p0 := gap_pos h (i := i) (by omega)
    have p1 := gap_pos h (i := i + 1) (by omega)
    unfold gapAt at *
    rw [div_eq_div_iff (by positivity) (by positivity)] at e
    linear_combination e / 6
  have heq : NakEqs x y m := by
    refine ⟨?_, c3 0 (by omega) hfirst, fun k hk => c3 k (by omega) (hlast k hk)⟩
    intro i hi
    have e := (hj i hi).1
    rw [hcub i (by omega), hcub (i + 1) (by omega), cubOf_slope_right (hlt i (by omega)), cubOf_slope_left (hlt (i + 1) (by omega))] at e
    unfold gapAt
    linear_combination 6 * e
  have hmom := nak_eqs_only h heq
  obtain ⟨i, hi, q1, q2⟩ := between (by omega) h1 h2
  rw [hp i hi q q1 q2, nakSpline_piece h y hi q1 q2, hcub i hi, hmom i (by omega), hmom (i + 1) hi]
  rfl

/-- C159: a cubic polynomial is interpolated exactly. -/
theorem C159_cubic (x y : List ℝ) (hx : x.Pairwise (· < ·)) (h4 : 4 ≤ x.length) (p : Cub) (hy : ∀ i, i < x.length → ent y i = p.val (ent x i)) (q : ℝ)
    (h1 : ent x 0 ≤ q) (h2 : q ≤ ent x (x.length - 1)) : nakSpline x y q = p.val q :=
  (C159_unique x y hx h4 p.val ⟨fun _ => p, fun _ _ _ _ _ => rfl, fun i hi => (hy i hi).symm, fun _ _ => ⟨rfl, rfl⟩, rfl, fun _ _ => rfl⟩ q h1 h2).symm

/-! ### the contracts -/

theorem ent_mix {x y1 y2 : List ℝ} (a b : ℝ) (h1 : y1.length = x.length) (h2 : y2.length = x.length) (i : Nat) :
    ent (List.zipWith (fun u v => a * u + b * v) y1 y2) i = a * ent y1 i + b * ent y2 i := by
  unfold ent
  rw [List.getD_eq_getElem?_getD, List.getD_eq_getElem?_getD, List.getD_eq_getElem?_getD, List.getElem?_zipWith]
  by_cases hi : i < x.length
  · rw [List.getElem?_eq_getElem (by omega), List.getElem?_eq_getElem (by omega)]
    simp
  · rw [List.getElem?_eq_none (by omega), List.getElem?_eq_none (by omega)]
    simp

section
variable {x y1 y2 : List ℝ} (a b : ℝ) (h1 : y1.length = x.length) (h2 : y2.length = x.length)
include h1 h2

theorem nakRhs_mix (i : Nat) : nakRhs x (List.zipWith (fun u v => a * u + b * v) y1 y2) i = a * nakRhs x y1 i + b * nakRhs x y2 i := by
  simp only [nakRhs, ent_mix a b h1 h2]
  ring

theorem nakElimD_mix (i : Nat) : nakElimD x (List.zipWith (fun u v => a * u + b * v) y1 y2) i = a * nakElimD x y1 i + b * nakElimD x y2 i := by
  induction i with
  | zero => simp [nakElimD]
  | succ i ih =>
    simp only [nakElimD, ih, nakRhs_mix a b h1 h2]
    ring

theorem nakBack_mix (j : Nat) : nakBack x (List.zipWith (fun u v => a * u + b * v) y1 y2) j = a * nakBack x y1 j + b * nakBack x y2 j := by
  induction j with
  | zero => exact nakElimD_mix a b h1 h2 _
  | succ j ih =>
    simp only [nakBack, ih, nakElimD_mix a b h1 h2]
    ring

theorem nakMoment_mix (i : Nat) : nakMoment x (List.zipWith (fun u v => a * u + b * v) y1 y2) i = a * nakMoment x y1 i + b * nakMoment x y2 i := by
  simp only [nakMoment, nakInner, nakBack_mix a b h1 h2]
  split
  · ring
  · split
    · ring
    · rfl

end

theorem nak_linear (x y1 y2 : List ℝ) (a b q : ℝ) (h1 : y1.length = x.length) (h2 : y2.length = x.length) :
    nakSpline x (List.zipWith (fun u v => a * u + b * v) y1 y2) q = a * nakSpline x y1 q + b * nakSpline x y2 q := by
  simp only [nakSpline, nakPiece, nakMoment_mix a b h1 h2, ent_mix a b h1 h2]
  ring

section
variable (x : List ℝ) (k : ℝ)

theorem ent_units (i : Nat) : ent (x.map (fun v => v * k)) i = ent x i * k := by
  unfold ent
  rw [List.getD_eq_getElem?_getD, List.getD_eq_getElem?_getD, List.getElem?_map]
  cases x[i]? <;> simp

theorem gap_units (i : Nat) : gapAt (x.map (fun v => v * k)) i = gapAt x i * k := by
  simp only [gapAt, ent_units]
  ring

variable (hk : k ≠ 0)
include hk

theorem quot_units (a b c : ℝ) : (a * k) * (b * k) / (c * k) = a * b / c * k := by
  by_cases hc : c = 0
  · simp [hc]
  · field_simp

theorem nakSub_units (i : Nat) : nakSub (x.map (fun v => v * k)) i = nakSub x i * k := by
  simp only [nakSub, List.length_map, gap_units]
  split
  · simp
  · split
    · rw [quot_units k hk]; ring
    · rfl

theorem nakSup_units (i : Nat) : nakSup (x.map (fun v => v * k)) i = nakSup x i * k := by
  simp only [nakSup, List.length_map, gap_units]
  split
  · simp
  · split
    · rw [quot_units k hk]; ring
    · rfl

theorem nakDiag_units (i : Nat) : nakDiag (x.map (fun v => v * k)) i = nakDiag x i * k := by
  simp only [nakDiag, List.length_map, gap_units, ← add_mul, quot_units k hk]
  split <;> split <;> simp <;> ring

theorem nakElimC_units (i : Nat) : nakElimC (x.map (fun v => v * k)) i = nakElimC x i := by
  induction i with
  | zero => rfl
  | succ i ih =>
    simp only [nakElimC, ih, nakSub_units x k hk, nakSup_units x k hk, nakDiag_units x k hk]
    rw [show nakDiag x (i + 1) * k - nakSub x (i + 1) * k * nakElimC x i = (nakDiag x (i + 1) - nakSub x (i + 1) * nakElimC x i) * k by ring]
    exact mul_div_mul_right _ _ hk

theorem nakRhs_units (y : List ℝ) (i : Nat) : nakRhs (x.map (fun v => v * k)) y i = nakRhs x y i / k := by
  simp only [nakRhs, gap_units, ← div_div]
  ring

theorem nakElimD_units (y : List ℝ) (i : Nat) : nakElimD (x.map (fun v => v * k)) y i = nakElimD x y i / (k * k) := by
  induction i with
  | zero => simp [nakElimD]
  | succ i ih =>
    simp only [nakElimD, ih, nakElimC_units x k hk, nakSub_units x k hk, nakDiag_units x k hk, nakRhs_units x k hk]
    have e : nakRhs x y (i + 1) / k - nakSub x (i + 1) * k * (nakElimD x y i / (k * k)) = (nakRhs x y (i + 1) - nakSub x (i + 1) * nakElimD x y i) / k := by
      field_simp
    rw [e, show nakDiag x (i + 1) * k - nakSub x (i + 1) * k * nakElimC x i = (nakDiag x (i + 1) - nakSub x (i + 1) * nakElimC x i) * k by ring, div_div, div_div]
    congr 1
    ring

theorem nakBack_units (y : List ℝ) (j : Nat) : nakBack (x.map (fun v => v * k)) y j = nakBack x y j / (k * k) := by
  induction j with
  | zero =>
    simp only [nakBack, List.length_map]
    exact nakElimD_units x k hk y _
  | succ j ih =>
    simp only [nakBack, List.length_map, ih, nakElimC_units x k hk, nakElimD_units x k hk]
    ring

theorem moment_quot (a b c m n : ℝ) : ((a * k + b * k) * (m / (k * k)) - c * k * (n / (k * k))) / (b * k) = ((a + b) * m - c * n) / b / (k * k) := by
  by_cases hb : b = 0
  · simp [hb]
  · field_simp

theorem nakMoment_units (y : List ℝ) (i : Nat) : nakMoment (x.map (fun v => v * k)) y i = nakMoment x y i / (k * k) := by
  simp only [nakMoment, nakInner, List.length_map, gap_units, nakBack_units x k hk]
  split
  · exact moment_quot k hk _ _ _ _ _
  · split
    · exact moment_quot k hk _ _ _ _ _
    · rfl

theorem nakPiece_units (y : List ℝ) (i : Nat) (q : ℝ) : nakPiece (x.map (fun v => v * k)) y i (q * k) = nakPiece x y i q := by
  simp only [nakPiece, ent_units, gap_units, nakMoment_units x k hk, real_lit, Rat.cast_ofNat]
  have e1 : ent x (i + 1) * k - q * k = (ent x (i + 1) - q) * k := by ring
  have e2 : q * k - ent x i * k = (q - ent x i) * k := by ring
  rw [e1, e2]
  generalize ent x (i + 1) - q = u
  generalize q - ent x i = v
  generalize gapAt x i = h
  by_cases hh : h = 0
  · simp [hh]
  · field_simp

end

theorem nak_units (x y : List ℝ) (k q : ℝ) (hk : 0 < k) : nakSpline (x.map (fun v => v * k)) y (q * k) = nakSpline x y q := by
  have hs : nakSeg (x.map (fun v => v * k)) (q * k) = nakSeg x q := by
    simp only [nakSeg, List.length_map, ent_units, real_leb]
    congr 2
    funext j
    rw [decide_eq_decide]
    exact mul_le_mul_iff_left₀ hk
  unfold nakSpline
  rw [hs, nakPiece_units x k hk.ne']

/-- C159: scipy's spline has the three properties that other theorems take as hypotheses about the library. -/
theorem C159_contracts (lib : Lib ℝ) : KnotExact lib.cubic ∧ SplineLinear lib.cubic ∧ SplineUnits lib.cubic := by
  refine ⟨?_, fun x y1 y2 a b q h1 h2 => nak_linear x y1 y2 a b q h1 h2, fun x y k q hk => nak_units x y k q hk⟩
  intro x y i w v hx h4 hl hw hv
  have hi := (List.getElem?_eq_some_iff.mp hw).1
  have := nakSpline_knot ⟨hx, h4⟩ y hi
  have e1 : ent x i = w := by simp [ent, hw]
  have e2 : ent y i = v := by simp [ent, hv]
  rw [e1, e2] at this
  exact this


/-! ### smoothness -/

/-- pieces of a function -/
def Glued (x : List ℝ) (F : ℝ → ℝ) (P : Nat → ℝ → ℝ) : Prop := ∀ i, i + 1 < x.length → ∀ q, ent x i ≤ q → q ≤ ent x (i + 1) → F q = P i q

open Filter Topology in
theorem Glued.left {x : List ℝ} {F : ℝ → ℝ} {P : Nat → ℝ → ℝ} (h : Glued x F P) {i : Nat} (hi : i + 1 < x.length) {q : ℝ} (h1 : ent x i < q)
    (h2 : q ≤ ent x (i + 1)) : F =ᶠ[𝓝[≤] q] P i := by
  filter_upwards [Icc_mem_nhdsLE h1] with t ht
  exact h i hi t ht.1 (ht.2.trans h2)

open Filter Topology in
theorem Glued.right {x : List ℝ} {F : ℝ → ℝ} {P : Nat → ℝ → ℝ} (h : Glued x F P) {i : Nat} (hi : i + 1 < x.length) {q : ℝ} (h1 : ent x i ≤ q)
    (h2 : q < ent x (i + 1)) : F =ᶠ[𝓝[≥] q] P i := by
  filter_upwards [Icc_mem_nhdsGE h2] with t ht
  exact h i hi t (h1.trans ht.1) ht.2

/-- left and right of a point inside the range -/
theorem sides {x : List ℝ} (hx : x.Pairwise (· < ·)) (h2 : 2 ≤ x.length) {q : ℝ} (ha : ent x 0 < q) (hb : q < ent x (x.length - 1)) :
    ∃ i j, i + 1 < x.length ∧ j + 1 < x.length ∧ ent x i < q ∧ q ≤ ent x (i + 1) ∧ ent x j ≤ q ∧ q < ent x (j + 1) := by
  obtain ⟨i, hi, h1, h2⟩ := between h2 ha.le hb.le
  rcases h1.lt_or_eq with l | l
  · rcases h2.lt_or_eq with r | r
    · exact ⟨i, i, hi, hi, l, h2, h1, r⟩
    · have hi2 : i + 2 < x.length := by
        by_contra hc
        have : x.length - 1 = i + 1 := by omega
        rw [this, r] at hb
        exact lt_irrefl _ hb
      refine ⟨i, i + 1, hi, by omega, l, h2, r.symm.le, ?_⟩
      rw [r]
      exact ent_lt hx (Nat.lt_succ_self _) hi2
  · have hi0 : i ≠ 0 := by
      rintro rfl
      rw [l] at ha
      exact lt_irrefl _ ha
    obtain ⟨k, rfl⟩ : ∃ k, i = k + 1 := ⟨i - 1, by omega⟩
    refine ⟨k, k + 1, by omega, hi, ?_, l.symm.le, l.le, ?_⟩
    · rw [← l]; exact ent_lt hx (Nat.lt_succ_self _) (by omega)
    · rw [← l]; exact ent_lt hx (Nat.lt_succ_self _) hi

theorem glue_deriv {x : List ℝ} (hx : x.Pairwise (· < ·)) (h2 : 2 ≤ x.length) {F G : ℝ → ℝ} {P P' : Nat → ℝ → ℝ} (hF : Glued x F P) (hG : Glued x G P')
    (hP : ∀ i q, HasDerivAt (P i) (P' i q) q) {q : ℝ} (ha : ent x 0 < q) (hb : q < ent x (x.length - 1)) : HasDerivAt F (G q) q := by
  obtain ⟨i, j, hi, hj, a1, a2, b1, b2⟩ := sides hx h2 ha hb
  have e1 : HasDerivWithinAt F (G q) (Set.Iic q) q := by
    rw [hG i hi q a1.le a2]
    exact (hP i q).hasDerivWithinAt.congr_of_eventuallyEq (hF.left hi a1 a2) (hF i hi q a1.le a2)
  have e2 : HasDerivWithinAt F (G q) (Set.Ici q) q := by
    rw [hG j hj q b1 b2.le]
    exact (hP j q).hasDerivWithinAt.congr_of_eventuallyEq (hF.right hj b1 b2) (hF j hj q b1 b2.le)
  have := e1.union e2
  rwa [Set.Iic_union_Ici, hasDerivWithinAt_univ] at this

theorem glue_cont {x : List ℝ} (hx : x.Pairwise (· < ·)) (h2 : 2 ≤ x.length) {F : ℝ → ℝ} {P : Nat → ℝ → ℝ} (hF : Glued x F P) (hP : ∀ i, Continuous (P i)) {q : ℝ}
    (ha : ent x 0 < q) (hb : q < ent x (x.length - 1)) : ContinuousAt F q := by
  obtain ⟨i, j, hi, hj, a1, a2, b1, b2⟩ := sides hx h2 ha hb
  rw [continuousAt_iff_continuous_left_right]
  exact ⟨(hP i).continuousAt.continuousWithinAt.congr_of_eventuallyEq (hF.left hi a1 a2) (hF i hi q a1.le a2),
    (hP j).continuousAt.continuousWithinAt.congr_of_eventuallyEq (hF.right hj b1 b2) (hF j hj q b1 b2.le)⟩

theorem Cub.hasDeriv (p : Cub) (q : ℝ) : HasDerivAt p.val (p.slope q) q := by
  have h := (((hasDerivAt_const q p.c0).add ((hasDerivAt_id q).const_mul p.c1)).add ((hasDerivAt_pow 2 q).const_mul p.c2)).add ((hasDerivAt_pow 3 q).const_mul p.c3)
  refine HasDerivAt.congr_deriv (f' := _) h ?_
  unfold Cub.slope
  norm_num
  ring

theorem Cub.hasDeriv2 (p : Cub) (q : ℝ) : HasDerivAt p.slope (p.curv q) q := by
  have h := ((hasDerivAt_const q p.c1).add ((hasDerivAt_id q).const_mul (2 * p.c2))).add ((hasDerivAt_pow 2 q).const_mul (3 * p.c3))
  refine HasDerivAt.congr_deriv (f' := _) h ?_
  unfold Cub.curv
  norm_num
  ring

/-- joins at the knots make the pieces a function -/
theorem glued_of_joins {x : List ℝ} (h : Knots x) (P : Nat → ℝ → ℝ) (hj : ∀ i, i + 2 < x.length → P i (ent x (i + 1)) = P (i + 1) (ent x (i + 1))) :
    Glued x (fun q => P (nakSeg x q) q) P := by
  intro i hi q h1 h2
  have h4 := h.four
  simp only
  rcases h2.lt_or_eq with r | r
  · rw [nakSeg_in h hi h1 r]
  · subst r
    by_cases hc : i + 2 < x.length
    · rw [nakSeg_in h (i := i + 1) hc le_rfl (ent_lt h.incr (Nat.lt_succ_self _) hc), hj i hc]
    · have e : i + 1 = x.length - 1 := by omega
      rw [e, nakSeg_end h, show x.length - 2 = i by omega]

/-- C159: the interpolation is twice continuously differentiable inside the range of the samples. -/
theorem C159_smooth (x y : List ℝ) (hx : x.Pairwise (· < ·)) (h4 : 4 ≤ x.length) :
    ∃ f1 f2 : ℝ → ℝ, ∀ q, ent x 0 < q → q < ent x (x.length - 1) → HasDerivAt (nakSpline x y) (f1 q) q ∧ HasDerivAt f1 (f2 q) q ∧ ContinuousAt f2 q := by
  have h : Knots x := ⟨hx, h4⟩
  have g0 : Glued x (nakSpline x y) (fun i => (nakCub x y i).val) := fun i hi q h1 h2 => nakSpline_piece h y hi h1 h2
  have g1 := glued_of_joins h (fun i => (nakCub x y i).slope) (fun i hi => (nakCub_joins h y i hi).2.1)
  have g2 := glued_of_joins h (fun i => (nakCub x y i).curv) (fun i hi => (nakCub_joins h y i hi).2.2)
  refine ⟨_, _, fun q ha hb => ⟨glue_deriv hx (by omega) g0 g1 (fun i => (nakCub x y i).hasDeriv) ha hb,
    glue_deriv hx (by omega) g1 g2 (fun i => (nakCub x y i).hasDeriv2) ha hb, glue_cont hx (by omega) g2 (fun i => ?_) ha hb⟩⟩
  unfold Cub.curv
  fun_prop

/-! ### C160: nonnegative samples -/

/-- four samples: the cubic through them -/
theorem spline_four {a b c d : ℝ} (hx : [a, b, c, d].Pairwise (· < ·)) (y : List ℝ) (p : Cub) (hy : y = [p.val a, p.val b, p.val c, p.val d]) {q : ℝ} (h1 : a ≤ q)
    (h2 : q ≤ d) : nakSpline [a, b, c, d] y q = p.val q := by
  subst hy
  refine C159_cubic _ _ hx (by simp) p ?_ q (by simpa [ent] using h1) (by simpa [ent] using h2)
  intro i hi
  simp only [List.length_cons, List.length_nil] at hi
  interval_cases i <;> simp [ent]

/-- values of a sampled curve are nonnegative at its samples and outside its range -/
theorem curve_nonneg {lib : Lib ℝ} (hk : KnotExact lib) {x y : List ℝ} (hx : x.Pairwise (· < ·)) (h4 : 4 ≤ x.length) (hl : y.length = x.length) (hy : ∀ v ∈ y, 0 ≤ v) {w : ℝ}
    (hw : x.headD 0 ≤ w → w ≤ x.getLastD 0 → w ∈ x) : 0 ≤ curveFn lib.spline x y w := by
  by_cases hc : w < x.headD 0 ∨ x.getLastD 0 < w
  · unfold curveFn
    rw [if_pos hc]
  · push Not at hc
    obtain ⟨i, hi⟩ := List.mem_iff_getElem?.mp (hw hc.1 hc.2)
    obtain ⟨hil, _⟩ := List.getElem?_eq_some_iff.mp hi
    have e : y[i]? = some (y[i]'(by omega)) := List.getElem?_eq_getElem _
    rw [curve_at_knot hk hx h4 hl hi e]
    exact hy _ (List.getElem_mem _)

/-- C160: samples of response and spectrum may all be nonnegative, and zero only outside or at the ends of the band
for the response, and `project` still return a negative number of maggies: between its samples the interpolation
of a nonnegative spectrum can be negative. -/
theorem C160_false (lib : Lib ℝ) (hb : BrentqOK lib) (hsun : StarOK lib.sun) (hvega : StarOK lib.vega) :
    ∃ (wave resp sw flux : List ℝ) (R : Resp ℝ) (m : NDA ℝ),
      (∀ v ∈ resp, 0 ≤ v) ∧ (∀ v ∈ flux, 0 ≤ v) ∧ mkResponse lib.cubic wave resp = .ok R ∧
      Projects lib.cubic R.toCurve sw [flux] m ∧ ∃ v ∈ m.flat, v < 0 := by
  have hk : KnotExact lib.cubic := (C159_contracts lib).1
  have hw : ([4, 6, 8, 10] : List ℝ).Pairwise (· < ·) := by norm_num
  have hs : ([1, 5, 9, 13] : List ℝ).Pairwise (· < ·) := by norm_num
  obtain ⟨R, hR⟩ := C91_response_builds lib.cubic hk hb hsun hvega [4, 6, 8, 10] [0, 1, 1, 0] (hw.imp (fun h => h.ne)) (by simp) (by simp) ⟨1, by simp, by norm_num⟩
  obtain ⟨m, hm⟩ := projects_exists lib.cubic R.toCurve [1, 5, 9, 13] [32, 0, 0, 32] hs (by simp) (by simp)
  refine ⟨_, _, _, _, R, m, ?_, ?_, hR, hm, ?_⟩
  · intro v hv
    simp at hv
    rcases hv with rfl | rfl | rfl <;> norm_num
  · intro v hv
    simp at hv
    rcases hv with rfl | rfl | rfl <;> norm_num
  obtain ⟨eW, eR⟩ := mkResponse_sorted (hw.imp le_of_lt) (by simp) hR
  have four : ∀ q, 4 ≤ q → q ≤ 10 → curveFn lib.cubic.spline [4, 6, 8, 10] [0, 1, 1, 0] q = (q - 4) * (10 - q) / 8 := by
    intro q h1 h2
    unfold curveFn
    rw [if_neg (by simpa using ⟨h1, h2⟩)]
    refine (spline_four hw _ ⟨-5, 14 / 8, -1 / 8, 0⟩ (by norm_num [Cub.val]) h1 h2).trans ?_
    unfold Cub.val
    ring
  have fours : ∀ q, 1 ≤ q → q ≤ 13 → curveFn lib.cubic.spline [1, 5, 9, 13] [32, 0, 0, 32] q = (q - 5) * (q - 9) := by
    intro q h1 h2
    unfold curveFn
    rw [if_neg (by simpa using ⟨h1, h2⟩)]
    refine (spline_four hs _ ⟨45, -14, 1, 0⟩ (by norm_num [Cub.val]) h1 h2).trans ?_
    unfold Cub.val
    ring
  have out : ∀ q, q < 4 ∨ 10 < q → curveFn lib.cubic.spline [4, 6, 8, 10] [0, 1, 1, 0] q = 0 := by
    intro q h
    unfold curveFn
    rw [if_pos (by simpa using h)]
  obtain ⟨g, hg, hf⟩ := C18_project_ratio_partial lib.cubic hk _ _ R hR [1, 5, 9, 13] hs _ m hm (by rw [eW]; exact ⟨5, by simp, by norm_num, by norm_num⟩)
    (by rw [eR]; exact ⟨Or.inl (by simp), Or.inl (by simp)⟩)
  rw [eW, eR] at hf
  rw [eW] at hg
  have hc := C24_denominator_pos lib.cubic hk _ _ R hR [1, 5, 9, 13] g (by rw [eW]; exact hg) (by
    rw [eW]
    intro w hw
    simp at hw
    rcases hw with rfl | rfl | rfl | rfl | rfl | rfl | rfl | rfl <;> norm_num) (by
    rw [eW, eR]
    intro w hw
    simp at hw
    rcases hw with rfl | rfl | rfl | rfl | rfl | rfl | rfl | rfl
    iterate 4 (rw [four _ (by norm_num) (by norm_num)]; norm_num)
    · rw [out _ (by norm_num)]
    · rw [four _ (by norm_num) (by norm_num)]; norm_num
    · rw [four _ (by norm_num) (by norm_num)]; norm_num
    · rw [out _ (by norm_num)])
  rw [eW, eR] at hc
  refine ⟨_, by rw [hf]; exact List.mem_cons_self .., div_neg_of_neg_of_pos ?_ hc⟩
  have key : ∀ w ∈ g, curveFn lib.cubic.spline [4, 6, 8, 10] [0, 1, 1, 0] w * curveFn lib.cubic.spline [1, 5, 9, 13] [32, 0, 0, 32] w ≤ 0 := by
    intro w hw
    rcases hg.only w hw with h | h <;> simp at h <;> rcases h with rfl | rfl | rfl | rfl
    · rw [four _ (by norm_num) (by norm_num)]; norm_num
    · rw [four _ (by norm_num) (by norm_num), fours _ (by norm_num) (by norm_num)]; norm_num
    · rw [four _ (by norm_num) (by norm_num), fours _ (by norm_num) (by norm_num)]; norm_num
    · rw [four _ (by norm_num) (by norm_num)]; norm_num
    · rw [out _ (by norm_num)]; norm_num
    · rw [fours _ (by norm_num) (by norm_num)]; norm_num
    · rw [fours _ (by norm_num) (by norm_num)]; norm_num
    · rw [out _ (by norm_num)]; norm_num
  have hpw : ∀ w ∈ g, (0 : ℝ) < w := by
    intro w hw
    rcases hg.only w hw with h | h <;> simp at h <;> rcases h with rfl | rfl | rfl | rfl <;> norm_num
  have hpos : 0 < trapRule g ((g.map (fun w => w * curveFn lib.cubic.spline [4, 6, 8, 10] [0, 1, 1, 0] w * curveFn lib.cubic.spline [1, 5, 9, 13] [32, 0, 0, 32] w)).map
      (fun v => (-1) * v)) := by
    refine trapRule_pos _ _ hg.incr (by simp) ?_ (by simpa using union_two hg hw (by simp)) ?_
    · intro v hv
      simp only [List.map_map, List.mem_map, Function.comp] at hv
      obtain ⟨w, hw, rfl⟩ := hv
      nlinarith [mul_nonneg (hpw w hw).le (neg_nonneg.mpr (key w hw))]
    · refine ⟨_, List.mem_map_of_mem (List.mem_map_of_mem (hg.band 6 (by simp))), ?_⟩
      rw [four _ (by norm_num) (by norm_num), fours _ (by norm_num) (by norm_num)]
      norm_num
  rw [trapRule_smul] at hpos
  unfold photonInt
  linarith

/-- C160 (partial): if inside the band response and spectrum are sampled at the same wavelengths, nonnegative
samples give nonnegative maggies.  Missing: spectra and bands sampled differently, for which the claim is false
(`C160_false`). -/
theorem C160_partial (lib : Lib ℝ) (wave resp : List ℝ) (hw : wave.Pairwise (· < ·)) (hl : resp.length = wave.length) (R : Resp ℝ) (hR : mkResponse lib.cubic wave resp = .ok R) (sw : List ℝ)
    (hs : sw.Pairwise (· < ·)) (hpos : ∀ w ∈ sw, 0 < w) (rows : List (List ℝ)) (m : NDA ℝ) (hm : Projects lib.cubic R.toCurve sw rows m)
    (hends : EndsCovered sw wave resp) (hsub : ∀ w ∈ wave, w ∈ sw) (hsup : ∀ w ∈ sw, wave.headD 0 ≤ w → w ≤ wave.getLastD 0 → w ∈ wave)
    (hresp : ∀ v ∈ resp, 0 ≤ v) (hsed : ∀ y ∈ rows, ∀ v ∈ y, 0 ≤ v) : ∀ v ∈ m.flat, 0 ≤ v := by
  have hk : KnotExact lib.cubic := (C159_contracts lib).1
  have hc := mkResponse_good hR
  obtain ⟨eW, eR⟩ := mkResponse_sorted (hw.imp le_of_lt) hl hR
  obtain ⟨_, h4, hrow⟩ := projects_eq hs hm
  have hin : ∀ w ∈ R.wave ++ sw, w ∈ sw := by
    rw [eW]
    intro w h
    rcases List.mem_append.mp h with h | h
    · exact hsub w h
    · exact h
  refine C24_project_nonneg lib.cubic hk _ _ R hR sw hs rows m hm (by rw [eW, eR]; exact hends) (fun w h => hpos w (hin w h)) ?_
    (fun y hy w h => curve_nonneg hk hs h4 (hrow y hy) (hsed y hy) (fun _ _ => hin w h))
  intro w h
  have hws := hin w h
  refine curve_nonneg hk hc.incr hc.four hc.len (by rw [eR]; exact hresp) ?_
  rw [eW]
  exact hsup w hws

/-- a band and a spectrum as in C160 -/
example : ∃ R m, mkResponse demoLib.cubic [2, 3, 4, 5] [0, 1, 1, 0] = .ok R ∧ Projects demoLib.cubic R.toCurve [1, 2, 3, 4, 5, 6] [[1, 2, 3, 0, 1, 2]] m ∧
    EndsCovered [1, 2, 3, 4, 5, 6] [2, 3, 4, 5] [0, 1, 1, 0] ∧ (∀ w ∈ ([2, 3, 4, 5] : List ℝ), w ∈ ([1, 2, 3, 4, 5, 6] : List ℝ)) := by
  obtain ⟨R, hR⟩ := C91_response_builds demoLib.cubic (C159_contracts demoLib).1 demo_brentq demo_star demo_star [2, 3, 4, 5] [0, 1, 1, 0] (by norm_num) (by simp) (by simp)
    ⟨1, by simp, by norm_num⟩
  obtain ⟨m, hm⟩ := projects_exists demoLib.cubic R.toCurve [1, 2, 3, 4, 5, 6] [1, 2, 3, 0, 1, 2] (by norm_num) (by simp) (by simp)
  refine ⟨R, m, hR, hm, ⟨Or.inl (by simp), Or.inl (by simp)⟩, ?_⟩
  intro w hw
  simp at hw ⊢
  tauto

/-- the samples of x³ + 1 at 1, 2, 3, 4, 6 are interpolated by x³ + 1 -/
example : nakSpline ([1, 2, 3, 4, 6] : List ℝ) [2, 9, 28, 65, 217] 5 = 126 := by
  have h := C159_cubic [1, 2, 3, 4, 6] [2, 9, 28, 65, 217] (by norm_num) (by simp) ⟨1, 0, 0, 1⟩ (by
    intro i hi
    simp only [List.length_cons, List.length_nil] at hi
    interval_cases i <;> norm_num [ent, Cub.val]) 5 (by norm_num [ent]) (by norm_num [ent])
  rw [h]
  norm_num [Cub.val]

end KC
