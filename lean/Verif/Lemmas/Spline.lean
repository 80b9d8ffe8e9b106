import Verif.Model.Spline
import Mathlib.Tactic.FieldSimp
import Mathlib.Tactic.Linarith

/-!
# The equations for the second derivatives of a not-a-knot spline have exactly one solution
-/

namespace KC

/-- knots -/
structure Knots (x : List ℝ) : Prop where
  incr : x.Pairwise (· < ·)
  four : 4 ≤ x.length

theorem ent_lt {x : List ℝ} (h : x.Pairwise (· < ·)) {i j : Nat} (hij : i < j) (hj : j < x.length) : ent x i < ent x j := by
  have e : ∀ k (hk : k < x.length), ent x k = x[k] := fun k hk => by simp [ent, hk]
  rw [e i (by omega), e j hj]
  exact List.pairwise_iff_getElem.mp h i j (by omega) hj hij

theorem gap_pos {x : List ℝ} (h : Knots x) {i : Nat} (hi : i + 1 < x.length) : 0 < gapAt x i := by
  unfold gapAt
  have := ent_lt h.incr (Nat.lt_succ_self i) hi
  linarith

/-- the matrix is diagonally dominant -/
theorem nak_dominant {x : List ℝ} (h : Knots x) {i : Nat} (h1 : 1 ≤ i) (h2 : i + 2 ≤ x.length) : |nakSub x i| + |nakSup x i| < nakDiag x i := by
  have p0 := gap_pos h (i := i - 1) (by omega)
  have p1 := gap_pos h (i := i) (by omega)
  have h4 := h.four
  unfold nakSub nakSup nakDiag
  generalize gapAt x (i - 1) = a at *
  generalize gapAt x i = b at *
  simp only [real_lit, Rat.cast_zero, Rat.cast_ofNat]
  by_cases e1 : i = 1
  · have e2 : i + 2 ≠ x.length := by omega
    simp only [if_pos e1, if_neg e2, abs_zero, zero_add, add_zero]
    have e3 : a * (a + b) / b = a * a / b + a := by field_simp
    have : 0 < a * a / b := by positivity
    rw [e3, abs_lt]
    constructor <;> linarith
  · by_cases e2 : i + 2 = x.length
    · simp only [if_neg e1, if_pos e2, abs_zero, add_zero]
      have e3 : b * (b + a) / a = b * b / a + b := by field_simp
      have : 0 < b * b / a := by positivity
      rw [e3, abs_lt]
      constructor <;> linarith
    · simp only [if_neg e1, if_neg e2, add_zero]
      rw [abs_of_pos p0, abs_of_pos p1]
      linarith

/-- pivots -/
theorem nak_pivot {x : List ℝ} (h : Knots x) : ∀ i, i + 2 < x.length → |nakElimC x i| < 1 ∧ 0 < nakDiag x (i + 1) - nakSub x (i + 1) * nakElimC x i := by
  have key : ∀ i, i + 3 ≤ x.length → |nakElimC x i| < 1 →
      |nakSup x (i + 1)| < nakDiag x (i + 1) - nakSub x (i + 1) * nakElimC x i := by
    intro i hi hc
    have hd := nak_dominant h (i := i + 1) (by omega) (by omega)
    have h1 : nakSub x (i + 1) * nakElimC x i ≤ |nakSub x (i + 1)| := by
      refine (le_abs_self _).trans ?_
      rw [abs_mul]
      exact mul_le_of_le_one_right (abs_nonneg _) hc.le
    linarith
  intro i
  induction i with
  | zero =>
    intro hi
    have hc : |nakElimC x 0| < 1 := by simp [nakElimC]
    exact ⟨hc, (abs_nonneg _).trans_lt (key 0 (by omega) hc)⟩
  | succ i ih =>
    intro hi
    obtain ⟨hc, hp⟩ := ih (by omega)
    have hk := key i (by omega) hc
    have hc' : |nakElimC x (i + 1)| < 1 := by
      simp only [nakElimC]
      rw [abs_div, abs_of_pos hp, div_lt_one hp]
      exact hk
    exact ⟨hc', (abs_nonneg _).trans_lt (key (i + 1) (by omega) hc')⟩

theorem nakElimC_mul {x : List ℝ} (h : Knots x) {i : Nat} (hi : i + 2 < x.length) :
    nakElimC x (i + 1) * (nakDiag x (i + 1) - nakSub x (i + 1) * nakElimC x i) = nakSup x (i + 1) := by
  simp only [nakElimC]
  exact div_mul_cancel₀ _ (nak_pivot h i hi).2.ne'

theorem nakElimD_mul {x : List ℝ} (h : Knots x) (y : List ℝ) {i : Nat} (hi : i + 2 < x.length) :
    nakElimD x y (i + 1) * (nakDiag x (i + 1) - nakSub x (i + 1) * nakElimC x i) = nakRhs x y (i + 1) - nakSub x (i + 1) * nakElimD x y i := by
  simp only [nakElimD]
  exact div_mul_cancel₀ _ (nak_pivot h i hi).2.ne'

theorem nakInner_last {x : List ℝ} (y : List ℝ) : nakInner x y (x.length - 2) = nakElimD x y (x.length - 2) := by
  simp [nakInner, nakBack]

theorem nakInner_step {x : List ℝ} (y : List ℝ) {i : Nat} (hi : i + 3 ≤ x.length) :
    nakInner x y i = nakElimD x y i - nakElimC x i * nakInner x y (i + 1) := by
  unfold nakInner
  have e : x.length - 2 - i = (x.length - 2 - (i + 1)) + 1 := by omega
  rw [e]
  simp only [nakBack]
  have e2 : x.length - 3 - (x.length - 2 - (i + 1)) = i := by omega
  rw [e2]

/-- The elimination solves the equations. -/
theorem nak_solves {x : List ℝ} (h : Knots x) (y : List ℝ) {i : Nat} (h1 : 1 ≤ i) (h2 : i + 2 ≤ x.length) :
    nakSub x i * nakInner x y (i - 1) + nakDiag x i * nakInner x y i + nakSup x i * nakInner x y (i + 1) = nakRhs x y i := by
  have h4 := h.four
  obtain ⟨k, rfl⟩ : ∃ k, i = k + 1 := ⟨i - 1, by omega⟩
  rw [Nat.add_sub_cancel]
  have hC := nakElimC_mul h (i := k) (by omega)
  have hD := nakElimD_mul h y (i := k) (by omega)
  have hlow : nakSub x (k + 1) * nakInner x y k = nakSub x (k + 1) * (nakElimD x y k - nakElimC x k * nakInner x y (k + 1)) := by
    by_cases hk : k = 0
    · subst hk
      simp [nakSub]
    · rw [nakInner_step y (i := k) (by omega)]
  have hhigh : nakInner x y (k + 1) * (nakDiag x (k + 1) - nakSub x (k + 1) * nakElimC x k) + nakSup x (k + 1) * nakInner x y (k + 1 + 1) =
      nakElimD x y (k + 1) * (nakDiag x (k + 1) - nakSub x (k + 1) * nakElimC x k) := by
    by_cases hk : k + 1 + 2 = x.length
    · have e0 : nakSup x (k + 1) = 0 := by simp [nakSup, hk]
      have e1 : nakInner x y (k + 1) = nakElimD x y (k + 1) := by
        have : k + 1 = x.length - 2 := by omega
        rw [this]
        exact nakInner_last y
      rw [e0, e1]
      ring
    · rw [nakInner_step y (i := k + 1) (by omega), ← hC]
      ring
  rw [hlow]
  linear_combination hhigh + hD

/-- There is no other solution. -/
theorem nak_only {x : List ℝ} (h : Knots x) (y : List ℝ) (N : Nat → ℝ)
    (hN : ∀ i, 1 ≤ i → i + 2 ≤ x.length → nakSub x i * N (i - 1) + nakDiag x i * N i + nakSup x i * N (i + 1) = nakRhs x y i) :
    ∀ i, 1 ≤ i → i + 2 ≤ x.length → N i = nakInner x y i := by
  have h4 := h.four
  have fwd : ∀ k, k + 3 ≤ x.length → N (k + 1) * (nakDiag x (k + 1) - nakSub x (k + 1) * nakElimC x k) + nakSup x (k + 1) * N (k + 1 + 1) =
      nakRhs x y (k + 1) - nakSub x (k + 1) * nakElimD x y k := by
    intro k
    induction k with
    | zero =>
      intro hk
      have := hN 1 le_rfl (by omega)
      have e : nakSub x 1 = 0 := by simp [nakSub]
      rw [e] at this
      simp only [zero_add, e, zero_mul, sub_zero] at this ⊢
      linear_combination this
    | succ k ih =>
      intro hk
      have h0 := ih (by omega)
      have hC := nakElimC_mul h (i := k) (by omega)
      have hD := nakElimD_mul h y (i := k) (by omega)
      have hp := (nak_pivot h k (by omega)).2.ne'
      have hstep : N (k + 1) = nakElimD x y (k + 1) - nakElimC x (k + 1) * N (k + 1 + 1) := by
        apply mul_right_cancel₀ hp
        rw [sub_mul, hD]
        linear_combination h0 + N (k + 1 + 1) * hC
      have := hN (k + 1 + 1) (by omega) (by omega)
      rw [show k + 1 + 1 - 1 = k + 1 by omega] at this
      linear_combination this - nakSub x (k + 1 + 1) * hstep
  have bwd : ∀ j i, i + 2 + j = x.length → 1 ≤ i → N i = nakInner x y i := by
    intro j
    induction j with
    | zero =>
      intro i hi h1
      obtain ⟨k, rfl⟩ : ∃ k, i = k + 1 := ⟨i - 1, by omega⟩
      have e0 : nakSup x (k + 1) = 0 := by simp [nakSup, show k + 1 + 2 = x.length by omega]
      have h0 := fwd k (by omega)
      have hD := nakElimD_mul h y (i := k) (by omega)
      have hp := (nak_pivot h k (by omega)).2.ne'
      have : k + 1 = x.length - 2 := by omega
      have e1 : nakInner x y (k + 1) = nakElimD x y (k + 1) := by rw [this]; exact nakInner_last y
      rw [e1]
      apply mul_right_cancel₀ hp
      rw [e0] at h0
      linear_combination h0 - hD
    | succ j ih =>
      intro i hi h1
      obtain ⟨k, rfl⟩ : ∃ k, i = k + 1 := ⟨i - 1, by omega⟩
      have h0 := fwd k (by omega)
      have hC := nakElimC_mul h (i := k) (by omega)
      have hD := nakElimD_mul h y (i := k) (by omega)
      have hp := (nak_pivot h k (by omega)).2.ne'
      rw [nakInner_step y (i := k + 1) (by omega), ← ih (k + 1 + 1) (by omega) (by omega)]
      apply mul_right_cancel₀ hp
      linear_combination h0 - hD + N (k + 1 + 1) * hC
  intro i h1 h2
  exact bwd (x.length - 2 - i) i (by omega) h1

/-- What the second derivatives of the spline at the knots satisfy. -/
structure NakEqs (x y : List ℝ) (m : Nat → ℝ) : Prop where
  inner : ∀ i, i + 2 < x.length → gapAt x i * m i + 2 * (gapAt x i + gapAt x (i + 1)) * m (i + 1) + gapAt x (i + 1) * m (i + 2) =
    6 * ((ent y (i + 2) - ent y (i + 1)) / gapAt x (i + 1) - (ent y (i + 1) - ent y i) / gapAt x i)
  first : (m 1 - m 0) * gapAt x 1 = (m 2 - m 1) * gapAt x 0
  last : ∀ k, k + 3 = x.length → (m (k + 1) - m k) * gapAt x (k + 1) = (m (k + 2) - m (k + 1)) * gapAt x k

theorem nakMoment_inner {x : List ℝ} (y : List ℝ) {i : Nat} (h1 : 1 ≤ i) (h2 : i + 2 ≤ x.length) : nakMoment x y i = nakInner x y i := by
  unfold nakMoment
  rw [if_neg (by omega), if_neg (by omega)]

theorem nak_eqs {x : List ℝ} (h : Knots x) (y : List ℝ) : NakEqs x y (nakMoment x y) := by
  have h4 := h.four
  have f0 : nakMoment x y 0 * gapAt x 1 = (gapAt x 0 + gapAt x 1) * nakMoment x y 1 - gapAt x 0 * nakMoment x y 2 := by
    rw [nakMoment_inner y (i := 1) le_rfl (by omega), nakMoment_inner y (i := 2) (by omega) (by omega)]
    simp only [nakMoment, if_true]
    exact div_mul_cancel₀ _ (gap_pos h (by omega)).ne'
  have fl : ∀ k, k + 3 = x.length → nakMoment x y (k + 2) * gapAt x k = (gapAt x (k + 1) + gapAt x k) * nakMoment x y (k + 1) - gapAt x (k + 1) * nakMoment x y k := by
    intro k hk
    rw [nakMoment_inner y (i := k + 1) (by omega) (by omega), nakMoment_inner y (i := k) (by omega) (by omega)]
    simp only [nakMoment]
    rw [if_neg (by omega), if_pos (by omega)]
    simp only [Nat.add_sub_cancel, show k + 2 - 1 = k + 1 by omega]
    exact div_mul_cancel₀ _ (gap_pos h (by omega)).ne'
  refine ⟨?_, by linear_combination -f0, fun k hk => by linear_combination -(fl k hk)⟩
  intro i hi
  have hs := nak_solves h y (i := i + 1) (by omega) (by omega)
  have p0 := (gap_pos h (i := i) (by omega)).ne'
  have p1 := (gap_pos h (i := i + 1) (by omega)).ne'
  rw [Nat.add_sub_cancel] at hs
  have er : nakRhs x y (i + 1) = 6 * ((ent y (i + 2) - ent y (i + 1)) / gapAt x (i + 1) - (ent y (i + 1) - ent y i) / gapAt x i) := by
    simp [nakRhs]
  rw [← er, ← hs, nakMoment_inner y (i := i + 1) (by omega) (by omega)]
  unfold nakSub nakDiag nakSup
  simp only [Nat.add_sub_cancel, real_lit, Rat.cast_zero, Rat.cast_ofNat]
  by_cases e1 : i = 0
  · subst e1
    rw [nakMoment_inner y (i := 0 + 2) (by omega) (by omega)]
    have e2 : ¬ (0 + 1 + 2 = x.length) := by omega
    simp only [zero_add, if_true] at e2 ⊢
    rw [if_neg e2, if_neg e2]
    rw [nakMoment_inner y (i := 1) le_rfl (by omega), nakMoment_inner y (i := 2) (by omega) (by omega)] at f0
    have f0' : nakMoment x y 0 = ((gapAt x 0 + gapAt x 1) * nakInner x y 1 - gapAt x 0 * nakInner x y 2) / gapAt x 1 := by
      rw [eq_div_iff p1, f0]
    rw [f0']
    have p1' : gapAt x 1 ≠ 0 := p1
    field_simp
    ring
  · rw [nakMoment_inner y (i := i) (by omega) (by omega)]
    have e1' : ¬ (i + 1 = 1) := by omega
    by_cases e2 : i + 1 + 2 = x.length
    · simp only [if_neg e1', if_pos e2]
      have fl' := fl i (by omega)
      rw [nakMoment_inner y (i := i + 1) (by omega) (by omega), nakMoment_inner y (i := i) (by omega) (by omega)] at fl'
      have fl2 : nakMoment x y (i + 2) = ((gapAt x (i + 1) + gapAt x i) * nakInner x y (i + 1) - gapAt x (i + 1) * nakInner x y i) / gapAt x i := by
        rw [eq_div_iff p0, fl']
      rw [fl2]
      field_simp
      ring
    · simp only [if_neg e1', if_neg e2]
      rw [nakMoment_inner y (i := i + 2) (by omega) (by omega)]
      ring

theorem nak_eqs_only {x : List ℝ} (h : Knots x) {y : List ℝ} {m : Nat → ℝ} (hm : NakEqs x y m) : ∀ i, i < x.length → m i = nakMoment x y i := by
  have h4 := h.four
  have rows : ∀ i, 1 ≤ i → i + 2 ≤ x.length → nakSub x i * m (i - 1) + nakDiag x i * m i + nakSup x i * m (i + 1) = nakRhs x y i := by
    intro i h1 h2
    obtain ⟨k, rfl⟩ : ∃ k, i = k + 1 := ⟨i - 1, by omega⟩
    have p0 := (gap_pos h (i := k) (by omega)).ne'
    have p1 := (gap_pos h (i := k + 1) (by omega)).ne'
    have hi := hm.inner k (by omega)
    have er : nakRhs x y (k + 1) = 6 * ((ent y (k + 2) - ent y (k + 1)) / gapAt x (k + 1) - (ent y (k + 1) - ent y k) / gapAt x k) := by
      simp [nakRhs]
    rw [er, ← hi]
    unfold nakSub nakDiag nakSup
    simp only [Nat.add_sub_cancel, real_lit, Rat.cast_zero, Rat.cast_ofNat]
    by_cases e1 : k = 0
    · subst e1
      have e2 : ¬ (0 + 1 + 2 = x.length) := by omega
      simp only [zero_add, if_true] at e2 ⊢
      rw [if_neg e2, if_neg e2]
      have hf := hm.first
      have f0' : m 0 = ((gapAt x 0 + gapAt x 1) * m 1 - gapAt x 0 * m 2) / gapAt x 1 := by
        rw [eq_div_iff p1]
        linear_combination -hf
      rw [f0']
      have p1' : gapAt x 1 ≠ 0 := p1
      field_simp
      ring
    · have e1' : ¬ (k + 1 = 1) := by omega
      by_cases e2 : k + 1 + 2 = x.length
      · simp only [if_neg e1', if_pos e2]
        have hl := hm.last k (by omega)
        have fl2 : m (k + 2) = ((gapAt x (k + 1) + gapAt x k) * m (k + 1) - gapAt x (k + 1) * m k) / gapAt x k := by
          rw [eq_div_iff p0]
          linear_combination -hl
        rw [fl2]
        field_simp
        ring
      · simp only [if_neg e1', if_neg e2]
        ring
  have hin := nak_only h y m rows
  have heq := nak_eqs h y
  have hin' : ∀ i, 1 ≤ i → i + 2 ≤ x.length → m i = nakMoment x y i := by
    intro i h1 h2
    rw [hin i h1 h2, nakMoment_inner y h1 h2]
  intro i hi
  rcases Nat.eq_zero_or_pos i with e | e
  · subst e
    apply mul_right_cancel₀ (gap_pos h (i := 1) (by omega)).ne'
    have a1 := hin' 1 le_rfl (by omega)
    have a2 := hin' 2 (by omega) (by omega)
    have b := heq.first
    have c := hm.first
    rw [← a1, ← a2] at b
    linear_combination b - c
  · by_cases e2 : i + 2 ≤ x.length
    · exact hin' i e e2
    · obtain ⟨k, rfl⟩ : ∃ k, i = k + 2 := ⟨i - 2, by omega⟩
      have hk : k + 3 = x.length := by omega
      apply mul_right_cancel₀ (gap_pos h (i := k) (by omega)).ne'
      have a1 := hin' (k + 1) (by omega) (by omega)
      have a2 := hin' k (by omega) (by omega)
      have b := heq.last k hk
      have c := hm.last k hk
      rw [← a1, ← a2] at b
      linear_combination b - c

end KC
