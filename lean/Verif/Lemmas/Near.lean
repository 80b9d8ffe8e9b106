import Verif.Lemmas.Float
import Mathlib.Analysis.SpecialFunctions.Pow.Real
import Mathlib.Analysis.SpecialFunctions.Log.Deriv
import Mathlib.Analysis.Complex.ExponentialBounds

/-!
# Relative rounding errors

`Near k x a`: `a` differs from `x` by at most `k` relative rounding errors of float32.
-/

namespace KC

/-- one minus the unit roundoff of float32, `1 - 2^-24` -/
noncomputable def om : ℝ := 1 - uro 24

theorem om_pos : 0 < om := by
  unfold om uro
  norm_num

theorem om_lt_one : om < 1 := by
  unfold om uro
  norm_num

theorem om_pow_pos (k : Nat) : 0 < om ^ k := pow_pos om_pos k

theorem om_pow_le_one (k : Nat) : om ^ k ≤ 1 := pow_le_one₀ om_pos.le om_lt_one.le

/-- `a = x t` with `(1-u)^k ≤ t ≤ (1-u)^-k`, `u = 2^-24`. -/
def Near (k : Nat) (x a : ℝ) : Prop := ∃ t, a = x * t ∧ om ^ k ≤ t ∧ t * om ^ k ≤ 1

theorem Near.refl (x : ℝ) : Near 0 x x := ⟨1, by simp, by simp, by simp⟩

theorem Near.t_pos {k : Nat} {t : ℝ} (h : om ^ k ≤ t) : 0 < t := lt_of_lt_of_le (om_pow_pos k) h

theorem Near.mono {j k : Nat} (hjk : j ≤ k) {x a : ℝ} (h : Near j x a) : Near k x a := by
  obtain ⟨t, rfl, h1, h2⟩ := h
  have hp : om ^ k ≤ om ^ j := pow_le_pow_of_le_one om_pos.le om_lt_one.le hjk
  refine ⟨t, rfl, hp.trans h1, ?_⟩
  have := Near.t_pos h1
  nlinarith

theorem Near.trans {j k : Nat} {x a b : ℝ} (h : Near j x a) (h' : Near k a b) : Near (j + k) x b := by
  obtain ⟨t, rfl, h1, h2⟩ := h
  obtain ⟨s, rfl, h3, h4⟩ := h'
  have ht := Near.t_pos h1
  have hs := Near.t_pos h3
  refine ⟨t * s, by ring, ?_, ?_⟩
  · rw [pow_add]
    exact mul_le_mul h1 h3 (om_pow_pos k).le ht.le
  · rw [pow_add]
    calc t * s * (om ^ j * om ^ k) = (t * om ^ j) * (s * om ^ k) := by ring
      _ ≤ 1 * 1 := mul_le_mul h2 h4 (by have := om_pow_pos k; positivity) zero_le_one
      _ = 1 := by ring

theorem Near.symm {k : Nat} {x a : ℝ} (h : Near k x a) : Near k a x := by
  obtain ⟨t, rfl, h1, h2⟩ := h
  have ht := Near.t_pos h1
  refine ⟨1 / t, by field_simp, ?_, ?_⟩
  · rw [le_div_iff₀ ht]; linarith
  · rw [div_mul_eq_mul_div, div_le_one ht]; linarith

theorem Near.mul {j k : Nat} {x a y b : ℝ} (h : Near j x a) (h' : Near k y b) : Near (j + k) (x * y) (a * b) := by
  obtain ⟨t, rfl, h1, h2⟩ := h
  obtain ⟨s, rfl, h3, h4⟩ := h'
  have ht := Near.t_pos h1
  have hs := Near.t_pos h3
  refine ⟨t * s, by ring, ?_, ?_⟩
  · rw [pow_add]
    exact mul_le_mul h1 h3 (om_pow_pos k).le ht.le
  · rw [pow_add]
    calc t * s * (om ^ j * om ^ k) = (t * om ^ j) * (s * om ^ k) := by ring
      _ ≤ 1 * 1 := mul_le_mul h2 h4 (by have := om_pow_pos k; positivity) zero_le_one
      _ = 1 := by ring

theorem Near.inv {k : Nat} {x a : ℝ} (h : Near k x a) : Near k x⁻¹ a⁻¹ := by
  obtain ⟨t, rfl, h1, h2⟩ := h
  have ht := Near.t_pos h1
  refine ⟨t⁻¹, by rw [mul_inv], ?_, ?_⟩
  · rw [inv_eq_one_div, le_div_iff₀ ht]; linarith
  · rw [inv_mul_le_iff₀ ht]; linarith

theorem Near.div {j k : Nat} {x a y b : ℝ} (h : Near j x a) (h' : Near k y b) : Near (j + k) (x / y) (a / b) := by
  rw [div_eq_mul_inv, div_eq_mul_inv]
  exact h.mul h'.inv

theorem Near.neg {k : Nat} {x a : ℝ} (h : Near k x a) : Near k (-x) (-a) := by
  obtain ⟨t, rfl, h1, h2⟩ := h
  exact ⟨t, by ring, h1, h2⟩

theorem Near.abs {k : Nat} {x a : ℝ} (h : Near k x a) : Near k |x| |a| := by
  obtain ⟨t, rfl, h1, h2⟩ := h
  exact ⟨t, by rw [abs_mul, abs_of_pos (Near.t_pos h1)], h1, h2⟩

theorem Near.sqrt {k : Nat} {x a : ℝ} (h : Near (2 * k) x a) : Near k (Real.sqrt x) (Real.sqrt a) := by
  obtain ⟨t, rfl, h1, h2⟩ := h
  have ht := Near.t_pos h1
  have hk := om_pow_pos k
  refine ⟨Real.sqrt t, by rw [Real.sqrt_mul' _ ht.le], ?_, ?_⟩
  · rw [Real.le_sqrt hk.le ht.le, ← pow_mul, mul_comm]; exact h1
  · have : Real.sqrt t ≤ 1 / om ^ k := by
      rw [Real.sqrt_le_left (by positivity), div_pow, one_pow, ← pow_mul, mul_comm k 2, le_div_iff₀ (om_pow_pos _)]
      exact h2
    calc Real.sqrt t * om ^ k ≤ 1 / om ^ k * om ^ k := by gcongr
      _ = 1 := by field_simp

/-- sums of terms of one sign -/
theorem Near.add {k : Nat} {x a y b : ℝ} (hx : 0 ≤ x) (hy : 0 ≤ y) (h : Near k x a) (h' : Near k y b) : Near k (x + y) (a + b) := by
  obtain ⟨t, rfl, h1, h2⟩ := h
  obtain ⟨s, rfl, h3, h4⟩ := h'
  by_cases h0 : x + y = 0
  · have e1 : x = 0 := by linarith
    have e2 : y = 0 := by linarith
    subst e1; subst e2
    exact ⟨1, by simp, om_pow_le_one k, by simpa using om_pow_le_one k⟩
  · have hp : 0 < x + y := lt_of_le_of_ne (by linarith) (Ne.symm h0)
    refine ⟨(x * t + y * s) / (x + y), by field_simp, ?_, ?_⟩
    · rw [le_div_iff₀ hp]
      nlinarith
    · rw [div_mul_eq_mul_div, div_le_one hp]
      nlinarith

/-- zero is only near zero -/
theorem near_zero {k : Nat} {a : ℝ} : Near k 0 a ↔ a = 0 := by
  constructor
  · rintro ⟨t, rfl, _⟩; simp
  · rintro rfl; exact ⟨1, by simp, om_pow_le_one k, by simpa using om_pow_le_one k⟩

theorem Near.nonneg {k : Nat} {x a : ℝ} (h : Near k x a) (hx : 0 ≤ x) : 0 ≤ a := by
  obtain ⟨t, rfl, h1, _⟩ := h
  have := Near.t_pos h1
  positivity

theorem Near.pos {k : Nat} {x a : ℝ} (h : Near k x a) (hx : 0 < x) : 0 < a := by
  obtain ⟨t, rfl, h1, _⟩ := h
  have := Near.t_pos h1
  positivity

theorem Near.pos_iff {k : Nat} {x a : ℝ} (h : Near k x a) : 0 < x ↔ 0 < a := ⟨h.pos, h.symm.pos⟩

/-- bounds for a positive number -/
theorem Near.bounds {k : Nat} {x a : ℝ} (h : Near k x a) (hx : 0 ≤ x) : x * om ^ k ≤ a ∧ a * om ^ k ≤ x := by
  obtain ⟨t, rfl, h1, h2⟩ := h
  constructor
  · exact mul_le_mul_of_nonneg_left h1 hx
  · calc x * t * om ^ k = x * (t * om ^ k) := by ring
      _ ≤ x * 1 := mul_le_mul_of_nonneg_left h2 hx
      _ = x := mul_one x

theorem uro_mono {p : Nat} (hp : 24 ≤ p) : uro p ≤ uro 24 := by
  unfold uro
  exact one_div_le_one_div_of_le (by positivity) (pow_le_pow_right₀ (by norm_num) hp)

/-- One rounding. -/
theorem near_rd {p : Nat} (hp : 24 ≤ p) (x : ℝ) : Near 1 x (rd p x) := by
  by_cases hx : x = 0
  · subst hx
    rw [rd_zero, near_zero]
  have he := (rd_err p x).trans (mul_le_mul_of_nonneg_right (uro_mono hp) (abs_nonneg x))
  set d := (rd p x - x) / x with hd
  have hdd : |d| ≤ uro 24 := by
    rw [hd, abs_div, div_le_iff₀ (abs_pos.mpr hx)]
    exact he
  have hb := abs_le.mp hdd
  refine ⟨1 + d, ?_, ?_, ?_⟩
  · rw [hd]; field_simp; ring
  · rw [pow_one, om]; linarith
  · rw [pow_one, om]
    have : (1 + d) ≤ 1 + uro 24 := by linarith
    have hu := uro_le_one 24
    have hu' := uro_pos 24
    nlinarith

/-- The relative error that `k` roundings make: `k u / (1 - k u)`, `u = 2^-24`. -/
theorem Near.rel {k : Nat} (hk : k * uro 24 < 1) {x a : ℝ} (h : Near k x a) : |a - x| ≤ k * uro 24 / (1 - k * uro 24) * |x| := by
  obtain ⟨t, rfl, h1, h2⟩ := h
  have hb : 1 - k * uro 24 ≤ om ^ k := by
    have := one_add_mul_le_pow (a := -uro 24) (by have := uro_le_one 24; linarith) k
    unfold om
    have e : (1 : ℝ) - uro 24 = 1 + -uro 24 := by ring
    rw [e]
    linarith
  have hpos : 0 < 1 - k * uro 24 := by linarith
  have ht := Near.t_pos h1
  set w := (k : ℝ) * uro 24 with hw
  have hw0 : 0 ≤ w := by have := uro_pos 24; positivity
  have hup : t ≤ 1 / (1 - w) := by
    rw [le_div_iff₀ hpos]
    nlinarith
  have e : x * t - x = x * (t - 1) := by ring
  rw [e, abs_mul, mul_comm]
  refine mul_le_mul_of_nonneg_right ?_ (abs_nonneg x)
  rw [abs_le]
  constructor
  · have : w ≤ w / (1 - w) := by
      rw [le_div_iff₀ hpos]
      nlinarith
    linarith
  · have : w / (1 - w) = 1 / (1 - w) - 1 := by field_simp; ring
    rw [this]
    linarith

end KC
