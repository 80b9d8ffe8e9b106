import Verif.Model.Arith

/-! Unfolding lemmas for the arithmetic with special values. -/

namespace KC
namespace XR
@[simp] theorem mul_ff (a b : ℝ) : (fin a * fin b : XR) = fin (a * b) := rfl
@[simp] theorem add_ff (a b : ℝ) : (fin a + fin b : XR) = fin (a + b) := rfl
@[simp] theorem sub_ff (a b : ℝ) : (fin a - fin b : XR) = fin (a - b) := by
  show fin (a + -b) = fin (a - b); rw [sub_eq_add_neg]
@[simp] theorem neg_f (a : ℝ) : (-(fin a) : XR) = fin (-a) := rfl
theorem div_ff (a b : ℝ) : (fin a / fin b : XR) = if b = 0 then infMul a else fin (a / b) := rfl
theorem div_ff_of_ne {a b : ℝ} (h : b ≠ 0) : (fin a / fin b : XR) = fin (a / b) := by simp [div_ff, h]
@[simp] theorem div_fp (a : ℝ) : (fin a / pinf : XR) = fin 0 := rfl
@[simp] theorem div_fn (a : ℝ) : (fin a / nan : XR) = nan := rfl
@[simp] theorem mul_nan (a : XR) : (a * nan : XR) = nan := by cases a <;> rfl
@[simp] theorem nan_mul (a : XR) : (nan * a : XR) = nan := by cases a <;> rfl
@[simp] theorem nan_div (a : XR) : (nan / a : XR) = nan := by cases a <;> rfl
@[simp] theorem div_nan (a : XR) : (a / nan : XR) = nan := by cases a <;> rfl
@[simp] theorem nan_add (a : XR) : (nan + a : XR) = nan := by cases a <;> rfl
@[simp] theorem add_nan (a : XR) : (a + nan : XR) = nan := by cases a <;> rfl
@[simp] theorem mul_pp : (pinf * pinf : XR) = pinf := rfl
@[simp] theorem mul_fp (a : ℝ) : (fin a * pinf : XR) = infMul a := rfl
@[simp] theorem mul_pf (a : ℝ) : (pinf * fin a : XR) = infMul a := rfl
theorem infMul_pos {a : ℝ} (h : 0 < a) : infMul a = pinf := by simp [infMul, h]
@[simp] theorem infMul_zero : infMul 0 = nan := by simp [infMul]
@[simp] theorem infMul_one : infMul 1 = pinf := by simp [infMul]
@[simp] theorem lit_x (q : ℚ) : (lit q : XR) = fin (q : ℝ) := rfl
@[simp] theorem f32_x (x : XR) : f32 x = x := rfl
@[simp] theorem abs_f (a : ℝ) : (Arith.abs (fin a) : XR) = fin |a| := rfl
@[simp] theorem abs_p : (Arith.abs pinf : XR) = pinf := rfl
@[simp] theorem abs_n : (Arith.abs ninf : XR) = pinf := rfl
@[simp] theorem abs_nan : (Arith.abs nan : XR) = nan := rfl
theorem sqrt_f {a : ℝ} (h : 0 ≤ a) : (Arith.sqrt (fin a) : XR) = fin (Real.sqrt a) := by
  show (if a < 0 then nan else fin (Real.sqrt a)) = _
  simp [not_lt.mpr h]
@[simp] theorem sqrt_p : (Arith.sqrt pinf : XR) = pinf := rfl
@[simp] theorem ltb_ff (a b : ℝ) : (KC.ltb (fin a) (fin b) : Bool) = decide (a < b) := rfl
@[simp] theorem leb_ff (a b : ℝ) : (KC.leb (fin a) (fin b) : Bool) = decide (a ≤ b) := rfl
@[simp] theorem gtb_ff (a b : ℝ) : (KC.gtb (fin a) (fin b) : Bool) = decide (b < a) := rfl
@[simp] theorem ltb_nan (a : XR) : (KC.ltb a nan : Bool) = false := by cases a <;> rfl
@[simp] theorem nan_ltb (a : XR) : (KC.ltb nan a : Bool) = false := by cases a <;> rfl
@[simp] theorem ltb_fp (a : ℝ) : (KC.ltb (fin a) pinf : Bool) = true := rfl
@[simp] theorem ltb_pf (a : ℝ) : (KC.ltb pinf (fin a) : Bool) = false := rfl
@[simp] theorem ltb_pp : (KC.ltb pinf pinf : Bool) = false := rfl
@[simp] theorem ltb_fn (a : ℝ) : (KC.ltb (fin a) ninf : Bool) = false := rfl
@[simp] theorem ltb_pn : (KC.ltb pinf ninf : Bool) = false := rfl
@[simp] theorem ltb_nf (a : ℝ) : (KC.ltb ninf (fin a) : Bool) = true := rfl
@[simp] theorem leb_fp (a : ℝ) : (KC.leb (fin a) pinf : Bool) = true := rfl
@[simp] theorem gtb_pf (a : ℝ) : (KC.gtb pinf (fin a) : Bool) = true := rfl
@[simp] theorem gtb_nf (a : ℝ) : (KC.gtb ninf (fin a) : Bool) = false := rfl
@[simp] theorem gtb_nanf (a : XR) : (KC.gtb nan a : Bool) = false := by cases a <;> rfl
end XR
end KC
