import Verif.Props.Asinh
import Verif.Props.FloatMag

/-!
# Property C177: `sdss_asinh_to_maggies` in floating point
-/

namespace KC
open Spec

namespace Spec

/-- The size of the errors of an asinh magnitude with softening `b` at flux `f`: the flux itself where it is large, twice the softening where
it is small. -/
noncomputable def softened (b f : ℝ) : ℝ := Real.sqrt (f ^ 2 + (2 * b) ^ 2)

end Spec

/-! ### hyperbolic functions of nearby arguments -/

theorem exp_abs (d : ℝ) : Real.exp |d| = Real.cosh d + |Real.sinh d| := by
  rcases le_total 0 d with h | h
  · rw [abs_of_nonneg h, abs_of_nonneg (Real.sinh_nonneg_iff.mpr h), Real.cosh_add_sinh]
  · rw [abs_of_nonpos h, abs_of_nonpos (Real.sinh_nonpos_iff.mpr h), ← sub_eq_add_neg, Real.cosh_sub_sinh]

theorem exp_neg_abs (d : ℝ) : Real.exp (-|d|) = Real.cosh d - |Real.sinh d| := by
  rcases le_total 0 d with h | h
  · rw [abs_of_nonneg h, abs_of_nonneg (Real.sinh_nonneg_iff.mpr h), Real.cosh_sub_sinh]
  · rw [abs_of_nonpos h, abs_of_nonpos (Real.sinh_nonpos_iff.mpr h), neg_neg, sub_neg_eq_add, Real.cosh_add_sinh]

theorem abs_sinh_le_cosh (x : ℝ) : |Real.sinh x| ≤ Real.cosh x := by
  have := exp_neg_abs x
  have := Real.exp_pos (-|x|)
  linarith

theorem sinh_near (x y : ℝ) : |Real.sinh y - Real.sinh x| ≤ (Real.exp |y - x| - 1) * Real.cosh x := by
  have e : Real.sinh y - Real.sinh x = Real.sinh x * (Real.cosh (y - x) - 1) + Real.cosh x * Real.sinh (y - x) := by
    have : y = x + (y - x) := by ring
    conv_lhs => rw [this, Real.sinh_add]
    ring
  have h1 := abs_add_le (Real.sinh x * (Real.cosh (y - x) - 1)) (Real.cosh x * Real.sinh (y - x))
  have hc := Real.one_le_cosh (y - x)
  rw [abs_mul, abs_mul, abs_of_nonneg (show 0 ≤ Real.cosh (y - x) - 1 by linarith), abs_of_pos (Real.cosh_pos x)] at h1
  rw [e, exp_abs]
  have := mul_le_mul_of_nonneg_right (abs_sinh_le_cosh x) (show 0 ≤ Real.cosh (y - x) - 1 by linarith)
  linarith

theorem cosh_near (x y : ℝ) : Real.cosh x * Real.exp (-|y - x|) ≤ Real.cosh y ∧ Real.cosh y ≤ Real.cosh x * Real.exp |y - x| := by
  have e : Real.cosh y = Real.cosh x * Real.cosh (y - x) + Real.sinh x * Real.sinh (y - x) := by
    have : y = x + (y - x) := by ring
    conv_lhs => rw [this, Real.cosh_add]
  have h := abs_le.mp (show |Real.sinh x * Real.sinh (y - x)| ≤ Real.cosh x * |Real.sinh (y - x)| by
    rw [abs_mul]; exact mul_le_mul_of_nonneg_right (abs_sinh_le_cosh x) (abs_nonneg _))
  rw [exp_abs, exp_neg_abs, e]
  constructor <;> nlinarith [h.1, h.2]

theorem exp_om (k : Nat) : om ^ k ≤ Real.exp (-(k * uro 24)) := by
  have h : om ≤ Real.exp (-uro 24) := by
    have := Real.add_one_le_exp (-uro 24)
    unfold om; linarith
  calc om ^ k ≤ Real.exp (-uro 24) ^ k := pow_le_pow_left₀ om_pos.le h k
    _ = Real.exp (-(k * uro 24)) := by rw [← Real.exp_nat_mul]; ring_nf

/-- a factor between `e^-d` and `e^d` is within `k` roundings of 1 if `d` is at most `k` unit roundoffs -/
theorem near_of_exp {k : Nat} {x a t d : ℝ} (ha : a = x * t) (h1 : Real.exp (-d) ≤ t) (h2 : t ≤ Real.exp d) (hd : d ≤ k * uro 24) : Near k x a := by
  have h3 := exp_om k
  refine ⟨t, ha, ?_, ?_⟩
  · exact h3.trans ((Real.exp_le_exp.mpr (by linarith)).trans h1)
  · calc t * om ^ k ≤ Real.exp d * Real.exp (-(k * uro 24)) := mul_le_mul h2 h3 (om_pow_pos k).le (Real.exp_pos _).le
      _ = Real.exp (d - k * uro 24) := by rw [← Real.exp_add]; ring_nf
      _ ≤ 1 := Real.exp_le_one_iff.mpr (by linarith)

/-! ### the argument of `sinh` and `cosh` -/

theorem lit_ten : (lit 10 : Fl) = ⟨10, .weak⟩ := by simpa using lit_nat (n := 10) (by norm_num)

/-- `np.log(10.)` -/
theorem fl_log10 : (Arith.log (lit 10) : Fl) = ⟨rd 53 (Real.log 10), .f64⟩ := by rw [lit_ten]; rfl

theorem log_soft {b : ℝ} (h1 : 6e-11 ≤ b) (h2 : b ≤ 1e-9) : -23.6 ≤ Real.log b ∧ Real.log b ≤ 0 := by
  have hb : 0 < b := by linarith
  refine ⟨?_, Real.log_nonpos hb.le (by linarith)⟩
  have h : ((2 : ℝ) ^ 34)⁻¹ ≤ b := le_trans (by norm_num) h1
  have h3 := Real.log_le_log (by positivity) h
  rw [Real.log_inv, Real.log_pow] at h3
  have := Real.log_two_lt_d9
  push_cast at h3
  linarith

theorem log10_le : Real.log 10 ≤ 3 := by
  have h : Real.log 10 ≤ Real.log (2 ^ 4) := Real.log_le_log (by norm_num) (by norm_num)
  rw [Real.log_pow] at h
  have := Real.log_two_lt_d9
  push_cast at h
  linarith

theorem asinhArg_close {q : ℚ} {b : ℝ} (hq : (q : ℝ) = b) (h1 : 6e-11 ≤ b) (h2 : b ≤ 1e-9) {m : Fl} (nm : m.Num) (hm : |m.val| ≤ 10000) :
    (asinhArg (f32 (lit q)) m).Num ∧ |(asinhArg (f32 (lit q)) m).val - (-Real.log b - 0.4 * Real.log 10 * m.val)| ≤ 27 * uro 24 := by
  have hb : 0 < b := by linarith
  -- logarithm of the softening
  have nb := f32_num (lit q)
  have eb : Near 2 b (f32 (lit q) : Fl).val := by
    have := (near_rd (p := 53) (by norm_num) (q : ℝ)).trans (near_rd (p := 24) le_rfl (rd 53 (q : ℝ)))
    rw [hq] at this
    have e : (f32 (lit q) : Fl).val = rd 24 (rd 53 b) := by rw [← hq]; rfl
    rw [e]; exact this
  have hl := eb.log hb
  have nL : (Arith.log (f32 (lit q)) : Fl).Num := (op1_num nb Real.log).1
  have hL : |(Arith.log (f32 (lit q)) : Fl).val - Real.log (f32 (lit q) : Fl).val| ≤ uro 24 * |Real.log (f32 (lit q) : Fl).val| := rd_err 24 _
  obtain ⟨l1, l2⟩ := log_soft h1 h2
  -- 0.4 ln 10
  have hC : (lit 0.4 * Arith.log (lit 10) : Fl) = ⟨rd 53 (rd 53 (rd 53 ((0.4 : ℚ) : ℝ)) * rd 53 (rd 53 (Real.log 10))), .f64⟩ := by
    rw [fl_log10]; rfl
  have nC : (lit 0.4 * Arith.log (lit 10) : Fl).Num := by
    rw [hC]; exact ⟨rd_isFloat (by decide) _, by simp⟩
  have dP : ((lit 0.4 * Arith.log (lit 10) : Fl).dt.join m.dt).prec = 53 := by
    rw [hC]
    have := nm.2
    revert this
    cases m.dt <;> intro this <;> first | exact absurd rfl this | rfl
  have hP : (lit 0.4 * Arith.log (lit 10) * m : Fl).val = rd 53 ((lit 0.4 * Arith.log (lit 10) : Fl).val * m.val) := by
    rw [fl_mul (lit 0.4 * Arith.log (lit 10)), op2_val _ nC nm, dP]
  have nP : (lit 0.4 * Arith.log (lit 10) * m : Fl).Num := op2_num _ (Or.inl nC.2)
  have dP' : (lit 0.4 * Arith.log (lit 10) * m : Fl).dt = .f64 := by
    rw [dt_mul, hC]
    have := nm.2
    revert this
    cases m.dt <;> intro this <;> first | exact absurd rfl this | rfl
  obtain ⟨nn, vn⟩ := neg_num nL
  have nA : (asinhArg (f32 (lit q)) m).Num := op2_num _ (Or.inr nP.2)
  have hA : (asinhArg (f32 (lit q)) m).val = rd 53 (-(Arith.log (f32 (lit q)) : Fl).val - (lit 0.4 * Arith.log (lit 10) * m : Fl).val) := by
    unfold asinhArg
    have dj : ((-Arith.log (f32 (lit q)) : Fl).dt.join (lit 0.4 * Arith.log (lit 10) * m : Fl).dt).prec = 53 := by rw [dP']; rfl
    rw [fl_sub, op2_val _ nn nP, dj]
    rfl
  refine ⟨nA, ?_⟩
  have e0 := rd_err 53 ((0.4 : ℚ) : ℝ)
  have e1 := rd_err 53 (Real.log 10)
  have e2 := rd_err 53 (rd 53 ((0.4 : ℚ) : ℝ) * rd 53 (Real.log 10))
  rw [rd_rd (by norm_num), rd_rd (by norm_num)] at hC
  have e3 := rd_err 53 ((lit 0.4 * Arith.log (lit 10) : Fl).val * m.val)
  rw [← hP] at e3
  have e4 := rd_err 53 (-(Arith.log (f32 (lit q)) : Fl).val - (lit 0.4 * Arith.log (lit 10) * m : Fl).val)
  rw [← hA] at e4
  rw [show rd 53 (rd 53 ((0.4 : ℚ) : ℝ) * rd 53 (Real.log 10)) = (lit 0.4 * Arith.log (lit 10) : Fl).val by rw [hC]] at e2
  have hlt := log10_le
  have hlp := log10_pos'
  generalize (asinhArg (f32 (lit q)) m).val = A at *
  generalize (lit 0.4 * Arith.log (lit 10) * m : Fl).val = P at *
  generalize (lit 0.4 * Arith.log (lit 10) : Fl).val = C at *
  generalize (Arith.log (f32 (lit q)) : Fl).val = L at *
  generalize Real.log (f32 (lit q) : Fl).val = L' at *
  generalize Real.log b = lb at *
  generalize rd 53 (Real.log 10) = T at *
  generalize Real.log 10 = t at *
  generalize rd 53 ((0.4 : ℚ) : ℝ) = c at *
  generalize m.val = μ at *
  have hu : uro 24 = 1 / 2 ^ 24 := rfl
  have hv : uro 53 = 1 / 2 ^ 53 := rfl
  have hur : (0 : ℝ) < uro 24 := uro_pos 24
  norm_num at e0
  rw [hv] at e0 e1 e2 e3 e4
  rw [hu] at hl hL ⊢
  clear hA hP hC dP dP' nn vn nA nP nC nL nb eb
  rw [abs_of_pos hlp] at e1
  have a0 := abs_le.mp e0
  have a1 := abs_le.mp e1
  have c1 : 0.39 ≤ c := by linarith [a0.1]
  have c2 : c ≤ 0.41 := by linarith [a0.2]
  have T0 : 0 ≤ T := by nlinarith [a1.1]
  have T1 : T ≤ 3.01 := by nlinarith [a1.2]
  have cT0 : 0 ≤ c * T := by positivity
  have cT1 : c * T ≤ 1.3 := by nlinarith
  rw [abs_of_nonneg cT0] at e2
  have a2 := abs_le.mp e2
  have ct : |c * T - 2 / 5 * t| ≤ 2.6 / 2 ^ 53 := by
    have : c * T - 2 / 5 * t = (c - 2 / 5) * T + 2 / 5 * (T - t) := by ring
    rw [this, abs_le]
    constructor <;> nlinarith [a0.1, a0.2, a1.1, a1.2]
  have at' := abs_le.mp ct
  have Ct : |C - 2 / 5 * t| ≤ 4 / 2 ^ 53 := by
    rw [abs_le]; constructor <;> linarith [a2.1, a2.2, at'.1, at'.2]
  have C1 : |C| ≤ 1.4 := by rw [abs_le]; constructor <;> linarith [a2.1, a2.2]
  have Cμ : |C * μ| ≤ 1.4 * 10000 := by rw [abs_mul]; exact mul_le_mul C1 hm (abs_nonneg _) (by norm_num)
  have Dμ : |(C - 2 / 5 * t) * μ| ≤ 4 / 2 ^ 53 * 10000 := by rw [abs_mul]; exact mul_le_mul Ct hm (abs_nonneg _) (by norm_num)
  have b3 : |P - C * μ| ≤ 1 / 2 ^ 53 * (1.4 * 10000) := e3.trans (mul_le_mul_of_nonneg_left Cμ (by norm_num))
  have a3 := abs_le.mp b3
  have aC := abs_le.mp Cμ
  have aD := abs_le.mp Dμ
  have hl' : |L' - lb| ≤ 2.001 / 2 ^ 24 := hl.trans (by norm_num)
  have al := abs_le.mp hl'
  have L1 : |L'| ≤ 23.7 := by rw [abs_le]; constructor <;> linarith [al.1, al.2]
  have aL := abs_le.mp (hL.trans (mul_le_mul_of_nonneg_left L1 (by norm_num)))
  have L2 := abs_le.mp L1
  have S : |-L - P| ≤ 15000 := by rw [abs_le]; constructor <;> linarith [aL.1, aL.2, a3.1, a3.2, aC.1, aC.2, L2.1, L2.2]
  have a4 := abs_le.mp (e4.trans (mul_le_mul_of_nonneg_left S (by norm_num)))
  have key : A - (-lb - 0.4 * t * μ) = (A - (-L - P)) - (L - L') - (L' - lb) - (P - C * μ) - (C - 2 / 5 * t) * μ := by ring
  rw [key, abs_le]
  constructor <;> linarith [a4.1, a4.2, aL.1, aL.2, al.1, al.2, a3.1, a3.2, aD.1, aD.2]

theorem mul_lit_num {a : Fl} (ha : a.Num) (q : ℚ) : (a * lit q : Fl).Num ∧ Near 3 (a.val * q) (a * lit q : Fl).val := by
  have h := lit_mul_num q ha
  have e : (a * lit q : Fl) = lit q * a := by
    rw [fl_mul, fl_mul]
    unfold Fl.op2
    rw [show (lit q : Fl).dt = .weak from rfl]
    cases a.dt <;> simp [DT.join, mul_comm]
  rw [e, mul_comm]
  exact h

/-- the six numbers of the argument, its hyperbolic cosine within 27 roundings -/
theorem cosh_arg_near {x y : ℝ} (h : |y - x| ≤ 27 * uro 24) : Near 27 (Real.cosh x) (Real.cosh y) := by
  have hc := cosh_near x y
  have hp := Real.cosh_pos x
  refine near_of_exp (t := Real.cosh y / Real.cosh x) (d := |y - x|) (by field_simp) ?_ ?_ (by exact_mod_cast h)
  · rw [le_div_iff₀ hp]; linarith [hc.1]
  · rw [div_le_iff₀ hp]; linarith [hc.2]

/-- the stored ivar -/
theorem asinhIvar_near {q : ℚ} {b : ℝ} (hq : (q : ℝ) = b) (h1 : 6e-11 ≤ b) (h2 : b ≤ 1e-9) {m s : Fl} (nm : m.Num) (hm : |m.val| ≤ 10000) (ns : s.Num) :
    Near 83 (1 / (2 * b * Real.cosh (-Real.log b - 0.4 * Real.log 10 * m.val) * 0.4 * Real.log 10 * s.val) ^ 2) (asinhIvar (f32 (lit q)) m s).val := by
  obtain ⟨nA, hA⟩ := asinhArg_close hq h1 h2 nm hm
  have nb := f32_num (lit q)
  have eb : Near 2 b (f32 (lit q) : Fl).val := by
    have := (near_rd (p := 53) (by norm_num) (q : ℝ)).trans (near_rd (p := 24) le_rfl (rd 53 (q : ℝ)))
    rw [hq] at this
    have e : (f32 (lit q) : Fl).val = rd 24 (rd 53 b) := by rw [← hq]; rfl
    rw [e]; exact this
  obtain ⟨n1, e1⟩ := lit_mul_num 2 nb
  have f1 := ((Near.refl ((2 : ℚ) : ℝ)).mul eb).trans e1
  obtain ⟨n2, e2⟩ : (Arith.cosh (asinhArg (f32 (lit q)) m) : Fl).Num ∧ Near 1 (Real.cosh (asinhArg (f32 (lit q)) m).val) (Arith.cosh (asinhArg (f32 (lit q)) m) : Fl).val :=
    op1_num nA _
  have f2 := (cosh_arg_near hA).trans e2
  obtain ⟨n3, e3⟩ := mul_num n1 n2
  have f3 := (f1.mul f2).trans e3
  obtain ⟨n4, e4⟩ := mul_lit_num n3 0.4
  have f4 := (f3.mul (Near.refl ((0.4 : ℚ) : ℝ))).trans e4
  have nT : (Arith.log (lit 10) : Fl).Num := by rw [fl_log10]; exact ⟨rd_isFloat (by decide) _, by simp⟩
  have eT : Near 1 (Real.log 10) (Arith.log (lit 10) : Fl).val := by rw [fl_log10]; exact near_rd (by norm_num) _
  obtain ⟨n5, e5⟩ := mul_num n4 nT
  have f5 := (f4.mul eT).trans e5
  obtain ⟨n6, e6⟩ := mul_num n5 ns
  have f6 := (f5.mul (Near.refl s.val)).trans e6
  obtain ⟨n7, e7⟩ := mul_num n6 n6
  have f7 := (f6.mul f6).trans e7
  obtain ⟨n8, e8⟩ := one_div_num n7
  have f8 := ((Near.refl 1).div f7).trans e8
  have f9 := f8.trans (f32_near _)
  refine Near.mono (le_refl 83) ?_
  unfold asinhIvar
  convert f9 using 2
  push_cast
  ring

/-- the flux before extinction -/
theorem asinh_flux_close {q : ℚ} {b : ℝ} (hq : (q : ℝ) = b) (h1 : 6e-11 ≤ b) (h2 : b ≤ 1e-9) {m : Fl} (nm : m.Num) (hm : |m.val| ≤ 10000) :
    |(f32 (lit 2 * f32 (lit q) * Arith.sinh (asinhArg (f32 (lit q)) m)) : Fl).val - 2 * b * Real.sinh (-Real.log b - 0.4 * Real.log 10 * m.val)|
      ≤ 36 * uro 24 * (2 * b * Real.cosh (-Real.log b - 0.4 * Real.log 10 * m.val)) := by
  obtain ⟨nA, hA⟩ := asinhArg_close hq h1 h2 nm hm
  have hb : 0 < b := by linarith
  have nb := f32_num (lit q)
  have eb : Near 2 b (f32 (lit q) : Fl).val := by
    have := (near_rd (p := 53) (by norm_num) (q : ℝ)).trans (near_rd (p := 24) le_rfl (rd 53 (q : ℝ)))
    rw [hq] at this
    have e : (f32 (lit q) : Fl).val = rd 24 (rd 53 b) := by rw [← hq]; rfl
    rw [e]; exact this
  obtain ⟨n1, e1⟩ := lit_mul_num 2 nb
  have f1 := ((Near.refl ((2 : ℚ) : ℝ)).mul eb).trans e1
  obtain ⟨n2, e2⟩ : (Arith.sinh (asinhArg (f32 (lit q)) m) : Fl).Num ∧ Near 1 (Real.sinh (asinhArg (f32 (lit q)) m).val) (Arith.sinh (asinhArg (f32 (lit q)) m) : Fl).val :=
    op1_num nA _
  obtain ⟨n3, e3⟩ := mul_num n1 n2
  have f3 := ((f1.mul e2).trans e3).trans (f32_near _)
  have r3 := (f3.mono (show _ ≤ 8 by norm_num)).rel_small (by norm_num)
  generalize (f32 (lit 2 * f32 (lit q) * Arith.sinh (asinhArg (f32 (lit q)) m)) : Fl).val = g at *
  generalize (asinhArg (f32 (lit q)) m).val = y at *
  generalize -Real.log b - 0.4 * Real.log 10 * m.val = x at *
  have hs := sinh_near x y
  have hc := (cosh_near x y).2
  have hp := Real.cosh_pos x
  have hd : Real.exp |y - x| ≤ 1 + 27.01 * uro 24 := by
    have h0 := abs_nonneg (y - x)
    have hu : uro 24 = 1 / 2 ^ 24 := rfl
    have h27 : (27 : ℝ) * uro 24 < 1 := by rw [hu]; norm_num
    have := Real.exp_bound_div_one_sub_of_interval (x := 27 * uro 24) (by rw [hu]; norm_num) h27
    refine (Real.exp_le_exp.mpr hA).trans (this.trans ?_)
    rw [hu]; norm_num
  have hy : |Real.sinh y| ≤ 1.001 * Real.cosh x := by
    refine (abs_sinh_le_cosh y).trans (hc.trans ?_)
    have hu : uro 24 = 1 / 2 ^ 24 := rfl
    have : Real.exp |y - x| ≤ 1.001 := hd.trans (by rw [hu]; norm_num)
    nlinarith
  have hs' : |Real.sinh y - Real.sinh x| ≤ 27.01 * uro 24 * Real.cosh x :=
    hs.trans (mul_le_mul_of_nonneg_right (by linarith) hp.le)
  have hu0 : 0 < uro 24 := uro_pos 24
  push_cast at r3
  have e : g - 2 * b * Real.sinh x = (g - 2 * b * Real.sinh y) + 2 * b * (Real.sinh y - Real.sinh x) := by ring
  have t1 : |g - 2 * b * Real.sinh y| ≤ 1.01 * 8 * uro 24 * (2 * b * (1.001 * Real.cosh x)) := by
    refine r3.trans (mul_le_mul_of_nonneg_left ?_ (by positivity))
    rw [abs_mul, abs_of_pos (by positivity : 0 < 2 * b)]
    exact mul_le_mul_of_nonneg_left hy (by positivity)
  have t2 : |2 * b * (Real.sinh y - Real.sinh x)| ≤ 2 * b * (27.01 * uro 24 * Real.cosh x) := by
    rw [abs_mul, abs_of_pos (by positivity : 0 < 2 * b)]
    exact mul_le_mul_of_nonneg_left hs' (by positivity)
  rw [e]
  refine (abs_add_le _ _).trans ((add_le_add t1 t2).trans ?_)
  have : 0 < b * uro 24 * Real.cosh x := by positivity
  nlinarith

/-- the extinction factor within 30 roundings, for at most 10 magnitudes -/
theorem ext_factor {e : Fl} (ne : e.Num) (he : |e.val| ≤ 10) : (pow10 (lit 0.4 * e) : Fl).Num ∧ Near 30 ((10 : ℝ) ^ (0.4 * e.val)) (pow10 (lit 0.4 * e) : Fl).val := by
  obtain ⟨n1, e1⟩ := lit_mul_num 0.4 ne
  obtain ⟨n2, e2⟩ := pow10_num n1
  refine ⟨n2, ?_⟩
  have r1 := e1.rel_small (by norm_num)
  have c4 : (((0.4 : ℚ) : ℝ)) = 0.4 := by norm_num
  rw [c4] at r1
  generalize (lit 0.4 * e : Fl).val = p at *
  have hd : |p - 0.4 * e.val| ≤ 12.2 * uro 24 := by
    refine r1.trans ?_
    rw [abs_mul, abs_of_pos (by norm_num : (0 : ℝ) < 0.4)]
    have := uro_pos 24
    push_cast
    nlinarith
  have hn : Near 29 ((10 : ℝ) ^ (0.4 * e.val)) ((10 : ℝ) ^ p) := by
    have hl : |Real.log 10 * (p - 0.4 * e.val)| ≤ (29 : ℕ) * uro 24 := by
      rw [abs_mul, abs_of_pos log10_pos']
      have hlog : Real.log 10 ≤ 2.311 := by
        have h : Real.log (10 ^ 3) ≤ Real.log (2 ^ 10) := Real.log_le_log (by norm_num) (by norm_num)
        rw [Real.log_pow, Real.log_pow] at h
        have := Real.log_two_lt_d9
        push_cast at h
        linarith
      have := uro_pos 24
      push_cast
      nlinarith [abs_nonneg (p - 0.4 * e.val), log10_pos']
    refine near_of_exp (t := Real.exp (Real.log 10 * (p - 0.4 * e.val))) (d := |Real.log 10 * (p - 0.4 * e.val)|) ?_ ?_ ?_ hl
    · rw [Real.rpow_def_of_pos (by norm_num), Real.rpow_def_of_pos (by norm_num), ← Real.exp_add]; ring_nf
    · exact Real.exp_le_exp.mpr (neg_abs_le _)
    · exact Real.exp_le_exp.mpr (le_abs_self _)
  exact hn.trans e2

/-! ### the function -/

theorem asinhB_fl (k : Fin 5) : ∃ q : ℚ, (asinhB (α := Fl))[(k : Nat)]? = some (f32 (lit q)) ∧ (q : ℝ) = sdssB k := by
  fin_cases k
  · exact ⟨1.4e-10, rfl, by simp [sdssB]⟩
  · exact ⟨0.9e-10, rfl, by simp [sdssB]⟩
  · exact ⟨1.2e-10, rfl, by simp [sdssB]⟩
  · exact ⟨1.8e-10, rfl, by simp [sdssB]⟩
  · exact ⟨7.4e-10, rfl, by simp [sdssB]⟩

theorem sdssB_range (k : Fin 5) : 6e-11 ≤ sdssB k ∧ sdssB k ≤ 1e-9 := by
  fin_cases k <;> simp [sdssB] <;> norm_num

/-- the flux of an asinh magnitude, and its softened size, by hyperbolic functions -/
theorem flux_of_asinhMag {b F μ : ℝ} (hb : 0 < b) (h : asinhMag b F = μ) :
    F = 2 * b * Real.sinh (-Real.log b - 0.4 * Real.log 10 * μ) ∧ softened b F = 2 * b * Real.cosh (-Real.log b - 0.4 * Real.log 10 * μ) := by
  have hl := log10_pos'
  have hx : -Real.log b - 0.4 * Real.log 10 * μ = Real.arsinh (F / (2 * b)) := by
    rw [← h, asinhMag]
    field_simp
    ring
  rw [hx, Real.sinh_arsinh, Real.cosh_arsinh]
  refine ⟨by field_simp, ?_⟩
  rw [softened, ← Real.sqrt_sq (by positivity : 0 ≤ 2 * b), ← Real.sqrt_mul (sq_nonneg _), Real.sqrt_sq (by positivity : 0 ≤ 2 * b)]
  congr 1
  field_simp
  ring

theorem mul_weak_one {a : Fl} (ha : a.Num) : a * ⟨1, .weak⟩ = a := by
  rw [fl_mul]
  unfold Fl.op2
  have hd : a.dt.join .weak = a.dt := by
    have := ha.2
    revert this
    cases a.dt <;> simp [DT.join]
  have hp : 0 < a.dt.prec := by cases a.dt <;> decide
  have h1 : rd a.dt.prec 1 = 1 := by
    refine rd_float ?_
    have : (1 : ℕ) < 2 ^ a.dt.prec := by cases a.dt <;> decide
    simpa using isFloat_nat (n := 1) this.le hp
  simp only [hd, h1, mul_one, rd_float ha.1]

/-- **C177, maggies.** The maggies returned for an asinh magnitude differ from the flux `F` that has exactly this magnitude by at most 36
roundings of a single-precision number of size `sqrt(F² + 4b²)`: a relative error for bright objects and a fixed small fraction of the
softening for faint and negative ones.  With an extinction of at most 10 magnitudes, 69 of them. -/
theorem C177_maggies (mg : NDA Fl) (err ext : Option (NDA Fl)) (hm : mg.WF) (h5 : lastAxis mg 5)
    (he : ∀ e ∈ err, e.WF ∧ e.shape = mg.shape) (hx : ∀ e ∈ ext, e.WF ∧ e.shape = mg.shape) :
    ∃ out, asinhToMaggies mg err ext = .ok out ∧ out.maggies.shape = mg.shape ∧
      ∀ r (k : Fin 5) m F, entry mg r k = some m → |(f32 m).val| ≤ 10000 → asinhMag (sdssB k) F = (f32 m).val →
        (ext = none → ∃ f, entry out.maggies r k = some f ∧ |f.val - F| ≤ 36 * uro 24 * softened (sdssB k) F) ∧
        (∀ ea e, ext = some ea → entry ea r k = some e → |(f32 e).val| ≤ 10 →
          ∃ f, entry out.maggies r k = some f ∧
            |f.val - F * (10 : ℝ) ^ (0.4 * (f32 e).val)| ≤ 69 * uro 24 * (softened (sdssB k) F * (10 : ℝ) ^ (0.4 * (f32 e).val))) := by
  obtain ⟨out, h1, h2, -, h3, -⟩ := asinh_entry mg err ext hm h5 he hx
  refine ⟨out, h1, h2, ?_⟩
  intro r k m F hmk hμ hF
  obtain ⟨q, hq, hqb⟩ := asinhB_fl k
  obtain ⟨b1, b2⟩ := sdssB_range k
  have hb := sdssB_pos k
  obtain ⟨eF, eS⟩ := flux_of_asinhMag hb hF
  have hc := asinh_flux_close hqb b1 b2 (f32_num m) hμ
  rw [← eF, ← eS] at hc
  have h := h3 r k
  rw [hmk, hq] at h
  have nG := f32_num (lit 2 * f32 (lit q) * Arith.sinh (asinhArg (f32 (lit q)) (f32 m)))
  have hdt : (f32 (lit 2 * f32 (lit q) * Arith.sinh (asinhArg (f32 (lit q)) (f32 m))) : Fl).dt = .f32 := rfl
  refine ⟨?_, ?_⟩
  · rintro rfl
    have hz : (pow10 (lit 0.4 * lit 0) : Fl) = ⟨1, .weak⟩ := by
      have h0 : (lit 0 : Fl) = ⟨0, .weak⟩ := by simpa using lit_nat (n := 0) (by norm_num)
      have h1 : (lit 0.4 * lit 0 : Fl) = ⟨0, .weak⟩ := by
        rw [h0, fl_mul]
        show (⟨rd 53 (rd 53 _ * rd 53 0), .weak⟩ : Fl) = _
        simp
      rw [h1]
      show (⟨rd 53 ((10 : ℝ) ^ (0 : ℝ)), .weak⟩ : Fl) = _
      rw [Real.rpow_zero, rd_float (by simpa using isFloat_nat (p := 53) (n := 1) (by norm_num) (by norm_num))]
    refine ⟨_, h, ?_⟩
    simp only [asinhFlux, hz, mul_weak_one nG, f32_of_f32 nG hdt, Option.isSome_none, Bool.false_eq_true, if_false]
    exact hc
  · rintro ea e rfl hek hle
    have hee : extEntry (some ea) r k = some e := hek
    rw [hee] at h
    refine ⟨_, h, ?_⟩
    simp only [asinhFlux, Option.isSome_some, if_true]
    obtain ⟨n1, e1⟩ := ext_factor (f32_num e) hle
    obtain ⟨n2, e2⟩ := mul_num nG n1
    have f2 := (((Near.refl _).mul e1).trans e2).trans (f32_near _)
    have r2 := f2.rel (by norm_num [uro])
    generalize (f32 (f32 (lit 2 * f32 (lit q) * Arith.sinh (asinhArg (f32 (lit q)) (f32 m))) * pow10 (lit 0.4 * f32 e)) : Fl).val = f at *
    generalize (f32 (lit 2 * f32 (lit q) * Arith.sinh (asinhArg (f32 (lit q)) (f32 m))) : Fl).val = g at *
    have hE : 0 < (10 : ℝ) ^ (0.4 * (f32 e).val) := Real.rpow_pos_of_pos (by norm_num) _
    generalize (10 : ℝ) ^ (0.4 * (f32 e).val) = E at *
    have hFS : |F| ≤ softened (sdssB k) F := by
      rw [eS]
      conv_lhs => rw [eF]
      rw [abs_mul, abs_of_pos (by positivity : 0 < 2 * sdssB k)]
      exact mul_le_mul_of_nonneg_left (abs_sinh_le_cosh _) (by positivity)
    generalize softened (sdssB k) F = S at *
    have hS := (abs_nonneg F).trans hFS
    have hu : uro 24 = 1 / 2 ^ 24 := rfl
    rw [hu] at hc r2 ⊢
    have hg : |g| ≤ 1.001 * S := by
      have := abs_le.mp hc
      have := abs_le.mp hFS
      rw [abs_le]; constructor <;> linarith
    rw [abs_mul, abs_of_pos hE] at r2
    have r3 : |f - g * E| ≤ 32.9 / 2 ^ 24 * (S * E) := by
      refine r2.trans ?_
      have : |g| * E ≤ 1.001 * S * E := mul_le_mul_of_nonneg_right hg hE.le
      have hSE : 0 ≤ S * E := by positivity
      norm_num at this ⊢
      nlinarith
    have r4 : |(g - F) * E| ≤ 36 / 2 ^ 24 * (S * E) := by
      rw [abs_mul, abs_of_pos hE]
      have := mul_le_mul_of_nonneg_right hc hE.le
      linarith
    have : f - F * E = (f - g * E) + (g - F) * E := by ring
    rw [this]
    refine (abs_add_le _ _).trans ((add_le_add r3 r4).trans ?_)
    have hSE : 0 ≤ S * E := by positivity
    linarith

/-- every magnitude is that of some flux: the hypothesis of the theorem on `F` holds of exactly one number -/
theorem asinhMag_flux (b μ : ℝ) (hb : 0 < b) : asinhMag b (2 * b * Real.sinh (-Real.log b - 0.4 * Real.log 10 * μ)) = μ := by
  have hl := log10_pos'
  have : 2 * b * Real.sinh (-Real.log b - 0.4 * Real.log 10 * μ) / (2 * b) = Real.sinh (-Real.log b - 0.4 * Real.log 10 * μ) := by field_simp
  rw [asinhMag, this, Real.arsinh_sinh]
  field_simp
  ring

/-- the hypotheses for a galaxy of magnitude 20 in the five bands, given in double precision -/
example : let mg := NDA.vec [⟨20, .f64⟩, ⟨20, .f64⟩, ⟨20, .f64⟩, ⟨20, .f64⟩, (⟨20, .f64⟩ : Fl)]
    mg.WF ∧ lastAxis mg 5 ∧ entry mg 0 1 = some ⟨20, .f64⟩ ∧ |(f32 (⟨20, .f64⟩ : Fl)).val| ≤ 10000 ∧
      ∃ F, asinhMag (sdssB 1) F = (f32 (⟨20, .f64⟩ : Fl)).val := by
  have h : (f32 (⟨20, .f64⟩ : Fl)).val = 20 := by
    show rd 24 20 = 20
    exact rd_float (by simpa using isFloat_nat (p := 24) (n := 20) (by norm_num) (by norm_num))
  refine ⟨by simp [NDA.vec, NDA.WF], by simp [lastAxis, NDA.vec, NDA.shape], by simp [NDA.vec, entry], ?_, ?_⟩
  · rw [h]; norm_num
  · exact ⟨_, asinhMag_flux _ _ (sdssB_pos 1)⟩

/-- **C177, inverse variances.** The stored inverse variance times the exact variance is 1 to within 84 roundings, whatever the extinction
(which is not applied to it, C13). -/
theorem C177_ivar (mg err : NDA Fl) (ext : Option (NDA Fl)) (hm : mg.WF) (h5 : lastAxis mg 5)
    (he : err.WF ∧ err.shape = mg.shape) (hx : ∀ e ∈ ext, e.WF ∧ e.shape = mg.shape) :
    ∃ out w, asinhToMaggies mg (some err) ext = .ok out ∧ out.ivar = some w ∧ w.shape = mg.shape ∧
      ∀ r (k : Fin 5) m s F, entry mg r k = some m → entry err r k = some s → |(f32 m).val| ≤ 10000 → (f32 s).val ≠ 0 →
        asinhMag (sdssB k) F = (f32 m).val →
        ∃ v, entry w r k = some v ∧ |v.val * (0.4 * Real.log 10 * softened (sdssB k) F * (f32 s).val) ^ 2 - 1| ≤ 84 * uro 24 := by
  obtain ⟨out, h1, -, -, -, -, h3⟩ := asinh_entry mg (some err) ext hm h5 (by rintro _ ⟨⟩; exact he) hx
  obtain ⟨w, h4, h6, -, h7⟩ := h3 err rfl
  refine ⟨out, w, h1, h4, h6, ?_⟩
  intro r k m s F hmk hsk hμ hs hF
  obtain ⟨q, hq, hqb⟩ := asinhB_fl k
  obtain ⟨b1, b2⟩ := sdssB_range k
  have hb := sdssB_pos k
  obtain ⟨-, eS⟩ := flux_of_asinhMag hb hF
  have h := h7 r k
  rw [hmk, hsk, hq] at h
  refine ⟨_, h, ?_⟩
  have hn := asinhIvar_near hqb b1 b2 (f32_num m) hμ (f32_num s)
  rw [← eS] at hn
  have hS : 0 < softened (sdssB k) F := by rw [eS]; have := Real.cosh_pos (-Real.log (sdssB k) - 0.4 * Real.log 10 * (f32 m).val); positivity
  have hl := log10_pos'
  have hD : 0 < (0.4 * Real.log 10 * softened (sdssB k) F * (f32 s).val) ^ 2 := by positivity
  have r := hn.rel (by norm_num [uro])
  have e : (softened (sdssB k) F * 0.4 * Real.log 10 * (f32 s).val) ^ 2 = (0.4 * Real.log 10 * softened (sdssB k) F * (f32 s).val) ^ 2 := by ring
  rw [e] at r
  generalize (0.4 * Real.log 10 * softened (sdssB k) F * (f32 s).val) ^ 2 = D at *
  generalize (asinhIvar (f32 (lit q)) (f32 m) (f32 s)).val = v at *
  have : v * D - 1 = (v - 1 / D) * D := by field_simp
  rw [this, abs_mul, abs_of_pos hD]
  rw [abs_of_pos (by positivity : 0 < 1 / D)] at r
  refine (mul_le_mul_of_nonneg_right r hD.le).trans ?_
  rw [mul_assoc, one_div, inv_mul_cancel₀ hD.ne', mul_one]
  norm_num [uro]

end KC
