import Verif.Lemmas.Ieee
import Verif.Props.Ieee
import Verif.Props.FloatUtils
import Verif.Props.ToAb

/-!
# C145: missing asinh magnitudes (-9999) in IEEE-754 arithmetic
-/

namespace KC
open Spec

theorem inR_zero : InR 0 := Or.inl rfl

theorem inR_neg {x : ℝ} : InR (-x) ↔ InR x := by simp [InR]

theorem rdIe_zero (d : DT) : rdIe d 0 = .fin 0 := by rw [rdIe_inR d inR_zero, rd_zero]

/-- Python number `op` numpy number -/
theorem ie_op2_weak {f : XR → XR → XR} {a b : Ie} {x y z : ℝ} (hv : a.v = .fin x) (hd : a.dt = .weak) (hx : InR x) (hb : IeNum b y)
    (hf : f (.fin (rd b.dt.prec x)) (.fin y) = .fin z) (hz : InR z) : IeNum (Ie.op2 f a b) (rd b.dt.prec z) ∧ (Ie.op2 f a b).dt = b.dt := by
  have hj : a.dt.join b.dt = b.dt := by rw [hd]; rfl
  have hp : 0 < b.dt.prec := by have := b.dt.prec_ge; omega
  refine ⟨⟨?_, ?_, ?_, hz.rd hp⟩, hj⟩
  · show (f (a.v.round (a.dt.join b.dt)) (b.v.round (a.dt.join b.dt))).round (a.dt.join b.dt) = _
    rw [hj, hv, hb.conv le_rfl]
    show (f (rdIe b.dt x) _).round _ = _
    rw [rdIe_inR _ hx, hf]
    exact rdIe_inR _ hz
  · show a.dt.join b.dt ≠ _
    rw [hj]; exact hb.dt
  · show IsFloat (a.dt.join b.dt).prec _
    rw [hj]; exact rd_isFloat hp _

/-- a numpy function with a value in the normal range -/
theorem ie_op1 {f : XR → XR} {a : Ie} {x : ℝ} (hf : f a.v = .fin x) (hx : InR x) :
    IeNum (Ie.op1 f a) (rd a.dt.np.prec x) ∧ (Ie.op1 f a).dt = a.dt.np := by
  have hp : 0 < a.dt.np.prec := by have := a.dt.np.prec_ge; omega
  refine ⟨⟨?_, ?_, rd_isFloat hp _, hx.rd hp⟩, rfl⟩
  · show (f a.v).round _ = _
    rw [hf]; exact rdIe_inR _ hx
  · show a.dt.np ≠ _
    cases a.dt <;> simp [DT.np]

theorem rd_le_of {p : Nat} (hp : 0 < p) {x c : ℝ} (hc : IsFloat p c) (h : x ≤ c) : rd p x ≤ c := by
  rw [← rd_float hc]; exact rd_mono hp h

theorem le_rd_of {p : Nat} (hp : 0 < p) {x c : ℝ} (hc : IsFloat p c) (h : c ≤ x) : c ≤ rd p x := by
  rw [← rd_float hc]; exact rd_mono hp h

theorem isFloat_small (p : Nat) (hp : 24 ≤ p) (n : ℤ) (hn : |n| < 2 ^ 24) : IsFloat p (n : ℝ) :=
  ⟨n, 0, by simp, hn.trans_le (pow_le_pow_right₀ (by norm_num) hp)⟩

theorem isFloat_dy (p : Nat) (hp : 24 ≤ p) (n e : ℤ) (hn : |n| < 2 ^ 24) : IsFloat p ((n : ℝ) * 2 ^ e) :=
  ⟨n, e, rfl, hn.trans_le (pow_le_pow_right₀ (by norm_num) hp)⟩

/-- infinity times a nonzero finite number -/
theorem mul_pinf_left {a b : Ie} {y : ℝ} (ha : a.v = .pinf) (hb : b.v.round (a.dt.join b.dt) = .fin y) (hy : 0 < y) : (a * b).v = .pinf := by
  show (XR.mul (a.v.round _) (b.v.round _)).round _ = _
  rw [ha, hb]
  show (XR.infMul y).round _ = _
  rw [XR.infMul, if_pos hy]; rfl

theorem mul_pinf_right {a b : Ie} {y : ℝ} (hb : b.v = .pinf) (ha : a.v.round (a.dt.join b.dt) = .fin y) (hy : 0 < y) : (a * b).v = .pinf := by
  show (XR.mul (a.v.round _) (b.v.round _)).round _ = _
  rw [hb, ha]
  show (XR.infMul y).round _ = _
  rw [XR.infMul, if_pos hy]; rfl

theorem lit_ok {q : ℚ} (h1 : (2 : ℝ) ^ (-125 : ℤ) ≤ q) (h2 : (q : ℝ) ≤ 2 ^ (126 : ℤ)) (d : DT) : ∃ y, ((lit q : Ie).v).round d = .fin y ∧ 0 < y := by
  refine ⟨_, lit_conv q (inR_of h1 h2) d, ?_⟩
  have : 0 < (q : ℝ) := lt_of_lt_of_le (two_zpow_pos _) h1
  exact (lit_near q d).pos this

/-- the softening parameters -/
theorem asinhB_ie {k : Nat} {b : Ie} (h : (asinhB (α := Ie))[k]? = some b) : ∃ x, IeNum b x ∧ b.dt = .f32 ∧ 1e-11 ≤ x ∧ x ≤ 1e-8 := by
  have key : ∀ q : ℚ, (5e-11 : ℝ) ≤ q → (q : ℝ) ≤ 1e-9 → ∃ x, IeNum (f32 (lit q : Ie)) x ∧ (f32 (lit q : Ie)).dt = .f32 ∧ 1e-11 ≤ x ∧ x ≤ 1e-8 := by
    intro q h1 h2
    have hq : InR (q : ℝ) := inR_of (le_trans (by norm_num) h1) (le_trans h2 (by norm_num))
    obtain ⟨z, nz, ez, dz⟩ := ie_f32 (a := (lit q : Ie)) (rdIe_inR .weak hq) (hq.rd (by have := DT.weak.prec_ge; omega))
    have e : Near 2 (q : ℝ) z := (near_rd (DT.prec_ge _) _).trans ez
    have hq0 : 0 < (q : ℝ) := by linarith
    have hu : uro 24 ≤ 6e-8 := by unfold uro; norm_num
    have hu0 := uro_pos 24
    have := e.rel (by push_cast; linarith)
    have hr : |z - q| ≤ 1e-3 * |(q : ℝ)| := by
      refine this.trans (mul_le_mul_of_nonneg_right ?_ (abs_nonneg _))
      push_cast
      rw [div_le_iff₀ (by linarith)]; linarith
    rw [abs_of_pos hq0, abs_le] at hr
    exact ⟨z, nz, dz, by linarith, by linarith⟩
  match k, h with
  | 0, h => cases h; exact key _ (by norm_num) (by norm_num)
  | 1, h => cases h; exact key _ (by norm_num) (by norm_num)
  | 2, h => cases h; exact key _ (by norm_num) (by norm_num)
  | 3, h => cases h; exact key _ (by norm_num) (by norm_num)
  | 4, h => cases h; exact key _ (by norm_num) (by norm_num)
  | n + 5, h => simp [asinhB] at h

/-- natural logarithm of 10, as `np.log(10.)` -/
theorem log10_ie : ∃ t, IeNum (Arith.log (lit 10 : Ie)) t ∧ (Arith.log (lit 10 : Ie)).dt = .f64 ∧ 1 / 2 ≤ t ∧ t ≤ 16 := by
  have h10 : (lit 10 : Ie).v = .fin 10 := by
    show rdIe .weak _ = _
    rw [rdIe_inR .weak (inR_of (by norm_num) (by norm_num))]
    have := rd_float (isFloat_small 53 (by norm_num) 10 (by norm_num))
    norm_num at this ⊢
    exact this
  have hl1 : (1 : ℝ) / 2 ≤ Real.log 10 := by
    have := Real.one_sub_inv_le_log_of_pos (x := 10) (by norm_num)
    norm_num at this ⊢
    linarith
  have hl2 : Real.log 10 ≤ 16 := by
    have := Real.log_le_sub_one_of_pos (x := 10) (by norm_num)
    linarith
  obtain ⟨n, d⟩ := ie_op1 (f := XR.logWith Real.log) (a := (lit 10 : Ie)) (x := Real.log 10) (by rw [h10]; simp [XR.logWith]) (inR_of (le_trans (by norm_num) hl1) (le_trans hl2 (by norm_num)))
  refine ⟨_, n, d, ?_, ?_⟩
  · have := isFloat_dy (lit 10 : Ie).dt.np.prec (DT.prec_ge _) 1 (-1) (by norm_num)
    refine le_rd_of (by have := (lit 10 : Ie).dt.np.prec_ge; omega) ?_ hl1
    norm_num at this ⊢
    exact this
  · have := isFloat_small (lit 10 : Ie).dt.np.prec (DT.prec_ge _) 16 (by norm_num)
    refine rd_le_of (by have := (lit 10 : Ie).dt.np.prec_ge; omega) ?_ hl2
    norm_num at this ⊢
    exact this

/-- the argument of `sinh` and `cosh` of a magnitude below -8000 -/
theorem asinhArg_ie {b m : Ie} {x μ : ℝ} (hb : IeNum b x) (hbd : b.dt = .f32) (hx1 : 1e-11 ≤ x) (hx2 : x ≤ 1e-8) (hm : IeNum m μ)
    (h1 : μ ≤ -8000) (h2 : -1e30 ≤ μ) : ∃ s, (asinhArg b m).v = .fin s ∧ (asinhArg b m).dt = .f64 ∧ 790 ≤ s := by
  -- logarithm of the softening parameter
  have hx0 : 0 < x := by linarith
  have hlb1 : Real.log x ≤ -1 / 2 := by
    have := Real.log_le_sub_one_of_pos hx0
    linarith
  have hlb2 : -(1e12 : ℝ) ≤ Real.log x := by
    have := Real.one_sub_inv_le_log_of_pos hx0
    have hi : x⁻¹ ≤ 1e11 := by
      rw [inv_le_comm₀ hx0 (by norm_num)]; exact le_trans (by norm_num) hx1
    linarith
  have rl : InR (Real.log x) := inR_neg.mp (inR_of (le_trans (by norm_num) (show (1 : ℝ) / 2 ≤ -Real.log x by linarith)) (le_trans (show -Real.log x ≤ 1e12 by linarith) (by norm_num)))
  obtain ⟨nl, dl⟩ := ie_op1 (f := XR.logWith Real.log) (a := b) (x := Real.log x) (by rw [hb.val]; simp [XR.logWith, hx0.le, hx0.ne']) rl
  have dl' : (Ie.op1 (XR.logWith Real.log) b).dt = .f32 := by rw [dl, hbd]; rfl
  set yl := rd b.dt.np.prec (Real.log x) with hyl
  have hyl0 : yl ≤ 0 := by
    rw [hyl]
    have := rd_mono (p := b.dt.np.prec) (by have := b.dt.np.prec_ge; omega) (show Real.log x ≤ 0 by linarith)
    rwa [rd_zero] at this
  have hyl1 : -(1e13 : ℝ) ≤ yl := by
    have e : Near 1 (-Real.log x) (-yl) := (near_rd (DT.prec_ge _) _).neg
    have := (e.bounds (by linarith)).2
    have hom : (1 : ℝ) / 2 ≤ om ^ 1 := by rw [pow_one]; unfold om uro; norm_num
    nlinarith
  -- 0.4 ln 10
  obtain ⟨t, nt, dt, t1, t2⟩ := log10_ie
  have q4 : InR ((0.4 : ℚ) : ℝ) := inR_of (by norm_num) (by norm_num)
  have e4 : Near 2 (((0.4 : ℚ) : ℝ) * t) (rd (Arith.log (lit 10 : Ie)).dt.prec (rd 53 ((0.4 : ℚ) : ℝ)) * t) := (lit_near _ _).mul (Near.refl t)
  have b4 : (0.2 : ℝ) ≤ ((0.4 : ℚ) : ℝ) * t ∧ ((0.4 : ℚ) : ℝ) * t ≤ 8 := by push_cast; constructor <;> nlinarith
  obtain ⟨r4, p4⟩ := e4.inR (by norm_num) (le_trans (by norm_num) b4.1) (le_trans b4.2 (by norm_num))
  have n4 := ie_op2_lit (f := XR.mul) 0.4 q4 nt rfl r4
  have d4 : (lit 0.4 * Arith.log (lit 10) : Ie).dt = .f64 := dt
  have e5 := e4.trans (near_rd (DT.prec_ge (Arith.log (lit 10 : Ie)).dt) _)
  set u := rd (Arith.log (lit 10 : Ie)).dt.prec (rd (Arith.log (lit 10 : Ie)).dt.prec (rd 53 ((0.4 : ℚ) : ℝ)) * t) with hu
  have hom3 : (1 : ℝ) / 2 ≤ om ^ 3 := by
    unfold om uro; norm_num
  obtain ⟨c1, c2⟩ := e5.bounds (by linarith)
  have u1 : (0.1 : ℝ) ≤ u := by nlinarith
  have u2 : u ≤ 16 := by nlinarith
  -- times the magnitude
  have hum : 800 ≤ -(u * μ) := by nlinarith
  have hum' : -(u * μ) ≤ 1.6e31 := by nlinarith
  have r6 : InR (u * μ) := inR_neg.mp (inR_of (le_trans (by norm_num) hum) (le_trans hum' (by norm_num)))
  obtain ⟨z, nz, ez, dz⟩ := ie_mul (a := (lit 0.4 * Arith.log (lit 10) : Ie)) (b := m) n4 hm r6
  have d6 : (lit 0.4 * Arith.log (lit 10) * m : Ie).dt = .f64 := by
    rw [dz, d4]
    have := hm.dt
    revert this
    cases m.dt <;> intro this <;> first | rfl | exact absurd rfl this
  obtain ⟨z1, z2⟩ := ez.neg.bounds (by linarith)
  have hom1 : (0.999 : ℝ) ≤ om ^ 1 := by rw [pow_one]; unfold om uro; norm_num
  have hz1 : 799 ≤ -z := by nlinarith
  have hz2 : -z ≤ 1e32 := by nlinarith
  -- the difference
  have nneg : IeNum (-(Arith.log b)) (-yl) := by
    refine ⟨?_, nl.dt, nl.float.neg, inR_neg.mpr nl.inR⟩
    show XR.neg (Ie.op1 (XR.logWith Real.log) b).v = _
    rw [nl.val]; rfl
  have hs1 : 799 ≤ -yl + -z := by linarith
  have hs2 : -yl + -z ≤ 1e33 := by linarith
  have ns := ie_op2 (f := fun a b => XR.add a (XR.neg b)) nneg nz (z := -yl + -z) rfl (inR_of (le_trans (by norm_num) hs1) (le_trans hs2 (by norm_num)))
  refine ⟨_, ns.val, ?_, ?_⟩
  · show (-(Arith.log b)).dt.join (lit 0.4 * Arith.log (lit 10) * m : Ie).dt = _
    rw [d6]
    show (Ie.op1 (XR.logWith Real.log) b).dt.join .f64 = _
    rw [dl']; rfl
  · refine le_trans (by norm_num) (le_rd_of (by have := DT.prec_ge ((-(Arith.log b)).dt.join (lit 0.4 * Arith.log (lit 10) * m : Ie).dt); omega) (c := 799) ?_ hs1)
    have := isFloat_small ((-(Arith.log b)).dt.join (lit 0.4 * Arith.log (lit 10) * m : Ie).dt).prec (DT.prec_ge _) 799 (by norm_num)
    norm_num at this ⊢
    exact this

theorem exp_big {s : ℝ} (hs : 790 ≤ s) : (2 : ℝ) ^ (1030 : ℤ) ≤ Real.exp s := by
  have h1 : Real.exp 790 ≤ Real.exp s := Real.exp_le_exp.mpr hs
  have h2 : (2.7 : ℝ) ≤ Real.exp 1 := le_trans (by norm_num) Real.exp_one_gt_d9.le
  have h3 : Real.exp 790 = Real.exp 1 ^ 790 := by rw [← Real.exp_nat_mul]; norm_num
  have h4 : (2.7 : ℝ) ^ 790 ≤ Real.exp 1 ^ 790 := pow_le_pow_left₀ (by norm_num) h2 790
  have h5 : (2 : ℝ) ^ (1030 : ℤ) ≤ (2.7 : ℝ) ^ 790 := by
    have a : (2 : ℝ) ^ 14 ≤ (2.7 : ℝ) ^ 10 := by norm_num
    have b := pow_le_pow_left₀ (by norm_num) a 79
    rw [← pow_mul, ← pow_mul] at b
    refine le_trans ?_ b
    rw [show (1030 : ℤ) = ((1030 : ℕ) : ℤ) from rfl, zpow_natCast]
    exact pow_le_pow_right₀ (by norm_num) (by norm_num)
  rw [h3] at h1
  exact h5.trans (h4.trans h1)

theorem sinh_big {s : ℝ} (hs : 790 ≤ s) : (2 : ℝ) ^ (1024 : ℤ) ≤ Real.sinh s ∧ (2 : ℝ) ^ (1024 : ℤ) ≤ Real.cosh s := by
  have h := exp_big hs
  have hn : Real.exp (-s) ≤ 1 := Real.exp_le_one_iff.mpr (by linarith)
  have hn0 := Real.exp_pos (-s)
  have e : (2 : ℝ) ^ (1030 : ℤ) = 2 ^ (1024 : ℤ) * 64 := by
    rw [show (1030 : ℤ) = 1024 + 6 from rfl, zpow_add₀ (by norm_num)]; norm_num
  have h1 : (1 : ℝ) ≤ 2 ^ (1024 : ℤ) := one_le_zpow₀ (by norm_num) (by norm_num)
  rw [e] at h
  rw [Real.sinh_eq, Real.cosh_eq]
  clear e
  generalize (2 : ℝ) ^ (1024 : ℤ) = P at *
  constructor <;> linarith

/-- the factor of the extinction -/
def ExtOk (e : Ie) : Prop := e = lit 0 ∨ ∃ ε, IeNum e ε ∧ (ε = 0 ∨ 1e-20 ≤ |ε| ∧ |ε| ≤ 16)

theorem extFac_ie {e : Ie} (h : ExtOk e) (d : DT) : ∃ p, (pow10 (lit 0.4 * e)).v.round d = .fin p ∧ 0 < p := by
  have q4 : InR ((0.4 : ℚ) : ℝ) := inR_of (by norm_num) (by norm_num)
  have key : ∀ τ : ℝ, (lit 0.4 * e : Ie).v = .fin τ → |τ| ≤ 16 → ∃ p, (pow10 (lit 0.4 * e)).v.round d = .fin p ∧ 0 < p := by
    intro τ hτ hb
    rw [abs_le] at hb
    have hp0 : (0 : ℝ) < (10 : ℝ) ^ τ := by positivity
    have b1 : (1e-16 : ℝ) ≤ (10 : ℝ) ^ τ := by
      have := Real.rpow_le_rpow_of_exponent_le (x := 10) (by norm_num) hb.1
      refine le_trans ?_ this
      rw [Real.rpow_neg (by norm_num)]
      norm_num
    have b2 : (10 : ℝ) ^ τ ≤ 1e16 := by
      have := Real.rpow_le_rpow_of_exponent_le (x := 10) (by norm_num) hb.2
      refine le_trans this ?_
      norm_num
    have r : InR ((10 : ℝ) ^ τ) := inR_of (le_trans (by norm_num) b1) (le_trans b2 (by norm_num))
    have hv : (pow10 (lit 0.4 * e)).v = .fin (rd (lit 0.4 * e : Ie).dt.prec ((10 : ℝ) ^ τ)) := by
      show (XR.growth (fun x => (10 : ℝ) ^ x) (.fin 0) (lit 0.4 * e : Ie).v).round _ = _
      rw [hτ]; exact rdIe_inR _ r
    have hp : 0 < (lit 0.4 * e : Ie).dt.prec := by have := (lit 0.4 * e : Ie).dt.prec_ge; omega
    refine ⟨_, by rw [hv]; exact rdIe_inR d (r.rd hp), ?_⟩
    exact rd_pos (by have := d.prec_ge; omega) (rd_pos hp hp0)
  rcases h with rfl | ⟨ε, ne, hε⟩
  · refine key 0 ?_ (by norm_num)
    have h0 : (lit 0 : Ie).v.round .weak = .fin 0 := by rw [lit_conv 0 (by simpa using inR_zero)]; simp
    show (XR.mul ((lit 0.4 : Ie).v.round .weak) ((lit 0 : Ie).v.round .weak)).round .weak = _
    rw [lit_conv _ q4, h0]
    show rdIe _ (_ * 0) = _
    rw [mul_zero, rdIe_zero]
  · have hr : InR (rd e.dt.prec (rd 53 ((0.4 : ℚ) : ℝ)) * ε) ∧ |rd e.dt.prec (rd 53 ((0.4 : ℚ) : ℝ)) * ε| ≤ 15 := by
      have e1 := lit_near 0.4 e.dt
      rcases hε with rfl | ⟨h1, h2⟩
      · simp [inR_zero]
      · have e2 : Near 2 (((0.4 : ℚ) : ℝ) * |ε|) |rd e.dt.prec (rd 53 ((0.4 : ℚ) : ℝ)) * ε| := by
          rw [abs_mul, abs_of_pos (e1.pos (by norm_num))]
          exact e1.mul (Near.refl _)
        have b1 : (1e-21 : ℝ) ≤ ((0.4 : ℚ) : ℝ) * |ε| := by push_cast; nlinarith
        have b2 : ((0.4 : ℚ) : ℝ) * |ε| ≤ 7 := by push_cast; nlinarith
        refine ⟨inR_abs.mp (e2.inR (by norm_num) (le_trans (by norm_num) b1) (le_trans b2 (by norm_num))).1, ?_⟩
        have := (e2.bounds (by linarith)).2
        have hom : (1 : ℝ) / 2 ≤ om ^ 2 := by unfold om uro; norm_num
        nlinarith [abs_nonneg (rd e.dt.prec (rd 53 ((0.4 : ℚ) : ℝ)) * ε)]
    have n := ie_op2_lit (f := XR.mul) 0.4 q4 ne rfl hr.1
    refine key _ n.val ?_
    rw [rd_abs]
    refine le_trans (rd_le_of (by have := e.dt.prec_ge; omega) (c := 15) ?_ hr.2) (by norm_num)
    have := isFloat_small e.dt.prec (DT.prec_ge _) 15 (by norm_num)
    norm_num at this ⊢
    exact this

/-- a missing magnitude becomes an infinite flux -/
theorem asinhFlux_missing {b m e : Ie} {x μ : ℝ} (hb : IeNum b x) (hbd : b.dt = .f32) (hx1 : 1e-11 ≤ x) (hx2 : x ≤ 1e-8) (hm : IeNum m μ)
    (h1 : μ ≤ -8000) (h2 : -1e30 ≤ μ) (he : ExtOk e) : (asinhFlux b m e).v = .pinf := by
  obtain ⟨s, hs, ds, hs1⟩ := asinhArg_ie hb hbd hx1 hx2 hm h1 h2
  have hsinh : (Arith.sinh (asinhArg b m)).v = .pinf := by
    show (XR.growth Real.sinh .ninf (asinhArg b m).v).round ((asinhArg b m).dt.np) = _
    rw [hs, ds]
    exact rdIe_over .f64 (sinh_big hs1).1
  have h2b : ∃ y, IeNum (lit 2 * b : Ie) y ∧ 0 < y := by
    have e1 : Near 2 (((2 : ℚ) : ℝ) * x) (rd b.dt.prec (rd 53 ((2 : ℚ) : ℝ)) * x) := (lit_near 2 b.dt).mul (Near.refl x)
    obtain ⟨r, p⟩ := e1.inR (by norm_num) (le_trans (b := 1e-11) (by norm_num) (by push_cast; linarith)) (le_trans (b := 1) (by push_cast; linarith) (by norm_num))
    exact ⟨_, ie_op2_lit (f := XR.mul) 2 (inR_of (by norm_num) (by norm_num)) hb rfl r, rd_pos (by have := b.dt.prec_ge; omega) p⟩
  obtain ⟨y, ny, y0⟩ := h2b
  have hprod : (lit 2 * b * Arith.sinh (asinhArg b m) : Ie).v = .pinf := mul_pinf_right hsinh (ny.conv (prec_join_left ny.dt)) y0
  have hst : (f32 (lit 2 * b * Arith.sinh (asinhArg b m)) : Ie).v = .pinf := by
    show XR.round .f32 (lit 2 * b * Arith.sinh (asinhArg b m) : Ie).v = _
    rw [hprod]; rfl
  obtain ⟨p, hp, p0⟩ := extFac_ie he ((f32 (lit 2 * b * Arith.sinh (asinhArg b m)) : Ie).dt.join (pow10 (lit 0.4 * e)).dt)
  have hfin := mul_pinf_left hst hp p0
  show XR.round .f32 (f32 (lit 2 * b * Arith.sinh (asinhArg b m)) * pow10 (lit 0.4 * e) : Ie).v = _
  rw [hfin]; rfl

/-- its inverse variance becomes zero -/
theorem asinhIvar_missing {b m s : Ie} {x μ σ : ℝ} (hb : IeNum b x) (hbd : b.dt = .f32) (hx1 : 1e-11 ≤ x) (hx2 : x ≤ 1e-8) (hm : IeNum m μ)
    (h1 : μ ≤ -8000) (h2 : -1e30 ≤ μ) (hs : IeNum s σ) (hσ : σ ≠ 0) : (asinhIvar b m s).v = .fin 0 := by
  obtain ⟨a, ha, da, ha1⟩ := asinhArg_ie hb hbd hx1 hx2 hm h1 h2
  have hcosh : (Arith.cosh (asinhArg b m)).v = .pinf := by
    show (XR.growth Real.cosh .pinf (asinhArg b m).v).round ((asinhArg b m).dt.np) = _
    rw [ha, da]
    exact rdIe_over .f64 (sinh_big ha1).2
  have h2b : ∃ y, IeNum (lit 2 * b : Ie) y ∧ 0 < y := by
    have e1 : Near 2 (((2 : ℚ) : ℝ) * x) (rd b.dt.prec (rd 53 ((2 : ℚ) : ℝ)) * x) := (lit_near 2 b.dt).mul (Near.refl x)
    obtain ⟨r, p⟩ := e1.inR (by norm_num) (le_trans (b := 1e-11) (by norm_num) (by push_cast; linarith)) (le_trans (b := 1) (by push_cast; linarith) (by norm_num))
    exact ⟨_, ie_op2_lit (f := XR.mul) 2 (inR_of (by norm_num) (by norm_num)) hb rfl r, rd_pos (by have := b.dt.prec_ge; omega) p⟩
  obtain ⟨y, ny, y0⟩ := h2b
  have p1 : (lit 2 * b * Arith.cosh (asinhArg b m) : Ie).v = .pinf := mul_pinf_right hcosh (ny.conv (prec_join_left ny.dt)) y0
  obtain ⟨f, hf, f0⟩ := lit_ok (q := 0.4) (by norm_num) (by norm_num) ((lit 2 * b * Arith.cosh (asinhArg b m) : Ie).dt.join (lit 0.4 : Ie).dt)
  have p2 : (lit 2 * b * Arith.cosh (asinhArg b m) * lit 0.4 : Ie).v = .pinf := mul_pinf_left p1 hf f0
  obtain ⟨t, nt, dt, t1, -⟩ := log10_ie
  have p3 : (lit 2 * b * Arith.cosh (asinhArg b m) * lit 0.4 * Arith.log (lit 10) : Ie).v = .pinf :=
    mul_pinf_left p2 (nt.conv (prec_join_right nt.dt)) (by linarith)
  have p4 : (lit 2 * b * Arith.cosh (asinhArg b m) * lit 0.4 * Arith.log (lit 10) * s : Ie).v = .pinf ∨
      (lit 2 * b * Arith.cosh (asinhArg b m) * lit 0.4 * Arith.log (lit 10) * s : Ie).v = .ninf := by
    have : (lit 2 * b * Arith.cosh (asinhArg b m) * lit 0.4 * Arith.log (lit 10) * s : Ie).v =
        (XR.infMul σ).round ((lit 2 * b * Arith.cosh (asinhArg b m) * lit 0.4 * Arith.log (lit 10) : Ie).dt.join s.dt) := by
      show (XR.mul ((lit 2 * b * Arith.cosh (asinhArg b m) * lit 0.4 * Arith.log (lit 10) : Ie).v.round _) (s.v.round _)).round _ = _
      rw [p3, hs.conv (prec_join_right hs.dt)]; rfl
    rw [this]
    unfold XR.infMul
    rcases lt_or_gt_of_ne hσ with h | h
    · rw [if_neg (by linarith), if_pos h]; exact Or.inr rfl
    · rw [if_pos h]; exact Or.inl rfl
  generalize hE : (lit 2 * b * Arith.cosh (asinhArg b m) * lit 0.4 * Arith.log (lit 10) * s : Ie) = E at p4
  have p5 : (E * E).v = .pinf := by
    show (XR.mul (E.v.round _) (E.v.round _)).round _ = _
    rcases p4 with h | h <;> rw [h] <;> rfl
  have p6 : (lit 1 / (E * E) : Ie).v = .fin 0 := by
    show (XR.div ((lit 1 : Ie).v.round _) ((E * E).v.round _)).round _ = _
    rw [lit_conv 1 (inR_of (by norm_num) (by norm_num)), p5]
    show rdIe _ 0 = _
    exact rdIe_zero _
  show XR.round .f32 (lit 1 / ((lit 2 * b * Arith.cosh (asinhArg b m) * lit 0.4 * Arith.log (lit 10) * s) * (lit 2 * b * Arith.cosh (asinhArg b m) * lit 0.4 * Arith.log (lit 10) * s)) : Ie).v = _
  rw [hE, p6]
  exact rdIe_zero _

/-- A magnitude and its error marking missing data: SDSS catalogs use -9999 for both. -/
structure Missing (a e : Ie) : Prop where
  mag : ∃ μ : ℝ, a.v = .fin μ ∧ -1e29 ≤ μ ∧ μ ≤ -9000
  err : ∃ σ : ℝ, e.v = .fin σ ∧ σ ≠ 0 ∧ InR σ

theorem Missing.parts {a e : Ie} (h : Missing a e) : ∃ μ σ, IeNum (f32 a) μ ∧ μ ≤ -8000 ∧ -1e30 ≤ μ ∧ IeNum (f32 e) σ ∧ σ ≠ 0 := by
  obtain ⟨⟨μ, hv, h1, h2⟩, ⟨σ, hs, s0, sr⟩⟩ := h
  obtain ⟨z, nz, ez, -⟩ := ie_f32 hv (inR_neg.mp (inR_of (le_trans (by norm_num) (show (9000 : ℝ) ≤ -μ by linarith)) (le_trans (show -μ ≤ 1e29 by linarith) (by norm_num))))
  obtain ⟨y, ny, ey, -⟩ := ie_f32 hs sr
  obtain ⟨c1, c2⟩ := ez.neg.bounds (by linarith)
  have hom : (0.9 : ℝ) ≤ om ^ 1 := by rw [pow_one]; unfold om uro; norm_num
  refine ⟨z, y, nz, by nlinarith, by nlinarith, ny, ?_⟩
  rintro rfl
  rcases lt_or_gt_of_ne s0 with h | h
  · have := ey.neg.pos (by linarith); linarith
  · have := ey.pos h; linarith

/-- extinctions: zero, or of magnitude at most 10 -/
def ExtGood (e : Ie) : Prop := ∃ ε : ℝ, e.v = .fin ε ∧ (ε = 0 ∨ 1e-19 ≤ |ε| ∧ |ε| ≤ 10)

theorem ExtGood.ok {e : Ie} (h : ExtGood e) : ExtOk (f32 e) := by
  obtain ⟨ε, hv, h⟩ := h
  have hr : InR ε := by
    rcases h with rfl | ⟨h1, h2⟩
    · exact inR_zero
    · exact inR_abs.mp (inR_of (le_trans (by norm_num) h1) (le_trans h2 (by norm_num)))
  obtain ⟨z, nz, ez, -⟩ := ie_f32 hv hr
  refine Or.inr ⟨z, nz, ?_⟩
  rcases h with rfl | ⟨h1, h2⟩
  · left
    have := ez.rel (by norm_num [uro])
    simpa using this
  · right
    have e2 : Near 1 |ε| |z| := by
      rcases le_total 0 ε with h | h
      · rcases h.eq_or_lt with rfl | h
        · norm_num at h1
        · rw [abs_of_pos h, abs_of_pos (ez.pos h)]; exact ez
      · rcases h.eq_or_lt with rfl | h
        · norm_num at h1
        · have := ez.neg.pos (by linarith)
          rw [abs_of_neg h, abs_of_neg (by linarith : z < 0)]; exact ez.neg
    obtain ⟨c1, c2⟩ := e2.bounds (by linarith)
    have hom : (0.9 : ℝ) ≤ om ^ 1 := by rw [pow_one]; unfold om uro; norm_num
    constructor <;> nlinarith

/-- C145, the conversion: a missing magnitude becomes an infinite flux of inverse variance zero. -/
theorem C145_conversion (mag err : NDA Ie) (ext : Option (NDA Ie)) (hm : mag.WF) (h5 : lastAxis mag 5) (he : err.WF ∧ err.shape = mag.shape)
    (hx : ∀ e ∈ ext, e.WF ∧ e.shape = mag.shape) (r j : Nat) (a e : Ie) (ha : entry mag r j = some a) (hje : entry err r j = some e)
    (hmiss : Missing a e) (hext : ∀ x ∈ ext, ∃ y, entry x r j = some y ∧ ExtGood y) :
    ∃ out w, asinhToMaggies mag (some err) ext = .ok out ∧ out.ivar = some w ∧ out.maggies.WF ∧ w.WF ∧ out.maggies.shape = mag.shape ∧
      w.shape = mag.shape ∧ (∃ f, entry out.maggies r j = some f ∧ f.v = .pinf) ∧ ∃ v, entry w r j = some v ∧ v.v = .fin 0 := by
  obtain ⟨out, ho, hs, hwf, hf, -, hw⟩ := asinh_entry mag (some err) ext hm h5 (by intro x hx; cases hx; exact he) hx
  obtain ⟨w, hw1, hws, hwwf, hwe⟩ := hw err rfl
  have hj : j < 5 := by
    cases mag with
    | scalar x => simp [lastAxis, NDA.shape] at h5
    | arr lead ncol rows =>
      simp [lastAxis, NDA.shape] at h5
      simp only [entry, Option.bind_eq_some_iff] at ha
      obtain ⟨row, hr, hj⟩ := ha
      have h1 := (List.getElem?_eq_some_iff.mp hj).1
      have h2 := hm.2 row (List.mem_of_getElem? hr)
      omega
  obtain ⟨b, hb⟩ : ∃ b, (asinhB (α := Ie))[j]? = some b := ⟨_, List.getElem?_eq_getElem (by simpa [asinhB] using hj)⟩
  obtain ⟨x, nb, db, b1, b2⟩ := asinhB_ie hb
  obtain ⟨μ, σ, nm, m1, m2, ns, s0⟩ := hmiss.parts
  refine ⟨out, w, ho, hw1, hwf, hwwf, hs, hws, ?_, ?_⟩
  · rw [hf, ha]
    cases ext with
    | none => exact ⟨_, by simp [extEntry, hb], asinhFlux_missing nb db b1 b2 nm m1 m2 (Or.inl rfl)⟩
    | some ex =>
      obtain ⟨y, hy, gy⟩ := hext ex rfl
      exact ⟨_, by simp [extEntry, hb, hy], asinhFlux_missing nb db b1 b2 nm m1 m2 gy.ok⟩
  · rw [hwe, ha, hje]
    exact ⟨_, by simp [hb], asinhIvar_missing nb db b1 b2 nm m1 m2 ns s0⟩

/-! ### The AB offsets keep it -/

theorem abfix_near {φ : Ie} (h : φ ∈ (abfixDefault : List Ie)) : ∃ t, IeNum (f32 φ) t ∧ (f32 φ).dt = .f32 ∧ 0.005 ≤ |t| ∧ |t| ≤ 0.05 := by
  have key : ∀ q : ℚ, (0.009 : ℝ) ≤ |(q : ℝ)| → |(q : ℝ)| ≤ 0.041 → ∃ t, IeNum (f32 (lit q : Ie)) t ∧ (f32 (lit q : Ie)).dt = .f32 ∧ 0.005 ≤ |t| ∧ |t| ≤ 0.05 := by
    intro q h1 h2
    have hq : InR (q : ℝ) := inR_abs.mp (inR_of (le_trans (by norm_num) h1) (le_trans h2 (by norm_num)))
    obtain ⟨z, nz, ez, dz⟩ := ie_f32 (a := (lit q : Ie)) (rdIe_inR .weak hq) (hq.rd (by have := DT.weak.prec_ge; omega))
    have e : Near 2 (q : ℝ) z := (near_rd (DT.prec_ge _) _).trans ez
    have hu : uro 24 ≤ 6e-8 := by unfold uro; norm_num
    have hu0 := uro_pos 24
    have := e.rel (by push_cast; linarith)
    have hr : |z - q| ≤ 1e-3 * |(q : ℝ)| := by
      refine this.trans (mul_le_mul_of_nonneg_right ?_ (abs_nonneg _))
      push_cast
      rw [div_le_iff₀ (by linarith)]; linarith
    have h3 := abs_sub_abs_le_abs_sub z q
    have h4 := abs_sub_abs_le_abs_sub (q : ℝ) z
    rw [abs_sub_comm] at h4
    exact ⟨z, nz, dz, by linarith, by linarith⟩
  simp only [abfixDefault, List.mem_cons, List.not_mem_nil, or_false] at h
  rcases h with rfl | rfl | rfl | rfl | rfl
  · exact key _ (by norm_num [abs_of_neg]) (by norm_num [abs_of_neg])
  all_goals exact key _ (by norm_num [abs_of_pos]) (by norm_num [abs_of_pos])

theorem abFac_ie {φ : Ie} (h : φ ∈ (abfixDefault : List Ie)) : ∃ p, IeNum (abFac32 φ) p ∧ (abFac32 φ).dt = .f32 ∧ 1 / 16 ≤ p ∧ p ≤ 16 := by
  obtain ⟨t, nt, dt, t1, t2⟩ := abfix_near h
  have q4 : InR ((0.4 : ℚ) : ℝ) := inR_of (by norm_num) (by norm_num)
  have hneg : (-(lit 0.4) : Ie).v = .fin (-(rd 53 ((0.4 : ℚ) : ℝ))) := by
    show XR.neg (rdIe .weak ((0.4 : ℚ) : ℝ)) = _
    rw [rdIe_inR .weak q4]; rfl
  have e1 : Near 2 (((0.4 : ℚ) : ℝ)) (-(rd (f32 φ).dt.prec (-(rd 53 ((0.4 : ℚ) : ℝ))))) := by
    rw [show -(rd (f32 φ).dt.prec (-(rd 53 ((0.4 : ℚ) : ℝ)))) = rd (f32 φ).dt.prec (rd 53 ((0.4 : ℚ) : ℝ)) by rw [rd_neg, neg_neg]]
    exact lit_near 0.4 _
  have hc := e1.pos (by norm_num)
  set c := rd (f32 φ).dt.prec (-(rd 53 ((0.4 : ℚ) : ℝ))) with hcdef
  have hom : (0.9 : ℝ) ≤ om ^ 2 := by unfold om uro; norm_num
  obtain ⟨c1, c2⟩ := e1.bounds (by norm_num)
  push_cast at c1 c2
  have ca : |c| = -c := abs_of_neg (by linarith)
  have hb : |c * t| ≤ 0.5 := by rw [abs_mul, ca]; nlinarith
  have hb' : 0.0001 ≤ |c * t| := by rw [abs_mul, ca]; nlinarith
  have hr : InR (c * t) := inR_abs.mp (inR_of (le_trans (by norm_num) hb') (le_trans hb (by norm_num)))
  obtain ⟨n, d⟩ := ie_op2_weak (f := XR.mul) (a := -(lit 0.4)) hneg rfl (inR_neg.mpr (q4.rd (by norm_num))) nt (z := c * t) rfl hr
  set τ := rd (f32 φ).dt.prec (c * t) with hτ
  have hτ1 : |τ| ≤ 1 := by
    rw [hτ, rd_abs]
    refine rd_le_of (by have := (f32 φ).dt.prec_ge; omega) ?_ (le_trans hb (by norm_num))
    have := isFloat_small (f32 φ).dt.prec (DT.prec_ge _) 1 (by norm_num)
    norm_num at this ⊢
    exact this
  rw [abs_le] at hτ1
  have b1 : (1 : ℝ) / 16 ≤ (10 : ℝ) ^ τ := by
    have := Real.rpow_le_rpow_of_exponent_le (x := 10) (by norm_num) hτ1.1
    refine le_trans ?_ this
    rw [Real.rpow_neg (by norm_num)]
    norm_num
  have b2 : (10 : ℝ) ^ τ ≤ 16 := by
    have := Real.rpow_le_rpow_of_exponent_le (x := 10) (by norm_num) hτ1.2
    refine le_trans this ?_
    norm_num
  have r : InR ((10 : ℝ) ^ τ) := inR_of (le_trans (by norm_num) b1) (le_trans b2 (by norm_num))
  have hd : (-(lit 0.4) * f32 φ : Ie).dt = .f32 := by
    show (Ie.op2 XR.mul (-(lit 0.4)) (f32 φ)).dt = _
    rw [d, dt]
  have hp : 0 < (-(lit 0.4) * f32 φ : Ie).dt.prec := by have := (-(lit 0.4) * f32 φ : Ie).dt.prec_ge; omega
  have hv : (abFac32 φ).v = .fin (rd (-(lit 0.4) * f32 φ : Ie).dt.prec ((10 : ℝ) ^ τ)) := by
    show (XR.growth (fun x => (10 : ℝ) ^ x) (.fin 0) (-(lit 0.4) * f32 φ : Ie).v).round _ = _
    have : (-(lit 0.4) * f32 φ : Ie).v = .fin τ := n.val
    rw [this]; exact rdIe_inR _ r
  refine ⟨_, ⟨hv, ?_, rd_isFloat hp _, r.rd hp⟩, hd, ?_, ?_⟩
  · show (-(lit 0.4) * f32 φ : Ie).dt ≠ _
    rw [hd]; decide
  · refine le_rd_of hp ?_ b1
    have := isFloat_dy (-(lit 0.4) * f32 φ : Ie).dt.prec (DT.prec_ge _) 1 (-4) (by norm_num)
    norm_num at this ⊢
    exact this
  · refine rd_le_of hp ?_ b2
    have := isFloat_small (-(lit 0.4) * f32 φ : Ie).dt.prec (DT.prec_ge _) 16 (by norm_num)
    norm_num at this ⊢
    exact this


theorem ie_hmul (x φ : Ie) : f32 (f32 x * abFac32 φ) = f32 x * abFac32 φ := ie_f32_idem _

theorem ie_hdiv (x φ : Ie) : f32 (f32 x / (abFac32 φ * abFac32 φ)) = f32 x / (abFac32 φ * abFac32 φ) := ie_f32_idem _

/-- A table with an infinite flux of zero weight in row `r`, column `j`. -/
structure BadAt (m v : List (List Ie)) (r j : Nat) : Prop where
  flux : ∃ f, (m[r]?).bind (fun row => row[j]?) = some f ∧ f.v = .pinf
  ivar : ∃ f, (v[r]?).bind (fun row => row[j]?) = some f ∧ f.v = .fin 0

theorem badAt_of {m v : NDA Ie} {r j : Nat} (hm : ∀ x, m ≠ .scalar x) (hv : ∀ x, v ≠ .scalar x) (h1 : ∃ f, entry m r j = some f ∧ f.v = .pinf)
    (h2 : ∃ f, entry v r j = some f ∧ f.v = .fin 0) : BadAt m.rows v.rows r j := by
  cases m with
  | scalar x => exact absurd rfl (hm x)
  | arr l n rows =>
    cases v with
    | scalar x => exact absurd rfl (hv x)
    | arr l' n' rows' => exact ⟨h1, h2⟩

theorem f32_pinf {f : Ie} (h : f.v = .pinf) : (f32 f).v = .pinf := by
  show XR.round .f32 f.v = _
  rw [h]; rfl

theorem f32_fin0 {f : Ie} (h : f.v = .fin 0) : (f32 f).v = .fin 0 := by
  show XR.round .f32 f.v = _
  rw [h]; exact rdIe_zero _

/-- the AB correction of KcorrectSDSS keeps such an entry -/
theorem len5_of {a : NDA Ie} (hw : a.WF) (h : lastAxis a 5) : ∀ row ∈ a.rows, row.length = 5 := by
  cases a with
  | scalar x => simp [lastAxis, NDA.shape] at h
  | arr lead ncol rows =>
    simp [lastAxis, NDA.shape] at h
    intro row hr
    exact (hw.2 row hr).trans h

theorem bad_sdss (m v : NDA Ie) (hm : m.WF) (h5 : lastAxis m 5) (hv : v.WF) (hs : v.shape = m.shape) (r j : Nat)
    (h1 : ∃ f, entry m r j = some f ∧ f.v = .pinf) (h2 : ∃ f, entry v r j = some f ∧ f.v = .fin 0) :
    ∃ out w, sdssAbCorrect m (some v) abfixDefault = .ok out ∧ out.ivar = some w ∧ BadAt out.maggies.rows w.rows r j ∧
      ∀ row ∈ w.rows, row.length = 5 := by
  obtain ⟨out, w, ho, hw, hs1, hs2, -, hww, e1, e2⟩ := abCorrect_entry ie_hmul ie_hdiv m v abfixDefault hm h5 rfl hv hs
  refine ⟨out, w, ho, hw, ?_, len5_of hww (by rw [lastAxis, hs2]; exact h5)⟩
  have hne : ∀ a : NDA Ie, a.shape = m.shape → ∀ x, a ≠ .scalar x := by
    rintro a ha x rfl
    rw [lastAxis, ← ha] at h5
    simp [NDA.shape] at h5
  obtain ⟨f, hf, vf⟩ := h1
  obtain ⟨g, hg, vg⟩ := h2
  have hj : j < 5 := by
    cases m with
    | scalar x => simp [entry, lastAxis, NDA.shape] at h5
    | arr lead ncol rows =>
      simp [lastAxis, NDA.shape] at h5
      simp only [entry, Option.bind_eq_some_iff] at hf
      obtain ⟨row, hr, hj⟩ := hf
      have h1 := (List.getElem?_eq_some_iff.mp hj).1
      have h2 := hm.2 row (List.mem_of_getElem? hr)
      omega
  obtain ⟨φ, hφ⟩ : ∃ φ, (abfixDefault : List Ie)[j]? = some φ := ⟨_, List.getElem?_eq_getElem (by simpa [abfixDefault] using hj)⟩
  obtain ⟨p, np, dp, p1, p2⟩ := abFac_ie (List.mem_of_getElem? hφ)
  refine badAt_of (hne _ hs1) (hne _ hs2) ⟨_, by rw [e1, hf]; simp [hφ]; rfl, ?_⟩ ⟨_, by rw [e2, hg]; simp [hφ]; rfl, ?_⟩
  · exact mul_pinf_left (f32_pinf vf) (np.conv (prec_join_right np.dt)) (by linarith)
  · have hpp : InR (p * p) := inR_of (le_trans (b := 1 / 256) (by norm_num) (by nlinarith)) (le_trans (b := 256) (by nlinarith) (by norm_num))
    obtain ⟨q, nq, eq, -⟩ := ie_mul np np hpp
    have q0 : q ≠ 0 := (eq.pos (by nlinarith)).ne'
    show (XR.div ((f32 g).v.round _) ((abFac32 φ * abFac32 φ).v.round _)).round _ = _
    rw [f32_fin0 vg, nq.conv (prec_join_right nq.dt)]
    have h0 : ∀ d, XR.round d (.fin 0) = .fin 0 := fun d => rdIe_zero d
    rw [h0]
    have hd : XR.div (.fin 0) (.fin q) = .fin 0 := by simp [XR.div, q0]
    rw [hd, h0]

/-! ### The fit does not survive it -/

/-- A solver that checks its arguments, as `scipy.optimize.nnls` does (`asarray_chkfinite`). -/
def RefusesNaN (nnls : Nnls Ie) : Prop := ∀ n A b it, (∃ x ∈ b, x.v = .nan) → nnls n A b it = .error .valueError

theorem fit1_bad {nnls : Nnls Ie} (hn : RefusesNaN nnls) {F : Fitter Ie} {Am : AMat Ie} (hA : F.Amatrix = some Am) {z : Ie} {M : List (List Ie)}
    (hz : Am.at z = .ok M) {m iv : List Ie} {j : Nat} (hm : ∃ f, m[j]? = some f ∧ f.v = .pinf) (hi : ∃ f, iv[j]? = some f ∧ f.v = .fin 0)
    (hl : iv.length = M.length) (mc : Nat) (noise : Nat → Nat → Ie) : fit1 nnls F z (some m) iv false mc noise = .error .valueError := by
  rw [fit1_in hA hz _ hl]
  obtain ⟨f, hf, vf⟩ := hm
  obtain ⟨g, hg, vg⟩ := hi
  have hsq : (Arith.sqrt g).v = .fin 0 := by
    show (XR.sqrt g.v).round _ = _
    rw [vg]
    show (if (0 : ℝ) < 0 then XR.nan else XR.fin (Real.sqrt 0)).round _ = _
    rw [if_neg (lt_irrefl _), Real.sqrt_zero]
    exact rdIe_zero _
  have hb : ∃ x ∈ rhs m (iv.map Arith.sqrt), x.v = .nan := by
    refine ⟨f * Arith.sqrt g, List.mem_of_getElem? (i := j) ?_, ?_⟩
    · simp only [rhs, List.getElem?_zipWith, List.getElem?_map, hf, hg, Option.map_some]
    · show (XR.mul (f.v.round _) ((Arith.sqrt g).v.round _)).round _ = _
      rw [vf, hsq]
      have h0 : ∀ d, XR.round d (.fin 0) = .fin 0 := fun d => rdIe_zero d
      rw [h0]
      show (XR.infMul 0).round _ = _
      simp [XR.infMul, XR.round]
  simp only [solve, hn _ _ _ _ hb]
  rfl

theorem fitI_bad {nnls : Nnls Ie} (hn : RefusesNaN nnls) {F : Fitter Ie} {Am : AMat Ie} (hA : F.Amatrix = some Am) (hnb : F.responses.length ≠ 1)
    {i : Inp Ie} {r j : Nat} (hr : r < i.z.length) {M : List (List Ie)} (hz : Am.at (ent i.z r) = .ok M) {m v : List (List Ie)}
    (hm : i.maggies = some m) (hv : i.ivar = some v) (hvl : ∀ row ∈ v, row.length = M.length) (hbad : BadAt m v r j) (mc : Nat) (noise : Nat → Nat → Nat → Ie) :
    (∀ out, F.fitCoeffsI nnls i mc noise ≠ .ok out) ∧ (i.z.length = 1 → F.fitCoeffsI nnls i mc noise = .error .valueError) := by
  obtain ⟨⟨f, hf, vf⟩, ⟨g, hg, vg⟩⟩ := hbad
  simp only [Option.bind_eq_some_iff] at hf hg
  obtain ⟨mr, hmr, hf⟩ := hf
  obtain ⟨vr, hvr, hg⟩ := hg
  have key : ∀ nz, fit1 nnls F (ent i.z r) (some mr) vr false mc nz = .error .valueError :=
    fun nz => fit1_bad hn hA hz ⟨f, hf, vf⟩ ⟨g, hg, vg⟩ (hvl _ (List.mem_of_getElem? hvr)) mc nz
  by_cases h1 : i.z.length = 1
  · have hr0 : r = 0 := by omega
    subst hr0
    have he : F.fitCoeffsI nnls i mc noise = .error .valueError := by
      unfold Fitter.fitCoeffsI
      rw [if_pos h1]
      unfold fitOne
      have e1 : m.headD [] = mr := by cases m with | nil => simp at hmr | cons a l => simpa using hmr
      have e2 : v.headD [] = vr := by cases v with | nil => simp at hvr | cons a l => simpa using hvr
      have e3 : i.z.headD (lit 0) = ent i.z 0 := by cases i.z <;> rfl
      have e4 : (F.responses.length == 1) = false := by simpa using hnb
      simp only [hm, hv, Option.map_some, e1, e2, e3, e4, key]
      rfl
    exact ⟨fun out h => (by rw [he] at h; cases h), fun _ => he⟩
  · refine ⟨fun out h => ?_, fun h => absurd h h1⟩
    unfold Fitter.fitCoeffsI at h
    rw [if_neg h1] at h
    obtain ⟨rs, hrs, -⟩ := bind_ok_iff.mp h
    have h2 := mapM_ok_iff.mp hrs
    have hlen : r < rs.length := by rw [← h2.length_eq]; simpa using hr
    have h3 := (List.forall₂_iff_get.mp h2).2 r (by simpa using hr) hlen
    simp only [List.get_eq_getElem, List.getElem_range] at h3
    unfold fitPass at h3
    have e1 : rowOpt i.maggies r = .ok mr := by
      rw [hm]; show Except.ok (m.getD r []) = _
      rw [List.getD_eq_getElem?_getD, hmr]; rfl
    have e2 : rowOpt i.ivar r = .ok vr := by
      rw [hv]; show Except.ok (v.getD r []) = _
      rw [List.getD_eq_getElem?_getD, hvr]; rfl
    rw [e1, ok_bind, e2, ok_bind, key, error_bind] at h3
    cases h3

/-- the photometry after `_process_inputs`, AB corrected by KcorrectSDSS or not -/
theorem process_bad {F : Fitter Ie} (hF : NoAb F ∨ F.abcorrect = true ∧ F.cls = .sdss) (hnb : F.responses.length = 5) (zs : List Ie) (array : Bool)
    (z : NDA Ie) (hzs : z = if array then .vec zs else .scalar (zs.headD (lit 0))) (hz1 : array = false → zs.length = 1)
    (m v : NDA Ie) (hm : m.WF) (hv : v.WF) (hms : m.shape = if array then [zs.length, 5] else [5]) (hvs : v.shape = m.shape) (r j : Nat)
    (h1 : ∃ f, entry m r j = some f ∧ f.v = .pinf) (h2 : ∃ f, entry v r j = some f ∧ f.v = .fin 0) :
    ∃ i mm vv, processInputs F (some z) (some m) (some v) none = .ok i ∧ i.z = zs.map f32 ∧ i.maggies = some mm ∧ i.ivar = some vv ∧ BadAt mm vv r j ∧
      ∀ row ∈ vv, row.length = 5 := by
  have h1' : ∃ f, entry (m.map f32) r j = some f ∧ f.v = .pinf := by
    obtain ⟨f, hf, vf⟩ := h1
    exact ⟨f32 f, by rw [entry_map, hf]; rfl, f32_pinf vf⟩
  have h2' : ∃ f, entry (v.map f32) r j = some f ∧ f.v = .fin 0 := by
    obtain ⟨f, hf, vf⟩ := h2
    exact ⟨f32 f, by rw [entry_map, hf]; rfl, f32_fin0 vf⟩
  have hstep : processInputs F (some z) (some m) (some v) none =
      (match F.abcorrect, some (m.map f32) with
      | true, some m' => do
        let r ← toAb F.cls m' (some (v.map f32))
        return (⟨array, zs.map f32, some r.maggies.rows, r.ivar.map NDA.rows, none⟩ : Inp Ie)
      | _, _ => (return ⟨array, zs.map f32, some (m.map f32).rows, some (v.map f32).rows, none⟩ : Py (Inp Ie))) := by
    unfold processInputs
    cases array with
    | true =>
      have e : NDA.map f32 (NDA.vec zs) = .arr [] zs.length [zs.map f32] := rfl
      rw [hzs]
      simp only [if_true, Option.map_some, e, ok_bind, List.map_cons, List.map_nil, List.flatten_cons, List.flatten_nil,
        List.append_nil, List.length_map]
      rw [checkTable_ok true _ _ (some m) (by simpa [hnb] using hms), ok_bind, checkTable_ok true _ _ (some v) (by rw [hnb]; simpa [hms] using hvs),
        ok_bind, checkTable_ok true _ _ none (by simp), ok_bind]
      cases F.abcorrect <;> rfl
    | false =>
      have hl := hz1 rfl
      obtain ⟨z0, rfl⟩ := List.length_eq_one_iff.mp hl
      have e : NDA.map f32 (NDA.scalar z0) = .scalar (f32 z0) := rfl
      rw [hzs]
      simp only [Bool.false_eq_true, if_false, List.headD_cons, Option.map_some, e, ok_bind]
      rw [checkTable_ok false _ _ (some m) (by simpa [hnb] using hms), ok_bind, checkTable_ok false _ _ (some v) (by rw [hnb]; simpa [hms] using hvs),
        ok_bind, checkTable_ok false _ _ none (by simp), ok_bind]
      cases F.abcorrect <;> rfl
  have h5 : lastAxis (m.map f32) 5 := by
    rw [lastAxis, map_shape, hms]
    cases array <;> rfl
  have hne : ∀ a : NDA Ie, a.shape = m.shape → ∀ x, a ≠ .scalar x := by
    rintro a ha x rfl
    rw [hms] at ha
    cases array <;> simp [NDA.shape] at ha
  rcases hF with hF | ⟨ha, hc⟩
  · rw [hstep]
    refine ⟨⟨array, zs.map f32, some (m.map f32).rows, some (v.map f32).rows, none⟩, _, _, ?_, rfl, rfl, rfl, badAt_of (hne _ (map_shape _ _)) (hne _ ((map_shape _ _).trans hvs)) h1' h2',
      len5_of (map_WF _ _ hv) (by rw [lastAxis, map_shape, hvs]; rw [lastAxis, map_shape] at h5; exact h5)⟩
    rcases hF with h | h
    · rw [h]; rfl
    · rw [h]; cases F.abcorrect <;> rfl
  · obtain ⟨out, w, ho, hw, hbad, hlen⟩ := bad_sdss (m.map f32) (v.map f32) (map_WF _ _ hm) h5 (map_WF _ _ hv) (by rw [map_shape, map_shape, hvs]) r j h1' h2'
    refine ⟨⟨array, zs.map f32, some out.maggies.rows, some w.rows, none⟩, _, _, ?_, rfl, rfl, rfl, hbad, hlen⟩
    rw [hstep, ha, hc]
    show (sdssAbCorrect _ _ _ >>= _) = _
    rw [ho, ok_bind, hw]; rfl

/-- C145 is false: one missing magnitude in one band of one object, and `fit_coeffs_asinh` raises for the whole batch.  `K` is a `KcorrectSDSS`
object, AB correcting (its default) or not; the redshift of the object is inside the redshift range. -/
theorem C145_false (nnls : Nnls Ie) (hn : RefusesNaN nnls) (K : Kc Ie) (hcls : K.cls = .sdss) (hnb : K.responses.length = 5) (Am : AMat Ie)
    (hA : K.Amatrix = some Am) (zs : List Ie) (mag err : NDA Ie) (ext : Option (NDA Ie)) (hm : mag.WF) (hms : mag.shape = [zs.length, 5])
    (he : err.WF ∧ err.shape = mag.shape) (hx : ∀ e ∈ ext, e.WF ∧ e.shape = mag.shape) (r j : Nat) (hr : r < zs.length)
    (M : List (List Ie)) (hz : Am.at (f32 zs[r]) = .ok M) (hMl : M.length = 5) (a e : Ie) (ha : entry mag r j = some a) (hje : entry err r j = some e)
    (hmiss : Missing a e) (hext : ∀ x ∈ ext, ∃ y, entry x r j = some y ∧ ExtGood y) (noise : Nat → Nat → Nat → Ie) :
    ∀ out, K.fitCoeffsAsinh nnls (some (.vec zs)) mag (some err) ext noise ≠ .ok out := by
  obtain ⟨o, w, ho, hw, hwf, hwwf, hs, hws, h1, h2⟩ := C145_conversion mag err ext hm (by rw [lastAxis, hms]; rfl) he hx r j a e ha hje hmiss hext
  have hF : NoAb K.toFitter ∨ K.abcorrect = true ∧ K.cls = .sdss := by
    cases h : K.abcorrect
    · exact Or.inl (Or.inl h)
    · exact Or.inr ⟨rfl, hcls⟩
  obtain ⟨i, mm, vv, hi, iz, im, iv, hbad, hlen⟩ := process_bad hF hnb zs true (.vec zs) rfl (by simp) o.maggies w hwf hwwf (by simpa [hs] using hms) (by rw [hws, hs]) r j h1 h2
  intro out h
  rw [C90_composition, ho, ok_bind, hw] at h
  unfold Fitter.fitCoeffs at h
  simp only [Option.isNone_some, Bool.false_eq_true, if_false, hi, ok_bind] at h
  refine (fitI_bad hn hA (by omega) (by simpa [iz] using hr) (M := M) ?_ im iv (fun row h => (hlen row h).trans hMl.symm) hbad 0 noise).1 out h
  rw [iz]
  have : ent (zs.map f32) r = f32 zs[r] := by
    apply ent_eq
    simp [hr]
  rw [this, hz]

/-- C145 is false for a single object too: `ValueError`. -/
theorem C145_false_single (nnls : Nnls Ie) (hn : RefusesNaN nnls) (K : Kc Ie) (hcls : K.cls = .sdss) (hnb : K.responses.length = 5) (Am : AMat Ie)
    (hA : K.Amatrix = some Am) (z : Ie) (mag err : NDA Ie) (ext : Option (NDA Ie)) (hm : mag.WF) (hms : mag.shape = [5])
    (he : err.WF ∧ err.shape = mag.shape) (hx : ∀ e ∈ ext, e.WF ∧ e.shape = mag.shape) (j : Nat)
    (M : List (List Ie)) (hz : Am.at (f32 z) = .ok M) (hMl : M.length = 5) (a e : Ie) (ha : entry mag 0 j = some a) (hje : entry err 0 j = some e)
    (hmiss : Missing a e) (hext : ∀ x ∈ ext, ∃ y, entry x 0 j = some y ∧ ExtGood y) (noise : Nat → Nat → Nat → Ie) :
    K.fitCoeffsAsinh nnls (some (.scalar z)) mag (some err) ext noise = .error .valueError := by
  obtain ⟨o, w, ho, hw, hwf, hwwf, hs, hws, h1, h2⟩ := C145_conversion mag err ext hm (by rw [lastAxis, hms]; rfl) he hx 0 j a e ha hje hmiss hext
  have hF : NoAb K.toFitter ∨ K.abcorrect = true ∧ K.cls = .sdss := by
    cases h : K.abcorrect
    · exact Or.inl (Or.inl h)
    · exact Or.inr ⟨rfl, hcls⟩
  obtain ⟨i, mm, vv, hi, iz, im, iv, hbad, hlen⟩ := process_bad hF hnb [z] false (.scalar z) rfl (by simp) o.maggies w hwf hwwf (by simpa [hs] using hms) (by rw [hws, hs]) 0 j h1 h2
  rw [C90_composition, ho, ok_bind, hw]
  unfold Fitter.fitCoeffs
  simp only [Option.isNone_some, Bool.false_eq_true, if_false, hi, ok_bind]
  refine (fitI_bad hn hA (by omega) (by simp [iz]) (M := M) ?_ im iv (fun row h => (hlen row h).trans hMl.symm) hbad 0 noise).2 (by simp [iz])
  rw [iz]; exact hz


/-! ### What holds: finite values in bands of zero weight -/

/-- finite in single precision -/
def Fin32 (x : Ie) : Prop := ∃ a : ℝ, (f32 x).v = .fin a

/-- Two rows of photometry that agree in the bands of nonzero inverse variance and are finite in the others. -/
def AgreeOff (iv m m' : List Ie) : Prop :=
  m.length = iv.length ∧ m'.length = iv.length ∧
    ∀ (j : Nat) v x y, iv[j]? = some v → m[j]? = some x → m'[j]? = some y → x = y ∨ v.v = .fin 0 ∧ Fin32 x ∧ Fin32 y

theorem rhs_ie {iv m m' : List Ie} (h : AgreeOff iv m m') :
    rhs (m.map f32) ((iv.map f32).map Arith.sqrt) = rhs (m'.map f32) ((iv.map f32).map Arith.sqrt) := by
  obtain ⟨l1, l2, h⟩ := h
  apply List.ext_getElem
  · simp [rhs, l1, l2]
  · intro j h1 h2
    simp only [rhs, List.length_zipWith, List.length_map] at h1 h2
    simp only [rhs, List.getElem_zipWith, List.getElem_map]
    have j1 : j < m.length := by omega
    have j2 : j < m'.length := by omega
    have j3 : j < iv.length := by omega
    rcases h j iv[j] m[j] m'[j] (List.getElem?_eq_getElem _) (List.getElem?_eq_getElem _) (List.getElem?_eq_getElem _) with e | ⟨hv, ⟨a, ha⟩, ⟨b, hb⟩⟩
    · rw [e]
    · have hsq : (Arith.sqrt (f32 iv[j])).v = .fin 0 := by
        show (XR.sqrt (f32 iv[j]).v).round _ = _
        rw [f32_fin0 hv]
        show (if (0 : ℝ) < 0 then XR.nan else XR.fin (Real.sqrt 0)).round _ = _
        rw [if_neg (lt_irrefl _), Real.sqrt_zero]
        exact rdIe_zero _
      have h0 : ∀ d, XR.round d (.fin 0) = .fin 0 := fun d => rdIe_zero d
      have key : ∀ (x : Ie) (c : ℝ), (f32 x).v = .fin c → f32 x * Arith.sqrt (f32 iv[j]) = ⟨.fin 0, .f32⟩ := by
        intro x c hc
        have hr : (f32 x).v.round .f32 = .fin c := by
          rw [← hc]; exact round_round .f32 x.v
        show (⟨(XR.mul ((f32 x).v.round .f32) ((Arith.sqrt (f32 iv[j])).v.round .f32)).round .f32, .f32⟩ : Ie) = _
        rw [hr, hsq, h0]
        show (⟨XR.round .f32 (.fin (c * 0)), .f32⟩ : Ie) = _
        rw [mul_zero, h0]
      rw [key _ a ha, key _ b hb]

/-- C145 where the values are finite: what stands in a band of zero inverse variance does not matter to the fit, whatever finite number it is. -/
theorem C145_finite_partial (nnls : Nnls Ie) (F : Fitter Ie) (hF : NoAb F) (hnb : F.responses.length ≠ 1) (z : Ie) (m m' iv : List Ie)
    (hiv : iv.length = F.responses.length) (h : AgreeOff iv m m') (noise : Nat → Nat → Nat → Ie) :
    F.fitCoeffs nnls (some (.scalar z)) (some (.vec m)) (some (.vec iv)) 0 noise =
    F.fitCoeffs nnls (some (.scalar z)) (some (.vec m')) (some (.vec iv)) 0 noise := by
  rw [fit_scalar nnls hF hnb z m iv (h.1.trans hiv) hiv, fit_scalar nnls hF hnb z m' iv (h.2.1.trans hiv) hiv]
  congr 1
  exact fitU_congr nnls F _ (rhs_ie h) _

/-- the same in a batch -/
theorem C145_finite_batch_partial (nnls : Nnls Ie) (F : Fitter Ie) (hF : NoAb F) (zs : List Ie) (ms ms' ivs : List (List Ie))
    (hl : zs.length ≠ 1) (hm : ms.length = zs.length) (hm' : ms'.length = zs.length) (hiv : ivs.length = zs.length)
    (h : ∀ (k : Nat) iv m m', ivs[k]? = some iv → ms[k]? = some m → ms'[k]? = some m' → AgreeOff iv m m') (noise : Nat → Nat → Nat → Ie) :
    F.fitCoeffs nnls (some (.vec zs)) (some (.arr [zs.length] F.responses.length ms)) (some (.arr [zs.length] F.responses.length ivs)) 0 noise =
    F.fitCoeffs nnls (some (.vec zs)) (some (.arr [zs.length] F.responses.length ms')) (some (.arr [zs.length] F.responses.length ivs)) 0 noise := by
  rw [fit_array nnls hF zs ms ivs hl hm hiv, fit_array nnls hF zs ms' ivs hl hm' hiv]
  congr 1
  apply mapM_congr
  intro k hk
  have hk' := List.mem_range.mp hk
  have k1 : k < ms.length := by omega
  have k2 : k < ms'.length := by omega
  have k3 : k < ivs.length := by omega
  rw [getD_lt k1, getD_lt k2, getD_lt k3]
  unfold passU
  have hr := rhs_ie (h k ivs[k] ms[k] ms'[k] (List.getElem?_eq_getElem _) (List.getElem?_eq_getElem _) (List.getElem?_eq_getElem _))
  have : fitU nnls F (f32 (ent zs k)) (ms[k].map f32) (ivs[k].map f32) 0 (noise k) =
      fitU nnls F (f32 (ent zs k)) (ms'[k].map f32) (ivs[k].map f32) 0 (noise k) :=
    fitU_congr nnls F _ hr _
  rw [this]

/-! ### Cases that meet the hypotheses -/

theorem inR_int {n : ℤ} (h0 : n ≠ 0) (h : |n| ≤ 100000) : InR (n : ℝ) := by
  have h1 : (1 : ℝ) ≤ |(n : ℝ)| := by exact_mod_cast Int.one_le_abs h0
  have h2 : |(n : ℝ)| ≤ 100000 := by exact_mod_cast h
  exact inR_abs.mp (inR_of (le_trans (by norm_num) h1) (le_trans h2 (by norm_num)))

/-- the SDSS sentinel -/
example : Missing ⟨.fin (-9999), .f32⟩ ⟨.fin (-9999), .f32⟩ :=
  ⟨⟨-9999, rfl, by norm_num, by norm_num⟩, ⟨-9999, rfl, by norm_num, by simpa using inR_int (n := -9999) (by norm_num) (by norm_num)⟩⟩

/-- an extinction of 0.1 mag, and none -/
example : ExtGood ⟨.fin 0.1, .f32⟩ ∧ ExtGood ⟨.fin 0, .f64⟩ :=
  ⟨⟨0.1, rfl, Or.inr (by norm_num [abs_of_pos])⟩, ⟨0, rfl, Or.inl rfl⟩⟩

/-- a solver that refuses NaN and solves the rest, and a matrix defined at redshift 0 -/
example : ∃ (nnls : Nnls Ie) (Am : AMat Ie) (M : List (List Ie)), RefusesNaN nnls ∧ (∀ n A b it, (∀ x ∈ b, x.v ≠ .nan) → nnls n A b it = .ok (zeros n)) ∧
    Am.at (f32 (⟨.fin 0, .f64⟩ : Ie)) = .ok M ∧ M.length = 5 := by
  classical
  have hat : ∃ M, AMat.at (⟨[⟨.fin 0, .f64⟩, ⟨.fin 0, .f64⟩], List.replicate 2 (List.replicate 5 [⟨.fin 1, .f64⟩]), 5, 1⟩ : AMat Ie)
      (f32 (⟨.fin 0, .f64⟩ : Ie)) = .ok M ∧ M.length = 5 := by
    unfold AMat.at
    have h0 : f32 (⟨.fin 0, .f64⟩ : Ie) = ⟨.fin 0, .f32⟩ := by
      show (⟨XR.round .f32 (.fin 0), .f32⟩ : Ie) = _
      rw [show XR.round .f32 (.fin 0) = .fin 0 from rdIe_zero _]
    have h1 : ∀ d e, (ltb (⟨.fin 0, d⟩ : Ie) ⟨.fin 0, e⟩ : Bool) = false := by
      intro d e
      show XR.ltb (XR.round _ (.fin 0)) (XR.round _ (.fin 0)) = false
      have hz : ∀ d, XR.round d (.fin 0) = .fin 0 := fun d => rdIe_zero d
      rw [hz]
      show decide ((0 : ℝ) < 0) = false
      simp
    rw [h0, if_neg (by simp), if_neg (by simp [h1])]
    refine ⟨_, rfl, ?_⟩
    have hc : ∀ k, clipIdx 2 k = 1 := by intro k; unfold clipIdx; omega
    simp only [List.length_cons, List.length_nil, hc]
    rfl
  obtain ⟨M, hM, hM5⟩ := hat
  refine ⟨fun n _ b _ => if ∃ x ∈ b, x.v = .nan then .error .valueError else .ok (zeros n), _, M, ?_, ?_, hM, hM5⟩
  · intro n A b it h; simp only [h, if_true]
  · intro n A b it h
    exact if_neg (by rintro ⟨x, hx, e⟩; exact h x hx e)

/-- a second band that does not count, with two finite values -/
example : AgreeOff [⟨.fin 1, .f32⟩, ⟨.fin 0, .f32⟩] [⟨.fin 1, .f32⟩, ⟨.fin 0, .f32⟩] [⟨.fin 1, .f32⟩, ⟨.fin (-9999), .f32⟩] := by
  refine ⟨rfl, rfl, ?_⟩
  intro j v x y hv hx hy
  match j with
  | 0 => simp at hx hy; left; rw [← hx, ← hy]
  | 1 =>
    simp at hv hx hy
    subst hv hx hy
    refine Or.inr ⟨rfl, ⟨0, f32_fin0 rfl⟩, ?_⟩
    have := ie_f32 (a := ⟨.fin (-9999), .f32⟩) (x := -9999) rfl (by simpa using inR_int (n := -9999) (by norm_num) (by norm_num))
    obtain ⟨z, nz, -⟩ := this
    exact ⟨z, nz.val⟩
  | n + 2 => simp at hv


end KC
