import Verif.Props.AbFloat

/-!
# Bands of zero inverse variance in IEEE arithmetic, in every class (C145)
-/

namespace KC
open Spec

theorem rne_abs_le (x : ℝ) : |(rne x : ℝ)| ≤ |x| + 1 / 2 := by
  have h := (rne_spec x).1
  have := abs_add_le x ((rne x : ℝ) - x)
  rw [add_sub_cancel] at this
  rw [abs_sub_comm] at h
  linarith

/-- numbers up to `2^127` are finite in float32 -/
theorem rdIe_fin {x : ℝ} (h : |x| ≤ 2 ^ (127 : ℤ)) : ∃ a, rdIe .f32 x = .fin a := by
  have key : ∀ e : ℤ, e ≤ 104 → |(rne (x / 2 ^ e) : ℝ) * 2 ^ e| < 2 ^ (128 : ℤ) := by
    intro e he
    have hp := two_zpow_pos e
    have h1 := rne_abs_le (x / 2 ^ e)
    rw [abs_mul, abs_of_pos hp]
    have h2 : |(rne (x / 2 ^ e) : ℝ)| * 2 ^ e ≤ (|x / 2 ^ e| + 1 / 2) * 2 ^ e := mul_le_mul_of_nonneg_right h1 hp.le
    have h3 : (|x / 2 ^ e| + 1 / 2) * 2 ^ e = |x| + 2 ^ e / 2 := by rw [abs_div, abs_of_pos hp]; field_simp
    have h4 : (2 : ℝ) ^ e ≤ 2 ^ (104 : ℤ) := zpow_le_zpow_right₀ (by norm_num) he
    have h5 : (2 : ℝ) ^ (127 : ℤ) + 2 ^ (104 : ℤ) / 2 < 2 ^ (128 : ℤ) := by norm_num
    linarith
  have he : max (ulpExp DT.f32.prec x) DT.f32.emin ≤ 104 := by
    refine max_le ?_ (by decide)
    unfold ulpExp
    have : Int.log 2 |x| ≤ 127 := by
      by_cases hx : x = 0
      · rw [hx]; simp
      · have := (log_bounds hx).1.trans h
        exact (zpow_le_zpow_iff_right₀ (by norm_num : (1 : ℝ) < 2)).mp this
    simp only [DT.prec]
    push_cast
    linarith
  have := key _ he
  rw [abs_lt] at this
  refine ⟨(rne (x / 2 ^ max (ulpExp DT.f32.prec x) DT.f32.emin) : ℝ) * 2 ^ max (ulpExp DT.f32.prec x) DT.f32.emin, ?_⟩
  unfold rdIe
  dsimp only
  rw [if_neg (by simp only [DT.emax]; exact not_le.mpr this.2), if_neg (by simp only [DT.emax]; exact not_le.mpr this.1)]

/-- the factors of the correction -/
theorem ieFac : ∀ c ∈ abFac (abfixDefault (α := Ie)), c.dt = .f32 ∧ ∃ y, IeNum c y ∧ 1 / 2 ≤ y ∧ y ≤ 2 := by
  intro c hc
  obtain ⟨f, hf, rfl⟩ := List.mem_map.mp hc
  refine ⟨rfl, ?_⟩
  obtain ⟨q, rfl, hq1, hq2⟩ : ∃ q : ℚ, f = lit q ∧ 1 / 128 ≤ |(q : ℝ)| ∧ |(q : ℝ)| ≤ 1 / 16 := by
    simp only [abfixDefault, List.mem_cons, List.not_mem_nil, or_false] at hf
    rcases hf with rfl | rfl | rfl | rfl | rfl <;> refine ⟨_, rfl, ?_, ?_⟩ <;> norm_num [abs_of_neg]
  have inR_of : ∀ x : ℝ, 1 / 1024 ≤ |x| → |x| ≤ 4 → InR x := by
    intro x h1 h2
    refine Or.inr ⟨le_trans (by norm_num) h1, h2.trans (by norm_num)⟩
  have hu : uro 24 ≤ 1e-7 := uro_small
  have hup := uro_pos 24
  have near_abs : ∀ (k : Nat) (x a : ℝ), k ≤ 20 → Near k x a → 0.9 * |x| ≤ |a| ∧ |a| ≤ 1.1 * |x| := by
    intro k x a hk h
    have h1 := h.rel_small hk
    have hk' : (k : ℝ) ≤ 20 := by exact_mod_cast hk
    have h2 : 1.01 * (k : ℝ) * uro 24 ≤ 0.1 := by nlinarith
    have h3 : |a - x| ≤ 0.1 * |x| := h1.trans (mul_le_mul_of_nonneg_right h2 (abs_nonneg x))
    have h4 := abs_add_le x (a - x)
    have h5 := abs_add_le a (x - a)
    rw [add_sub_cancel] at h4 h5
    rw [abs_sub_comm] at h5
    constructor <;> linarith
  -- the offset
  have hqv : (lit q : Ie).v = .fin (rd 53 q) := rdIe_inR .weak (inR_of _ (le_trans (by norm_num) hq1) (hq2.trans (by norm_num)))
  have nq : Near 1 (q : ℝ) (rd 53 q) := near_rd (by norm_num) _
  obtain ⟨bq1, bq2⟩ := near_abs 1 _ _ (by norm_num) nq
  obtain ⟨z, hz, nz, dz⟩ := ie_f32 hqv (inR_of _ (by linarith) (by linarith))
  have nz' : Near 2 (q : ℝ) z := nq.trans nz
  -- the exponent
  have h4v : (-(lit 0.4 : Ie)).v = .fin (-rd 53 0.4) := by
    have : (lit 0.4 : Ie).v = .fin (rd 53 0.4) := by
      have := rdIe_inR .weak (inR_of ((0.4 : ℚ) : ℝ) (by norm_num [abs_of_pos]) (by norm_num [abs_of_pos]))
      have e : (((0.4 : ℚ)) : ℝ) = 0.4 := by norm_num
      rw [e] at this
      show rdIe .weak ((0.4 : ℚ) : ℝ) = _
      rw [e]; exact this
    show XR.neg (lit 0.4 : Ie).v = _
    rw [this]; rfl
  have n4 : Near 1 (-0.4 : ℝ) (-rd 53 0.4) := (near_rd (by norm_num) _).neg
  obtain ⟨b41, b42⟩ := near_abs 1 _ _ (by norm_num) n4
  have a4 : |(-0.4 : ℝ)| = 0.4 := by norm_num
  rw [a4] at b41 b42
  have aq : |-0.4 * (q : ℝ)| = 0.4 * |(q : ℝ)| := by rw [abs_mul, a4]
  have n4' : Near 2 (-0.4 : ℝ) (rd 24 (-rd 53 0.4)) := n4.trans (near_rd le_rfl _)
  have np : Near 4 (-0.4 * (q : ℝ)) (rd 24 (-rd 53 0.4) * z) := n4'.mul nz'
  obtain ⟨bp1, bp2⟩ := near_abs 4 _ _ (by norm_num) np
  rw [aq] at bp1 bp2
  have hdz : (f32 (lit q : Ie)).dt.prec = 24 := by rw [dz]; rfl
  have hfm : XR.mul (.fin (rd (f32 (lit q : Ie)).dt.prec (-rd 53 0.4))) (.fin z) = .fin (rd 24 (-rd 53 0.4) * z) := by rw [hdz]; rfl
  obtain ⟨he, hed⟩ := ie_op2_weak (f := XR.mul) h4v rfl (inR_of _ (by linarith) (by linarith)) hz hfm (inR_of _ (by linarith) (by linarith))
  rw [hdz] at he
  have ne : Near 5 (-0.4 * (q : ℝ)) (rd 24 (rd 24 (-rd 53 0.4) * z)) := np.trans (near_rd le_rfl _)
  obtain ⟨-, be2⟩ := near_abs 5 _ _ (by norm_num) ne
  rw [aq] at be2
  set e := rd 24 (rd 24 (-rd 53 0.4) * z) with hedef
  have hesmall : |e| ≤ 1 / 4 := by linarith
  -- the power
  have h16 : (10 : ℝ) ^ (1 / 4 : ℝ) ≤ 2 := by
    have h1 : (10 : ℝ) ^ (1 / 4 : ℝ) ≤ (2 ^ (4 : ℝ)) ^ (1 / 4 : ℝ) := Real.rpow_le_rpow (by norm_num) (by norm_num) (by norm_num)
    rwa [← Real.rpow_mul (by norm_num), show (4 : ℝ) * (1 / 4) = 1 by norm_num, Real.rpow_one] at h1
  have hup2 : (10 : ℝ) ^ e ≤ 2 := (Real.rpow_le_rpow_of_exponent_le (by norm_num) (abs_le.mp hesmall).2).trans h16
  have hlo2 : 1 / 2 ≤ (10 : ℝ) ^ e := by
    have h1 : (10 : ℝ) ^ (-(1 / 4 : ℝ)) ≤ 10 ^ e := Real.rpow_le_rpow_of_exponent_le (by norm_num) (abs_le.mp hesmall).1
    rw [Real.rpow_neg (by norm_num)] at h1
    refine le_trans ?_ h1
    rw [one_div]
    exact inv_anti₀ (Real.rpow_pos_of_pos (by norm_num) _) h16
  have hin : InR ((10 : ℝ) ^ e) := inR_of _ (by rw [abs_of_pos (by linarith)]; linarith) (by rw [abs_of_pos (by linarith)]; linarith)
  have hmul : (-(lit 0.4 : Ie) * f32 (lit q)) = Ie.op2 XR.mul (-(lit 0.4)) (f32 (lit q)) := rfl
  have hval : (pow10 (-(lit 0.4 : Ie) * f32 (lit q))).v = .fin (rd 24 ((10 : ℝ) ^ e)) := by
    show (XR.growth (fun x => (10 : ℝ) ^ x) (.fin 0) (-(lit 0.4 : Ie) * f32 (lit q)).v).round (-(lit 0.4 : Ie) * f32 (lit q)).dt = _
    rw [hmul, he.val, hed, dz]
    exact rdIe_inR .f32 hin
  refine ⟨rd 24 ((10 : ℝ) ^ e), ⟨hval, ?_, ?_, hin.rd (by norm_num)⟩, ?_, ?_⟩
  · show (-(lit 0.4 : Ie) * f32 (lit q)).dt ≠ _
    rw [hmul, hed, dz]; decide
  · show IsFloat (-(lit 0.4 : Ie) * f32 (lit q)).dt.prec _
    rw [hmul, hed, dz]; exact rd_isFloat (by decide) _
  · exact le_rd_of (by norm_num) ⟨1, -1, by norm_num, by norm_num⟩ hlo2
  · exact rd_le_of (by norm_num) ⟨2, 0, by norm_num, by norm_num⟩ hup2

namespace Spec

/-- `x` is a number of size up to `2^126`, as stored in float32 -/
def Below (x : Ie) : Prop := ∃ a : ℝ, (f32 x).v = .fin a ∧ |a| ≤ 2 ^ (126 : ℤ)

/-- fluxes that differ only in bands of zero inverse variance, where they are numbers of size up to `2^126` -/
def AgreeBelow (iv m m' : List Ie) : Prop :=
  m.length = iv.length ∧ m'.length = iv.length ∧
    ∀ (j : Nat) v x y, iv[j]? = some v → m[j]? = some x → m'[j]? = some y → x = y ∨ v.v = .fin 0 ∧ Below x ∧ Below y

end Spec

theorem fac_flux {c : Ie} (hc : c ∈ abFac (abfixDefault (α := Ie))) {x : Ie} (h : Below x) : Fin32 (f32 x * c) := by
  obtain ⟨hd, y, hy, y1, y2⟩ := ieFac c hc
  obtain ⟨a, ha, hb⟩ := h
  have hv : (f32 x).v = x.v.round .f32 := rfl
  have hr : (f32 x).v.round .f32 = .fin a := by rw [hv, round_round, ← hv, ha]
  have hj : (f32 x).dt.join c.dt = .f32 := by rw [hd]; rfl
  have e : (f32 x * c).v = rdIe .f32 (a * y) := by
    show (XR.mul ((f32 x).v.round ((f32 x).dt.join c.dt)) (c.v.round ((f32 x).dt.join c.dt))).round ((f32 x).dt.join c.dt) = _
    rw [hj, hr, hy.conv (by rw [hd])]
    rfl
  obtain ⟨b, hb'⟩ := rdIe_fin (x := a * y) (by
    rw [abs_mul, abs_of_pos (by linarith : (0 : ℝ) < y)]
    have h1 : |a| * y ≤ 2 ^ (126 : ℤ) * 2 := mul_le_mul hb y2 (by linarith) (by positivity)
    exact h1.trans (by norm_num))
  refine ⟨b, ?_⟩
  show ((f32 x * c).v).round .f32 = _
  rw [e, hb']
  exact rdIe_idem .f32 hb'

theorem fac_ivar {c : Ie} (hc : c ∈ abFac (abfixDefault (α := Ie))) {v : Ie} (h : v.v = .fin 0) : (f32 v / (c * c)).v = .fin 0 := by
  obtain ⟨hd, y, hy, y1, y2⟩ := ieFac c hc
  have hin : InR (y * y) := Or.inr ⟨le_trans (by norm_num) (le_trans (show (1 / 4 : ℝ) ≤ y * y by nlinarith) (le_abs_self _)), by
    rw [abs_of_pos (by nlinarith)]; exact le_trans (show y * y ≤ 4 by nlinarith) (by norm_num)⟩
  obtain ⟨w, hw, nw, dw⟩ := ie_mul hy hy hin
  have hwp : 0 < w := nw.pos (by nlinarith)
  have hdd : (c * c).dt = .f32 := by rw [dw, hd]; rfl
  have hj : (f32 v).dt.join (c * c).dt = .f32 := by rw [hdd]; rfl
  have hf : (f32 v).v.round .f32 = .fin 0 := by
    show (v.v.round .f32).round .f32 = _
    rw [round_round, h]; exact rdIe_zero .f32
  show (XR.div ((f32 v).v.round ((f32 v).dt.join (c * c).dt)) ((c * c).v.round ((f32 v).dt.join (c * c).dt))).round ((f32 v).dt.join (c * c).dt) = _
  rw [hj, hf, hw.conv (by rw [hdd])]
  simp only [XR.div, if_neg hwp.ne', zero_div]
  exact rdIe_zero .f32

theorem agree_ab (cls : Cls) {iv m m' : List Ie} {w : Nat} (hiv : iv.length = w) (hr : AbReady cls w) (h : AgreeBelow iv m m') :
    AgreeOff (abVRow cls iv) (abRow cls m) (abRow cls m') := by
  obtain ⟨h1, h2, h3⟩ := h
  have hm : m.length = w := by rw [h1, hiv]
  have hm' : m'.length = w := by rw [h2, hiv]
  have fin_of : ∀ x, Below x → Fin32 x := fun x ⟨a, ha, _⟩ => ⟨a, ha⟩
  have five : ∀ (iv m m' : List Ie), AgreeBelow iv m m' → ∀ (j : Nat) v x y, (ugrizV iv)[j]? = some v → (ugrizM m)[j]? = some x → (ugrizM m')[j]? = some y →
      x = y ∨ v.v = .fin 0 ∧ Fin32 x ∧ Fin32 y := by
    intro iv m m' h j v x y e1 e2 e3
    unfold ugrizV at e1
    unfold ugrizM at e2 e3
    rw [List.getElem?_zipWith] at e1 e2 e3
    cases hc : (abFac (abfixDefault (α := Ie)))[j]? with
    | none => rw [hc] at e1; cases iv[j]? <;> simp at e1
    | some c =>
      rw [hc] at e1 e2 e3
      cases hv : iv[j]? with
      | none => rw [hv] at e1; simp at e1
      | some v0 =>
        cases hx : m[j]? with
        | none => rw [hx] at e2; simp at e2
        | some x0 =>
          cases hy : m'[j]? with
          | none => rw [hy] at e3; simp at e3
          | some y0 =>
            rw [hv] at e1; rw [hx] at e2; rw [hy] at e3
            simp only [Option.some.injEq] at e1 e2 e3
            subst e1 e2 e3
            have hcm := List.mem_of_getElem? hc
            rcases h.2.2 j v0 x0 y0 hv hx hy with rfl | ⟨p1, p2, p3⟩
            · exact Or.inl rfl
            · exact Or.inr ⟨fac_ivar hcm p1, fac_flux hcm p2, fac_flux hcm p3⟩
  refine ⟨by rw [(abRow_length cls hm hr).1, (abRow_length cls hiv hr).2], by rw [(abRow_length cls hm' hr).1, (abRow_length cls hiv hr).2], ?_⟩
  cases cls with
  | base =>
    intro j v x y e1 e2 e3
    rcases h3 j v x y e1 e2 e3 with h | ⟨p1, p2, p3⟩
    · exact Or.inl h
    · exact Or.inr ⟨p1, fin_of x p2, fin_of y p3⟩
  | sdss => exact five iv m m' ⟨h1, h2, h3⟩
  | gst =>
    have h7 : 7 ≤ w := hr
    have hl : ∀ r : List Ie, r.length = w → ((r.drop 2).take 5).length = 5 := by intro r hr; simp; omega
    intro j v x y e1 e2 e3
    simp only [abRow, abVRow] at e1 e2 e3
    rw [put27_get (by omega) (ugriz_length (hl _ hiv)).2] at e1
    rw [put27_get (by omega) (ugriz_length (hl _ hm)).1] at e2
    rw [put27_get (by omega) (ugriz_length (hl _ hm')).1] at e3
    by_cases hj : 2 ≤ j ∧ j < 7
    · rw [if_pos hj] at e1 e2 e3
      refine five _ _ _ ⟨by rw [hl _ hm, hl _ hiv], by rw [hl _ hm', hl _ hiv], ?_⟩ (j - 2) v x y e1 e2 e3
      intro i v x y f1 f2 f3
      have hi : i < 5 := by have := (List.getElem?_eq_some_iff.mp f1).1; rwa [hl _ hiv] at this
      rw [List.getElem?_take, if_pos hi, List.getElem?_drop] at f1 f2 f3
      exact h3 _ v x y f1 f2 f3
    · rw [if_neg hj] at e1 e2 e3
      rcases h3 j v x y e1 e2 e3 with h | ⟨p1, p2, p3⟩
      · exact Or.inl h
      · exact Or.inr ⟨p1, fin_of x p2, fin_of y p3⟩

/-- C145, what holds, in every class with or without its AB correction: the flux in a band of zero inverse variance has no effect on the fit if it is a
number of size up to `2^126`. -/
theorem C145_ab_partial (nnls : Nnls Ie) (F : Fitter Ie) (hr : AbReady F.abCls F.responses.length) (hnb : F.responses.length ≠ 1) (z : Ie) (m m' iv : List Ie)
    (hiv : iv.length = F.responses.length) (h : AgreeBelow iv m m') (noise : Nat → Nat → Nat → Ie) :
    F.fitCoeffs nnls (some (.scalar z)) (some (.vec m)) (some (.vec iv)) 0 noise =
    F.fitCoeffs nnls (some (.scalar z)) (some (.vec m')) (some (.vec iv)) 0 noise := by
  rw [fit_one_ab f32Laws_ie nnls F hr z m iv (by rw [h.1, hiv]) hiv, fit_one_ab f32Laws_ie nnls F hr z m' iv (by rw [h.2.1, hiv]) hiv]
  exact C145_finite_partial nnls F.plain (Or.inl rfl) hnb z _ _ _ (abRow_length F.abCls hiv hr).2 (agree_ab F.abCls hiv hr h) noise

/-- C145 for tables, in every class. -/
theorem C145_ab_batch_partial (nnls : Nnls Ie) (F : Fitter Ie) (hr : AbReady F.abCls F.responses.length) (zs : List Ie) (ms ms' ivs : List (List Ie))
    (hl : zs.length ≠ 1) (hm : ms.length = zs.length) (hm' : ms'.length = zs.length) (hiv : ivs.length = zs.length)
    (hivr : ∀ r ∈ ivs, r.length = F.responses.length)
    (h : ∀ (k : Nat) iv m m', ivs[k]? = some iv → ms[k]? = some m → ms'[k]? = some m' → AgreeBelow iv m m') (noise : Nat → Nat → Nat → Ie) :
    F.fitCoeffs nnls (some (.vec zs)) (some (.arr [zs.length] F.responses.length ms)) (some (.arr [zs.length] F.responses.length ivs)) 0 noise =
    F.fitCoeffs nnls (some (.vec zs)) (some (.arr [zs.length] F.responses.length ms')) (some (.arr [zs.length] F.responses.length ivs)) 0 noise := by
  have look : ∀ k < zs.length, ∃ iv m m', ivs[k]? = some iv ∧ ms[k]? = some m ∧ ms'[k]? = some m' := fun k hk =>
    ⟨_, _, _, List.getElem?_eq_getElem (by omega), List.getElem?_eq_getElem (by omega), List.getElem?_eq_getElem (by omega)⟩
  have lm : ∀ r ∈ ms, r.length = F.responses.length := by
    intro r hr
    obtain ⟨k, hk⟩ := List.mem_iff_getElem?.mp hr
    obtain ⟨iv, m, m', e1, e2, e3⟩ := look k (by have := (List.getElem?_eq_some_iff.mp hk).1; omega)
    rw [hk] at e2; cases e2
    rw [(h k _ _ _ e1 hk e3).1, hivr iv (List.mem_of_getElem? e1)]
  have lm' : ∀ r ∈ ms', r.length = F.responses.length := by
    intro r hr
    obtain ⟨k, hk⟩ := List.mem_iff_getElem?.mp hr
    obtain ⟨iv, m, m', e1, e2, e3⟩ := look k (by have := (List.getElem?_eq_some_iff.mp hk).1; omega)
    rw [hk] at e3; cases e3
    rw [(h k _ _ _ e1 e2 hk).2.1, hivr iv (List.mem_of_getElem? e1)]
  rw [fit_table_ab f32Laws_ie nnls F hr (.vec zs) [zs.length] ms ivs lm hivr, fit_table_ab f32Laws_ie nnls F hr (.vec zs) [zs.length] ms' ivs lm' hivr]
  refine C145_finite_batch_partial nnls F.plain (Or.inl rfl) zs _ _ _ hl (by simpa using hm) (by simpa using hm') (by simpa using hiv) ?_ noise
  intro k iv m m' e1 e2 e3
  rw [List.getElem?_map] at e1 e2 e3
  obtain ⟨iv0, f1, rfl⟩ := Option.map_eq_some_iff.mp e1
  obtain ⟨m0, f2, rfl⟩ := Option.map_eq_some_iff.mp e2
  obtain ⟨m1, f3, rfl⟩ := Option.map_eq_some_iff.mp e3
  exact agree_ab F.abCls (hivr iv0 (List.mem_of_getElem? f1)) hr (h k iv0 m0 m1 f1 f2 f3)

/-! ### Example -/

theorem below_int {n : ℤ} (h0 : n ≠ 0) (h : |n| ≤ 100000) : Below (⟨.fin n, .f32⟩ : Ie) := by
  have hf : IsFloat 24 (n : ℝ) := ⟨n, 0, by norm_num, lt_of_le_of_lt h (by norm_num)⟩
  refine ⟨n, ?_, ?_⟩
  · show XR.round .f32 (.fin (n : ℝ)) = _
    exact (rdIe_inR .f32 (inR_int h0 h)).trans (by rw [show DT.f32.prec = 24 from rfl, rd_float hf])
  · have h2 : |(n : ℝ)| ≤ 100000 := by exact_mod_cast h
    exact h2.trans (by norm_num)

/-- five bands, the second of zero inverse variance, where one has the flux 1 and the other -9999 -/
example : AgreeBelow [⟨.fin 1, .f32⟩, ⟨.fin 0, .f32⟩, ⟨.fin 1, .f32⟩, ⟨.fin 1, .f32⟩, ⟨.fin 1, .f32⟩]
    [⟨.fin 1, .f32⟩, ⟨.fin 1, .f32⟩, ⟨.fin 1, .f32⟩, ⟨.fin 1, .f32⟩, ⟨.nan, .f32⟩]
    [⟨.fin 1, .f32⟩, ⟨.fin (-9999), .f32⟩, ⟨.fin 1, .f32⟩, ⟨.fin 1, .f32⟩, ⟨.nan, .f32⟩] := by
  refine ⟨rfl, rfl, ?_⟩
  intro j v x y hv hx hy
  match j with
  | 0 | 2 | 3 | 4 => simp at hx hy; left; rw [← hx, ← hy]
  | 1 =>
    simp at hv hx hy
    subst hv hx hy
    exact Or.inr ⟨rfl, by simpa using below_int (n := 1) (by norm_num) (by norm_num), by simpa using below_int (n := -9999) (by norm_num) (by norm_num)⟩
  | n + 5 => simp at hv

end KC
