import Verif.Props.Trapezoid
import Verif.Props.Cubics
import Mathlib.Analysis.SpecialFunctions.Integrals.Basic

/-!
# The maggies of a band and the ratio of the integrals (C163, continued)
-/

namespace KC
open Spec Set intervalIntegral

/-- Integral over the band of (wavelength) x (response) x `F`, of the interpolated response. -/
noncomputable def Spec.photonsOver (rw rr : List ℝ) (F : ℝ → ℝ) : ℝ := ∫ w in (rw.headD 0)..(rw.getLastD 0), w * curveFn nakSpline rw rr w * F w

/-- `D` bounds the second derivative of (wavelength) x (response) x `F` in the band. -/
def Spec.SecondBound (rw rr : List ℝ) (F : ℝ → ℝ) (D : ℝ) : Prop :=
  ∀ x ∈ Ioo (rw.headD 0) (rw.getLastD 0), |deriv (deriv (fun w => w * curveFn nakSpline rw rr w * F w)) x| ≤ D

/-- The error of the trapezoid rule. -/
noncomputable def Spec.trapError (rw : List ℝ) (D h : ℝ) : ℝ := D * h ^ 2 / 12 * (rw.getLastD 0 - rw.headD 0)

theorem ratio_error {N A I J E E' : ℝ} (h1 : |N - I| ≤ E) (h2 : |A - J| ≤ E') (h : E' < J) : |N / A - I / J| ≤ (E + |I / J| * E') / (J - E') := by
  have hE' : 0 ≤ E' := (abs_nonneg _).trans h2
  have hJ : 0 < J := hE'.trans_lt h
  have hA : J - E' ≤ A := by linarith [(abs_le.mp h2).1]
  have hA0 : 0 < A := by linarith
  have e : N / A - I / J = ((N - I) - I / J * (A - J)) / A := by
    field_simp
    ring
  have hn : |(N - I) - I / J * (A - J)| ≤ E + |I / J| * E' := by
    refine (abs_sub _ _).trans (add_le_add h1 ?_)
    rw [abs_mul]
    exact mul_le_mul_of_nonneg_left h2 (abs_nonneg _)
  rw [e, abs_div, abs_of_pos hA0]
  exact div_le_div₀ ((abs_nonneg _).trans hn) hn (by linarith) hA

/-- C163 for every spectrum of a table, as an error of the maggies: they differ from the ratio of the two integrals by no more than
`(E + maggies * E') / (J - E')`, with `J` the integral for the AB source and `E`, `E'` the errors of the trapezoid rule for the spectrum and for the AB source. -/
theorem C163_maggies (lib : Lib ℝ) (wave resp : List ℝ) (R : Resp ℝ) (hR : mkResponse lib.cubic wave resp = .ok R) (sw : List ℝ) (hs : sw.Pairwise (· < ·))
    (rows : List (List ℝ)) (m : NDA ℝ) (hm : Projects lib.cubic R.toCurve sw rows m) (hov : ∃ w ∈ sw, R.wave.headD 0 ≤ w ∧ w ≤ R.wave.getLastD 0)
    (h0 : R.resp.headD 0 = 0) (h1 : R.resp.getLastD 0 = 0) (ha : 0 < R.wave.headD 0) (hc0 : sw.headD 0 ≤ R.wave.headD 0) (hc1 : R.wave.getLastD 0 ≤ sw.getLastD 0)
    (j : Nat) (y : List ℝ) (hj : rows[j]? = some y) :
    ∃ v, m.flat[j]? = some v ∧ ∀ h D D', Spacing R.wave sw h → SecondBound R.wave R.resp (curveFn nakSpline sw y) D → SecondBound R.wave R.resp abFlux D' →
      trapError R.wave D' h < photonsOver R.wave R.resp abFlux →
      |v - photonsOver R.wave R.resp (curveFn nakSpline sw y) / photonsOver R.wave R.resp abFlux| ≤
        (trapError R.wave D h + |photonsOver R.wave R.resp (curveFn nakSpline sw y) / photonsOver R.wave R.resp abFlux| * trapError R.wave D' h) /
          (photonsOver R.wave R.resp abFlux - trapError R.wave D' h) := by
  have hk : KnotExact lib.cubic := (C159_contracts lib).1
  have hc := mkResponse_good hR
  have hkn : Knots R.wave := ⟨hc.incr, hc.four⟩
  obtain ⟨_, hs4, _⟩ := projects_eq hs hm
  have hsn : Knots sw := ⟨hs, hs4⟩
  obtain ⟨g, hg, hf⟩ := C18_project_ratio_partial lib.cubic hk wave resp R hR sw hs rows m hm hov ⟨Or.inl h0, Or.inl h1⟩
  have e0 : curveFn nakSpline R.wave R.resp (R.wave.headD 0) = 0 := by
    refine Eq.trans ?_ h0; exact curve_at_head (lib := lib.cubic) hk hc.incr hc.four hc.len
  have e1 : curveFn nakSpline R.wave R.resp (R.wave.getLastD 0) = 0 := by
    refine Eq.trans ?_ h1; exact curve_at_last (lib := lib.cubic) hk hc.incr hc.four hc.len
  refine ⟨_, by rw [hf, List.getElem?_map, hj]; rfl, fun h D D' hh hD hD' hJ => ratio_error ?_ ?_ hJ⟩
  · exact trap_band hkn e0 e1 hg (fun p q hp hpq hq hno => curve_smooth y hsn (hc0.trans hp) hpq (hq.trans hc1) hno) hD hh
  · refine trap_band hkn e0 e1 hg (fun p q hp hpq hq _ => ?_) hD' hh
    unfold abFlux
    refine ContDiffOn.div contDiffOn_const (contDiffOn_id.pow 2) fun t ht => ?_
    have : 0 < t := ha.trans_le (hp.trans ht.1)
    show t ^ 2 ≠ 0
    positivity

/-- The response 0, 1, 1, 0 at 4, 6, 8, 10 is a parabola. -/
theorem parabola {w : ℝ} (h1 : 4 ≤ w) (h2 : w ≤ 10) : curveFn nakSpline [4, 6, 8, 10] [0, 1, 1, 0] w = (14 * w - w ^ 2 - 40) / 8 := by
  have h := curve_cubic [4, 6, 8, 10] (by norm_num) (by simp) ⟨-5, 14 / 8, -1 / 8, 0⟩ w
  have e : ([4, 6, 8, 10] : List ℝ).map (Cub.val ⟨-5, 14 / 8, -1 / 8, 0⟩) = [0, 1, 1, 0] := by
    norm_num [Cub.val]
  rw [e] at h
  rw [h, if_neg (by simp; exact ⟨h1, h2⟩)]
  simp only [Cub.val]
  ring

/-- Not vacuous: a band, a spectrum and a spacing for which the error of the trapezoid rule is less than the integral for the AB source. -/
theorem parabola_bound : SecondBound [4, 6, 8, 10] [0, 1, 1, 0] abFlux (0.03631 * 2.99792 * (10 / 64)) ∧
    trapError [4, 6, 8, 10] (0.03631 * 2.99792 * (10 / 64)) 2 < photonsOver [4, 6, 8, 10] [0, 1, 1, 0] abFlux ∧ Spacing [4, 6, 8, 10] [1, 5, 9, 13] 2 := by
  have eq : ∀ w ∈ Icc (4 : ℝ) 10, w * curveFn nakSpline [4, 6, 8, 10] [0, 1, 1, 0] w * abFlux w = 0.03631 * 2.99792 / 8 * (14 - w - 40 * w⁻¹) := by
    intro w hw
    have : w ≠ 0 := by linarith [hw.1]
    rw [parabola hw.1 hw.2, abFlux]
    field_simp
  refine ⟨?_, ?_, ?_⟩
  · intro x hx
    simp only [List.headD_cons, List.getLastD_cons, List.getLastD_nil] at hx
    have d1 : ∀ t : ℝ, t ≠ 0 → HasDerivAt (fun w : ℝ => 0.03631 * 2.99792 / 8 * (14 - w - 40 * w⁻¹)) (0.03631 * 2.99792 / 8 * (-1 + 40 * (t ^ 2)⁻¹)) t := by
      intro t ht
      have := (((hasDerivAt_const t (14 : ℝ)).sub (hasDerivAt_id t)).sub ((hasDerivAt_inv ht).const_mul 40)).const_mul (0.03631 * 2.99792 / 8 : ℝ)
      refine this.congr_deriv ?_
      ring
    have d2 : HasDerivAt (fun t : ℝ => 0.03631 * 2.99792 / 8 * (-1 + 40 * (t ^ 2)⁻¹)) (0.03631 * 2.99792 / 8 * (-80 * (x ^ 3)⁻¹)) x := by
      have hx0 : x ≠ 0 := by linarith [hx.1]
      have := ((hasDerivAt_const x (-1 : ℝ)).add (((hasDerivAt_pow 2 x).inv (pow_ne_zero 2 hx0)).const_mul 40)).const_mul (0.03631 * 2.99792 / 8 : ℝ)
      refine this.congr_deriv ?_
      field_simp
      push_cast
      ring
    have e1 : deriv (fun w => w * curveFn nakSpline [4, 6, 8, 10] [0, 1, 1, 0] w * abFlux w) =ᶠ[nhds x] fun t => 0.03631 * 2.99792 / 8 * (-1 + 40 * (t ^ 2)⁻¹) := by
      filter_upwards [Ioo_mem_nhds hx.1 hx.2] with t ht
      have : (fun w => w * curveFn nakSpline [4, 6, 8, 10] [0, 1, 1, 0] w * abFlux w) =ᶠ[nhds t] fun w => 0.03631 * 2.99792 / 8 * (14 - w - 40 * w⁻¹) := by
        filter_upwards [Ioo_mem_nhds ht.1 ht.2] with s hs
        exact eq s ⟨hs.1.le, hs.2.le⟩
      rw [this.deriv_eq]
      exact (d1 t (by linarith [ht.1])).deriv
    rw [e1.deriv_eq, d2.deriv]
    have h3 : (64 : ℝ) ≤ x ^ 3 := by nlinarith [hx.1, sq_nonneg x, sq_nonneg (x - 4)]
    have h4 : (x ^ 3)⁻¹ ≤ 1 / 64 := by rw [inv_eq_one_div]; exact one_div_le_one_div_of_le (by norm_num) h3
    have h5 : 0 ≤ (x ^ 3)⁻¹ := by positivity
    rw [abs_le]
    constructor <;> nlinarith
  · have e : photonsOver [4, 6, 8, 10] [0, 1, 1, 0] abFlux = 0.03631 * 2.99792 / 8 * (42 - 40 * Real.log (5 / 2)) := by
      unfold photonsOver
      simp only [List.headD_cons, List.getLastD_cons, List.getLastD_nil]
      rw [intervalIntegral.integral_congr (g := fun w => 0.03631 * 2.99792 / 8 * (14 - w - 40 * w⁻¹)) (by
        intro w hw
        rw [uIcc_of_le (by norm_num)] at hw
        exact eq w hw)]
      have i1 : IntervalIntegrable (fun w : ℝ => 14 - w) MeasureTheory.volume 4 10 := (by fun_prop : Continuous fun w : ℝ => 14 - w).intervalIntegrable _ _
      have i2 : IntervalIntegrable (fun w : ℝ => 40 * w⁻¹) MeasureTheory.volume 4 10 :=
        (intervalIntegral.intervalIntegrable_inv (fun x hx => by rw [uIcc_of_le (by norm_num)] at hx; show x ≠ 0; linarith [hx.1]) continuousOn_id).const_mul 40
      rw [intervalIntegral.integral_const_mul, intervalIntegral.integral_sub i1 i2, intervalIntegral.integral_const_mul, integral_inv_of_pos (by norm_num) (by norm_num),
        intervalIntegral.integral_sub (by simp) (by simp)]
      norm_num
    have hl : Real.log (5 / 2) < 0.9432 := by
      rw [show (5 / 2 : ℝ) = 2 * (5 / 4) by norm_num, Real.log_mul (by norm_num) (by norm_num)]
      have := Real.log_two_lt_d9
      have := Real.log_le_sub_one_of_pos (show (0 : ℝ) < 5 / 4 by norm_num)
      linarith
    rw [e, trapError]
    simp only [List.headD_cons, List.getLastD_cons, List.getLastD_nil]
    nlinarith
  · intro x y hx hxy hy hno
    simp only [List.headD_cons, List.getLastD_cons, List.getLastD_nil] at hx hy
    have a := hno 6 (by simp)
    have b := hno 8 (by simp)
    push Not at a b
    by_contra hc
    push Not at hc
    rcases lt_or_ge x 6 with h | h
    · have := a h; linarith
    · rcases lt_or_ge x 8 with h' | h'
      · have := b h'; linarith
      · linarith

example : ∃ R m v, mkResponse demoLib.cubic [4, 6, 8, 10] [0, 1, 1, 0] = .ok R ∧ Projects demoLib.cubic R.toCurve [1, 5, 9, 13] [[32, 0, 0, 32]] m ∧ m.flat[0]? = some v ∧
    ∀ D, SecondBound [4, 6, 8, 10] [0, 1, 1, 0] (curveFn nakSpline [1, 5, 9, 13] [32, 0, 0, 32]) D →
      |v - photonsOver [4, 6, 8, 10] [0, 1, 1, 0] (curveFn nakSpline [1, 5, 9, 13] [32, 0, 0, 32]) / photonsOver [4, 6, 8, 10] [0, 1, 1, 0] abFlux| ≤ (4 * D / 12 * 6 +
        |photonsOver [4, 6, 8, 10] [0, 1, 1, 0] (curveFn nakSpline [1, 5, 9, 13] [32, 0, 0, 32]) / photonsOver [4, 6, 8, 10] [0, 1, 1, 0] abFlux| * (0.03631 * 2.99792 * (10 / 32))) / (photonsOver [4, 6, 8, 10] [0, 1, 1, 0] abFlux - 0.03631 * 2.99792 * (10 / 32)) := by
  have hw : ([4, 6, 8, 10] : List ℝ).Pairwise (· < ·) := by norm_num
  obtain ⟨R, hR⟩ := C91_response_builds demoLib.cubic (C159_contracts demoLib).1 demo_brentq demo_star demo_star [4, 6, 8, 10] [0, 1, 1, 0] (hw.imp (fun h => h.ne))
    (by simp) (by simp) ⟨1, by simp, by norm_num⟩
  obtain ⟨m, hm⟩ := projects_exists demoLib.cubic R.toCurve [1, 5, 9, 13] [32, 0, 0, 32] (by norm_num) (by simp) (by simp)
  obtain ⟨e1, e2⟩ := mkResponse_sorted (hw.imp le_of_lt) (by simp) hR
  obtain ⟨v, hv, hb⟩ := C163_maggies demoLib _ _ R hR [1, 5, 9, 13] (by norm_num) _ m hm ⟨5, by simp, by rw [e1]; norm_num⟩ (by rw [e2]; rfl) (by rw [e2]; rfl) (by rw [e1]; norm_num)
    (by rw [e1]; norm_num) (by rw [e1]; norm_num) 0 _ rfl
  refine ⟨R, m, v, hR, hm, hv, fun D hD => ?_⟩
  have := hb 2 D (0.03631 * 2.99792 * (10 / 64)) (by rw [e1]; exact parabola_bound.2.2) (by rw [e1, e2]; exact hD) (by rw [e1, e2]; exact parabola_bound.1) (by rw [e1, e2]; exact parabola_bound.2.1)
  have t1 : trapError R.wave D 2 = 4 * D / 12 * 6 := by
      rw [e1]; simp only [trapError, List.headD_cons, List.getLastD_cons, List.getLastD_nil]; ring
  have t2 : trapError R.wave (0.03631 * 2.99792 * (10 / 64)) 2 = 0.03631 * 2.99792 * (10 / 32) := by
      rw [e1]; simp only [trapError, List.headD_cons, List.getLastD_cons, List.getLastD_nil]; norm_num
  rw [t1, t2, e1, e2] at this
  exact this

end KC
