import Verif.Props.Response
import Mathlib.Analysis.Complex.ExponentialBounds

/-!
# Properties of `Response`, continued (C19–C22, C28)
-/

namespace KC
open Spec

/-- A response that could be built and is nonnegative is positive somewhere. -/
theorem mkResponse_pos {lib : Lib ℝ} (hk : KnotExact lib) {wave resp : List ℝ} {R : Resp ℝ}
    (hR : mkResponse lib wave resp = .ok R) (hnn : ∀ v ∈ R.resp, 0 ≤ v) : ∃ v ∈ R.resp, 0 < v := by
  obtain ⟨_, h1, _, h3⟩ := mkResponse_ok hR
  obtain ⟨_, _, hc, _, _, _, hf, _⟩ := respSetup_ok (by rw [h1]; exact gather_sorted wave) h3
  have hv := good_vals hk hc
  by_contra hcon
  push Not at hcon
  have hz : ∀ v ∈ R.resp, v = 0 := fun v hv => le_antisymm (hcon v hv) (hnn v hv)
  have hnone : maskIdx ((R.resp.map (fun v => v / npMax R.resp)).map (fun v => gtb v (lit 0.5))) = [] := by
    rw [List.eq_nil_iff_forall_not_mem]
    intro i hi
    rw [mem_maskIdx, norm_some] at hi
    have hi2 := hi.2
    rw [ent_some hi.1, hz _ (List.getElem_mem hi.1), half_real, zero_div] at hi2
    norm_num at hi2
  unfold fwhmLimits at hf
  simp only [hv, hnone, List.head?_nil, error_bind] at hf
  cases hf

/-- In C24 the AB integral dividing the result is positive, so the quotient is a true quotient. -/
theorem C24_denominator_pos (lib : Lib ℝ) (hk : KnotExact lib) (wave resp : List ℝ) (R : Resp ℝ)
    (hR : mkResponse lib wave resp = .ok R) (sw g : List ℝ) (hg : UnionGrid sw R.wave g) (hpos : ∀ w ∈ R.wave ++ sw, 0 < w)
    (hresp : ∀ w ∈ R.wave ++ sw, 0 ≤ curveFn lib.spline R.wave R.resp w) :
    0 < photonInt g (curveFn lib.spline R.wave R.resp) abFlux := by
  have hc := mkResponse_good hR
  have hgm : ∀ w ∈ g, w ∈ R.wave ++ sw := fun w hw => List.mem_append.mpr (hg.only w hw)
  have hknot : ∀ (i : Nat) (v : ℝ), R.resp[i]? = some v → ∃ w ∈ R.wave, curveFn lib.spline R.wave R.resp w = v := by
    intro i v hi
    obtain ⟨hil, _⟩ := List.getElem?_eq_some_iff.mp hi
    have e1 : R.wave[i]? = some (R.wave[i]'(by have := hc.len; omega)) := List.getElem?_eq_getElem _
    exact ⟨_, List.mem_of_getElem? e1, curve_at_knot hk hc.incr hc.four hc.len e1 hi⟩
  obtain ⟨v, hv, hv0⟩ := mkResponse_pos hk hR (by
    intro v hv
    obtain ⟨i, hi⟩ := List.mem_iff_getElem?.mp hv
    obtain ⟨w, hw, hwv⟩ := hknot i v hi
    rw [← hwv]
    exact hresp w (by simp [hw]))
  obtain ⟨i, hi⟩ := List.mem_iff_getElem?.mp hv
  obtain ⟨w, hw, hwv⟩ := hknot i v hi
  exact photonInt_ab_pos hg.incr (union_two hg hc.incr hc.four) (fun w hw => hpos w (hgm w hw))
      (fun w hw => hresp w (hgm w hw)) ⟨w, hg.band w hw, by rw [hwv]; exact hv0⟩

/-! ## C19, C20 -/

theorem zipWith_headD (f : ℝ → ℝ → ℝ) (a b : List ℝ) (hl : b.length = a.length) (hne : a ≠ []) :
    (List.zipWith f a b).headD 0 = f (a.headD 0) (b.headD 0) := by
  match a, b, hl with
  | x :: a, y :: b, _ => simp
  | [], _, _ => exact absurd rfl hne

theorem zipWith_getLastD (f : ℝ → ℝ → ℝ) (a b : List ℝ) (hl : b.length = a.length) (hne : a ≠ []) :
    (List.zipWith f a b).getLastD 0 = f (a.getLastD 0) (b.getLastD 0) := by
  have hpos : 0 < a.length := List.length_pos_iff.mpr hne
  simp only [List.getLastD_eq_getLast?, List.getLast?_eq_getElem?, List.length_zipWith, hl, min_self,
    List.getElem?_zipWith]
  have e1 : a[a.length - 1]? = some (a[a.length - 1]'(by omega)) := List.getElem?_eq_getElem _
  have e2 : b[a.length - 1]? = some (b[a.length - 1]'(by omega)) := List.getElem?_eq_getElem _
  rw [e1, e2]; rfl

/-- With a response that vanishes at both ends the swapped arguments do no harm. -/
theorem lambdaEff_ends (w r : List ℝ) (hl : r.length = w.length) (hne : w ≠ []) (h0 : r.headD 0 = 0)
    (h1 : r.getLastD 0 = 0) : lambdaEffOf w r = Real.exp (trapRule w (List.zipWith (fun w r => Real.log w * r / w) w r) /
      trapRule w (List.zipWith (fun w r => r / w) w r)) := by
  unfold lambdaEffOf
  rw [trapezoid_swap _ _ (by simp [hl]), trapezoid_swap _ _ (by simp [hl]), zipWith_headD _ _ _ hl hne,
    zipWith_headD _ _ _ hl hne, zipWith_getLastD _ _ _ hl hne, zipWith_getLastD _ _ _ hl hne, h0, h1]
  simp only [mul_zero, zero_div, sub_zero, zero_sub, neg_div_neg_eq, real_exp, real_log]

/-- C19 (partial): for a nonnegative response curve with positive wavelengths that vanishes at both ends, the
effective wavelength lies inside the band.  Missing: curves with a nonzero response at an end, for which the
claim is false (`C19_false`). -/
theorem C19_lambda_eff_in_band_partial (lib : Lib ℝ) (hk : KnotExact lib) (wave resp : List ℝ) (R : Resp ℝ)
    (hR : mkResponse lib wave resp = .ok R) (hpos : ∀ w ∈ wave, 0 < w) (hl : resp.length = wave.length)
    (hnn : ∀ v ∈ resp, 0 ≤ v) (h0 : R.resp.headD 0 = 0) (h1 : R.resp.getLastD 0 = 0) :
    R.wave.headD 0 ≤ R.lambdaEff ∧ R.lambdaEff ≤ R.wave.getLastD 0 := by
  obtain ⟨_, hw, hr, h3⟩ := mkResponse_ok hR
  obtain ⟨_, _, hc, hle, _⟩ := respSetup_ok (by rw [hw]; exact gather_sorted wave) h3
  have hpos' : ∀ w ∈ R.wave, 0 < w := by
    intro w hw'; rw [hw] at hw'
    exact hpos w (gather_subset (argsort_lt wave) hw')
  have hnn' : ∀ v ∈ R.resp, 0 ≤ v := by
    intro v hv; rw [hr] at hv
    exact hnn v (gather_subset (by rw [hl]; exact argsort_lt wave) hv)
  obtain ⟨v, hv, hv0⟩ := mkResponse_pos hk hR hnn'
  have hne := ne_nil_of_four hc.four
  have hlo : 0 < R.wave.headD 0 := hpos' _ (headD_mem hne)
  have hhi : 0 < R.wave.getLastD 0 := hpos' _ (getLastD_mem hne)
  rw [hle, lambdaEff_ends _ _ hc.len hne h0 h1]
  set w := R.wave
  set r := R.resp
  have hlen : r.length = w.length := hc.len
  set h := List.zipWith (fun w r : ℝ => r / w) w r with hh
  set k := List.zipWith (fun w r : ℝ => Real.log w * r / w) w r with hkk
  have hw4 : 4 ≤ w.length := hc.four
  have hhl : h.length = w.length := by simp [hh, hlen]
  have hkl : k.length = w.length := by simp [hkk, hlen]
  have hD : 0 < trapRule w h := by
    refine trapRule_pos w h hc.incr hhl.symm ?_ (by omega) ?_
    · intro u hu
      obtain ⟨i, hi, rfl⟩ := List.mem_iff_getElem.mp hu
      simp only [hh, List.getElem_zipWith]
      exact div_nonneg (hnn' _ (List.getElem_mem _)) (hpos' _ (List.getElem_mem _)).le
    · obtain ⟨i, hi, hiv⟩ := List.mem_iff_getElem.mp hv
      refine ⟨h[i]'(by omega), List.getElem_mem _, ?_⟩
      simp only [hh, List.getElem_zipWith, hiv]
      exact div_pos hv0 (hpos' _ (List.getElem_mem _))
  have hlow : Real.log (w.headD 0) * trapRule w h ≤ trapRule w k := by
    rw [← trapRule_smul]
    refine trapRule_mono _ _ _ (hc.incr.imp le_of_lt) (by simp [hhl, hkl]) ?_
    intro i hf hg
    simp only [List.getElem_map, hh, hkk, List.getElem_zipWith]
    have hwi : 0 < w[i]'(by omega) := hpos' _ (List.getElem_mem _)
    rw [mul_div_assoc]
    refine mul_le_mul_of_nonneg_right (Real.log_le_log hlo (head_le hc.incr (List.getElem_mem _)))
      (div_nonneg (hnn' _ (List.getElem_mem _)) hwi.le)
  have hhigh : trapRule w k ≤ Real.log (w.getLastD 0) * trapRule w h := by
    rw [← trapRule_smul]
    refine trapRule_mono _ _ _ (hc.incr.imp le_of_lt) (by simp [hhl, hkl]) ?_
    intro i hf hg
    simp only [List.getElem_map, hh, hkk, List.getElem_zipWith]
    have hwi : 0 < w[i]'(by omega) := hpos' _ (List.getElem_mem _)
    rw [mul_div_assoc]
    refine mul_le_mul_of_nonneg_right (Real.log_le_log hwi (le_last hc.incr (List.getElem_mem _)))
      (div_nonneg (hnn' _ (List.getElem_mem _)) hwi.le)
  constructor
  · rw [← Real.log_le_iff_le_exp hlo, le_div_iff₀ hD]; exact hlow
  · rw [← Real.le_log_iff_exp_le hhi, div_le_iff₀ hD]; exact hhigh

example : ∃ R, mkResponse demoLib [1, 2, 3, 4] [0, 1, 1, 0] = .ok R ∧ R.resp.headD 0 = 0 ∧ R.resp.getLastD 0 = 0 := by
  obtain ⟨R, hR⟩ := demo_response (wave := [1, 2, 3, 4]) (resp := [0, 1, 1, 0]) (by norm_num) (by simp) rfl
    ⟨1, by simp, by norm_num⟩
  obtain ⟨_, h2⟩ := mkResponse_sorted (sorted1234.imp le_of_lt) (by rfl) hR
  exact ⟨R, hR, by rw [h2]; rfl, by rw [h2]; rfl⟩

/-- C19 fails as stated: the top-hat band on [1, 4] gets an effective wavelength below 1. -/
theorem C19_false (lib : Lib ℝ) (R : Resp ℝ) (hR : mkResponse lib [1, 2, 3, 4] [1, 1, 1, 1] = .ok R) :
    R.lambdaEff < R.wave.headD 0 := by
  obtain ⟨h1, h2⟩ := mkResponse_sorted (sorted1234.imp le_of_lt) (by rfl) hR
  obtain ⟨_, _, _, h3⟩ := mkResponse_ok hR
  obtain ⟨_, _, _, hle, _⟩ := respSetup_ok (by rw [h1]; exact sorted1234.imp le_of_lt) h3
  rw [hle, h1, h2]
  have hl3 : Real.log 3 < 2 * Real.log 2 := by
    have : (2 : ℝ) * Real.log 2 = Real.log 4 := by
      rw [← Real.log_rpow (by norm_num)]; norm_num
    rw [this]
    exact Real.log_lt_log (by norm_num) (by norm_num)
  have hl4 : Real.log 4 = 2 * Real.log 2 := by
    rw [← Real.log_rpow (by norm_num)]; norm_num
  have hl2 : 0 < Real.log 2 := Real.log_pos (by norm_num)
  unfold lambdaEffOf
  simp only [List.zipWith_cons_cons, List.zipWith_nil_left, trapezoid_cons, trapezoid_one, real_exp, real_log, Real.log_one,
    List.headD_cons, hl4]
  rw [Real.exp_lt_one_iff]
  refine div_neg_of_pos_of_neg ?_ ?_
  · linarith
  · norm_num

example : ∃ R, mkResponse demoLib [1, 2, 3, 4] [1, 1, 1, 1] = .ok R :=
  demo_response (by norm_num) (by simp) rfl ⟨1, by simp, by norm_num⟩

theorem trapezoid_smul (x y : List ℝ) (c : ℝ) (hl : x.length = y.length) :
    trapezoid x (y.map (fun v => c * v)) = c * trapezoid x y := by
  rw [trapezoid_swap _ _ (by simpa using hl), trapezoid_swap _ _ hl, trapRule_smul]
  by_cases hy : y = []
  · subst hy
    have : x = [] := by simpa using hl
    subst this
    simp
  · rw [map_headD _ _ hy, map_getLastD _ _ hy]
    ring

theorem gather_map (f : ℝ → ℝ) (row : List ℝ) (idx : List Nat) (h : ∀ i ∈ idx, i < row.length) :
    gather (row.map f) idx = (gather row idx).map f := by
  simp only [gather, List.map_map]
  apply List.map_congr_left
  intro i hi
  have := h i hi
  simp [this]

/-- C20: multiplying a response curve by a nonzero constant leaves the effective wavelength unchanged. -/
theorem C20_lambda_eff_scale (lib : Lib ℝ) (wave resp : List ℝ) (c : ℝ) (hc : c ≠ 0) (R R' : Resp ℝ)
    (hR : mkResponse lib wave resp = .ok R) (hR' : mkResponse lib wave (resp.map (fun v => c * v)) = .ok R') :
    R'.lambdaEff = R.lambdaEff := by
  obtain ⟨hl, hw, hr, h3⟩ := mkResponse_ok hR
  obtain ⟨_, hw', hr', h3'⟩ := mkResponse_ok hR'
  obtain ⟨_, _, hg, hle, _⟩ := respSetup_ok (by rw [hw]; exact gather_sorted wave) h3
  obtain ⟨_, _, _, hle', _⟩ := respSetup_ok (by rw [hw']; exact gather_sorted wave) h3'
  have hww : R'.wave = R.wave := by rw [hw, hw']
  have hrr : R'.resp = R.resp.map (fun v => c * v) := by
    rw [hr, hr', gather_map _ _ _ (fun i hi => lt_of_lt_of_le (argsort_lt wave i hi) hl)]
  rw [hle, hle', hww, hrr]
  unfold lambdaEffOf
  have hlen := hg.len
  have e1 : List.zipWith (fun w r : ℝ => Arith.log w * r / w) R.wave (R.resp.map (fun v => c * v)) =
      (List.zipWith (fun w r : ℝ => Arith.log w * r / w) R.wave R.resp).map (fun v => c * v) := by
    apply List.ext_getElem
    · simp
    · intro i h1 h2
      simp only [List.getElem_zipWith, List.getElem_map]
      ring
  have e2 : List.zipWith (fun w r : ℝ => r / w) R.wave (R.resp.map (fun v => c * v)) =
      (List.zipWith (fun w r : ℝ => r / w) R.wave R.resp).map (fun v => c * v) := by
    apply List.ext_getElem
    · simp
    · intro i h1 h2
      simp only [List.getElem_zipWith, List.getElem_map]
      ring
  simp only [e1, e2]
  rw [trapezoid_smul _ _ _ (by simp [hlen]), trapezoid_smul _ _ _ (by simp [hlen]), mul_div_mul_left _ _ hc]

example : ∃ R R', mkResponse demoLib [1, 2, 3, 4] [0, 1, 1, 0] = .ok R ∧
    mkResponse demoLib [1, 2, 3, 4] ([0, 1, 1, 0].map (fun v => 3 * v)) = .ok R' := by
  obtain ⟨R, hR⟩ := demo_response (wave := [1, 2, 3, 4]) (resp := [0, 1, 1, 0]) (by norm_num) (by simp) rfl
    ⟨1, by simp, by norm_num⟩
  obtain ⟨R', hR'⟩ := demo_response (wave := [1, 2, 3, 4]) (resp := [0, 1, 1, 0].map (fun v => 3 * v)) (by norm_num)
    (by simp) rfl ⟨3, by simp, by norm_num⟩
  exact ⟨R, R', hR, hR'⟩

/-! ## C21, C22 -/

theorem photonInt_linear (g : List ℝ) (r f1 f2 : ℝ → ℝ) (a b : ℝ) :
    photonInt g r (fun w => a * f1 w + b * f2 w) = a * photonInt g r f1 + b * photonInt g r f2 := by
  unfold photonInt
  rw [← trapRule_smul a, ← trapRule_smul b, ← trapRule_add _ _ _ (by simp)]
  congr 1
  apply List.ext_getElem
  · simp
  · intro i h1 h2
    simp only [List.getElem_zipWith, List.getElem_map]
    ring

theorem curveFn_linear {lib : Lib ℝ} (hl : SplineLinear lib) (x y1 y2 : List ℝ) (a b : ℝ) (h1 : y1.length = x.length)
    (h2 : y2.length = x.length) (q : ℝ) : curveFn lib.spline x (List.zipWith (fun u v => a * u + b * v) y1 y2) q =
      a * curveFn lib.spline x y1 q + b * curveFn lib.spline x y2 q := by
  unfold curveFn
  split
  · simp
  · exact hl x y1 y2 a b q h1 h2

theorem curveFn_smul {lib : Lib ℝ} (hl : SplineLinear lib) (x y : List ℝ) (a : ℝ) (h : y.length = x.length) (q : ℝ) :
    curveFn lib.spline x (y.map (fun v => a * v)) q = a * curveFn lib.spline x y q := by
  unfold curveFn
  split
  · simp
  · exact hl.smul x y a q h

theorem bandIntegral_linear (g : List ℝ) (f1 f2 r : ℝ → ℝ) (a b : ℝ) :
    bandIntegral g (g.map (fun w => a * f1 w + b * f2 w)) (g.map r) =
      a * bandIntegral g (g.map f1) (g.map r) + b * bandIntegral g (g.map f2) (g.map r) := by
  by_cases hg : g = []
  · subst hg; simp [bandIntegral]
  · rw [bandIntegral_eq g hg, bandIntegral_eq g hg, bandIntegral_eq g hg, photonInt_linear]
    ring

/-- C21: the maggies of a linear combination of two spectra on the same wavelengths are the same linear
combination of their maggies. -/
theorem C21_project_linear (lib : Lib ℝ) (hlin : SplineLinear lib) (wave resp : List ℝ) (R : Resp ℝ)
    (hR : mkResponse lib wave resp = .ok R) (sw : List ℝ) (hs : sw.Pairwise (· < ·)) (y1 y2 : List ℝ) (a b : ℝ)
    (m1 m2 m : NDA ℝ) (h1 : Projects lib R.toCurve sw [y1] m1) (h2 : Projects lib R.toCurve sw [y2] m2)
    (h : Projects lib R.toCurve sw [List.zipWith (fun u v => a * u + b * v) y1 y2] m) :
    ∃ v1 v2, m1 = .scalar v1 ∧ m2 = .scalar v2 ∧ m = .scalar (a * v1 + b * v2) := by
  have hc := mkResponse_good hR
  obtain ⟨rfl, _, hl1⟩ := projects_eq hs h1
  obtain ⟨rfl, _, hl2⟩ := projects_eq hs h2
  obtain ⟨rfl, _, _⟩ := projects_eq hs h
  obtain ⟨v1, e1⟩ := projectWith_single (lib := lib) (c := R.toCurve) (sw := sw) (y := y1)
  obtain ⟨v2, e2⟩ := projectWith_single (lib := lib) (c := R.toCurve) (sw := sw) (y := y2)
  obtain ⟨v, e⟩ := projectWith_single (lib := lib) (c := R.toCurve) (sw := sw)
    (y := List.zipWith (fun u v => a * u + b * v) y1 y2)
  refine ⟨v1, v2, e1, e2, ?_⟩
  rw [e]
  cases hg : projGrid sw R.wave with
  | none =>
    rw [projectWith_none hg] at e1 e2 e
    cases e1; cases e2; cases e
    simp
  | some g =>
    have f1 := projectWith_some (lib := lib) (rows := [y1]) hc hg
    have f2 := projectWith_some (lib := lib) (rows := [y2]) hc hg
    have f := projectWith_some (lib := lib) (rows := [List.zipWith (fun u v => a * u + b * v) y1 y2]) hc hg
    rw [e1] at f1; rw [e2] at f2; rw [e] at f
    simp only [NDA.flat, List.map_cons, List.map_nil, List.cons.injEq, and_true] at f1 f2 f
    have ec : g.map (curveFn lib.spline sw (List.zipWith (fun u v => a * u + b * v) y1 y2)) =
        g.map (fun w => a * curveFn lib.spline sw y1 w + b * curveFn lib.spline sw y2 w) :=
      List.map_congr_left (fun w _ => curveFn_linear hlin sw y1 y2 a b (hl1 y1 (by simp)) (hl2 y2 (by simp)) w)
    rw [f, ec, bandIntegral_linear, f1, f2]
    congr 1
    ring

example : ∃ R m1 m2 m, mkResponse demoLib [1, 2, 3, 4] [0, 1, 1, 0] = .ok R ∧
    Projects demoLib R.toCurve [1, 2, 3, 4] [[1, 2, 3, 4]] m1 ∧ Projects demoLib R.toCurve [1, 2, 3, 4] [[1, 0, 1, 0]] m2 ∧
    Projects demoLib R.toCurve [1, 2, 3, 4] [List.zipWith (fun u v => 2 * u + 3 * v) [1, 2, 3, 4] [1, 0, 1, 0]] m := by
  obtain ⟨R, hR⟩ := demo_response (wave := [1, 2, 3, 4]) (resp := [0, 1, 1, 0]) (by norm_num) (by simp) rfl
    ⟨1, by simp, by norm_num⟩
  obtain ⟨m1, h1⟩ := projects_exists demoLib R.toCurve [1, 2, 3, 4] [1, 2, 3, 4] sorted1234 (by simp) rfl
  obtain ⟨m2, h2⟩ := projects_exists demoLib R.toCurve [1, 2, 3, 4] [1, 0, 1, 0] sorted1234 (by simp) rfl
  obtain ⟨m, h⟩ := projects_exists demoLib R.toCurve [1, 2, 3, 4]
    (List.zipWith (fun u v => 2 * u + 3 * v) [1, 2, 3, 4] [1, 0, 1, 0]) sorted1234 (by simp) rfl
  exact ⟨R, m1, m2, m, hR, h1, h2, h⟩

theorem bandIntegral_resp (g : List ℝ) (f r : ℝ → ℝ) (c : ℝ) :
    bandIntegral g (g.map f) (g.map (fun w => c * r w)) = c * bandIntegral g (g.map f) (g.map r) := by
  by_cases hg : g = []
  · subst hg; simp [bandIntegral]
  · have e : photonInt g (fun w => c * r w) f = c * photonInt g r f := by
      unfold photonInt
      rw [← trapRule_smul c]
      congr 1
      apply List.ext_getElem
      · simp
      · intro i h1 h2
        simp only [List.getElem_map]
        ring
    rw [bandIntegral_eq g hg, bandIntegral_eq g hg, e]
    ring

theorem projOnGrid_resp (g : List ℝ) (rows : List (List ℝ)) (f : List ℝ → ℝ → ℝ) (r : ℝ → ℝ) (c : ℝ) (hc : c ≠ 0) :
    projOnGrid g (rows.map (fun y => g.map (f y))) (g.map (fun w => c * r w)) =
      projOnGrid g (rows.map (fun y => g.map (f y))) (g.map r) := by
  have e : g.map sedAbAt = g.map abFlux := List.map_congr_left (fun w _ => sedAbAt_real w)
  unfold projOnGrid
  simp only [e, bandIntegral_resp]
  split
  · rename_i s hs
    match rows, hs with
    | [y], hs =>
      simp only [List.map_cons, List.map_nil, List.cons.injEq, and_true] at hs
      subst hs
      rw [bandIntegral_resp, mul_div_mul_left _ _ hc]
  · congr 1
    rw [List.map_map, List.map_map]
    apply List.map_congr_left
    intro y _
    simp only [Function.comp_apply, bandIntegral_resp, real_f32]
    rw [mul_div_mul_left _ _ hc]

/-- C22: multiplying the response by a nonzero constant leaves `project` unchanged, value and shape. -/
theorem C22_project_resp_scale (lib : Lib ℝ) (hlin : SplineLinear lib) (wave resp : List ℝ) (c : ℝ) (hc : c ≠ 0)
    (R R' : Resp ℝ) (hR : mkResponse lib wave resp = .ok R)
    (hR' : mkResponse lib wave (resp.map (fun v => c * v)) = .ok R') (sw : List ℝ) (hs : sw.Pairwise (· < ·))
    (rows : List (List ℝ)) (m m' : NDA ℝ) (h : Projects lib R.toCurve sw rows m) (h' : Projects lib R'.toCurve sw rows m') :
    m' = m := by
  have hg := mkResponse_good hR
  have hg' := mkResponse_good hR'
  obtain ⟨hl, hw, hr, _⟩ := mkResponse_ok hR
  obtain ⟨_, hw', hr', _⟩ := mkResponse_ok hR'
  have hww : R'.wave = R.wave := by rw [hw, hw']
  have hrr : R'.resp = R.resp.map (fun v => c * v) := by
    rw [hr, hr', gather_map _ _ _ (fun i hi => lt_of_lt_of_le (argsort_lt wave i hi) hl)]
  obtain ⟨rfl, _, _⟩ := projects_eq hs h
  obtain ⟨rfl, _, _⟩ := projects_eq hs h'
  unfold projectWith
  rw [hww]
  split
  · rfl
  · rename_i g _
    have e1 : g.map (R'.toCurve.at lib) = g.map (fun w => c * R.toCurve.at lib w) := by
      apply List.map_congr_left
      intro w _
      rw [hg.at_eq, hg'.at_eq, hww, hrr, curveFn_smul hlin _ _ _ hg.len]
    rw [e1]
    exact projOnGrid_resp g rows (fun y => interpRow lib sw y) (R.toCurve.at lib) c hc

/-- Not vacuous: a curve and twice that curve both build and project the same spectrum. -/
example : ∃ R R' m m', mkResponse demoLib [1, 2, 3, 4] [0, 1, 1, 0] = .ok R ∧
    mkResponse demoLib [1, 2, 3, 4] (([0, 1, 1, 0] : List ℝ).map (fun v => 2 * v)) = .ok R' ∧
    Projects demoLib R.toCurve [1, 2, 3, 4] [[1, 2, 3, 4]] m ∧ Projects demoLib R'.toCurve [1, 2, 3, 4] [[1, 2, 3, 4]] m' := by
  obtain ⟨R, hR⟩ := demo_response (wave := [1, 2, 3, 4]) (resp := [0, 1, 1, 0]) (by norm_num) (by simp) rfl
    ⟨1, by simp, by norm_num⟩
  obtain ⟨R', hR'⟩ := demo_response (wave := [1, 2, 3, 4]) (resp := ([0, 1, 1, 0] : List ℝ).map (fun v => 2 * v))
    (by norm_num) (by simp) rfl ⟨2, by simp, by norm_num⟩
  obtain ⟨m, h⟩ := projects_exists demoLib R.toCurve [1, 2, 3, 4] [1, 2, 3, 4] sorted1234 (by simp) rfl
  obtain ⟨m', h'⟩ := projects_exists demoLib R'.toCurve [1, 2, 3, 4] [1, 2, 3, 4] sorted1234 (by simp) rfl
  exact ⟨R, R', m, m', hR, hR', h, h'⟩

end KC
