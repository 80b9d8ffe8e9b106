import Verif.Props.NoisyFit
import Verif.Props.Stable

/-!
# Chi-squared and errors of the fit to a galaxy made of the templates (C207)
-/

namespace KC
open Spec MeasureTheory ProbabilityTheory

namespace Spec

/-- The sum of the squares of the deviates of the bands with positive inverse variance. -/
noncomputable def noise2 (iv : List ℝ) (g : Nat → ℝ) : ℝ := ∑ j ∈ (Finset.range iv.length).filter (fun j => 0 < iv.getD j 0), g j ^ 2

/-- The number of bands with positive inverse variance. -/
noncomputable def bandsUsed (iv : List ℝ) : Nat := (iv.filter (fun v => decide (0 < v))).length

end Spec

theorem bandsUsed_card (iv : List ℝ) : ((Finset.range iv.length).filter (fun j => 0 < iv.getD j 0)).card = bandsUsed iv := by
  induction iv with
  | nil => rfl
  | cons v iv ih =>
    rw [List.length_cons, Finset.range_add_one', Finset.filter_insert, Finset.filter_map, bandsUsed, List.filter_cons]
    have e : ((fun j => 0 < (v :: iv).getD j 0) ∘ fun i => i + 1) = fun j => 0 < iv.getD j 0 := by
      funext j
      simp
    by_cases hv : 0 < v
    · simp only [List.getD_cons_zero, hv, if_true, decide_true, List.length_cons]
      rw [Finset.card_insert_of_notMem (by simp), Finset.card_map]
      congr 1
    · simp only [List.getD_cons_zero, hv, if_false, decide_false]
      rw [Finset.card_map]
      exact ih

/-- Chi-squared of the true photometry with respect to the observed one. -/
theorem observed_chi2 (cls : Cls) (m iv : List ℝ) (hl : iv.length = m.length) (hpos : ∀ v ∈ iv, 0 ≤ v) (g : Nat → ℝ) :
    chi2 (abM cls m) (abIv cls iv) (abM cls (observed m iv g)) = noise2 iv g := by
  rw [chi2_sum m.length _ _ _ (abM_length _ _) (by rw [abIv_length, hl]) (by rw [abM_length, observed_length]), noise2, Finset.sum_filter, hl, ← Fin.sum_univ_eq_sum_range
    (fun j => if 0 < iv.getD j 0 then g j ^ 2 else 0)]
  refine Finset.sum_congr rfl fun j _ => ?_
  have hf := abFactor_pos cls j
  have h1 : iv[(j : Nat)]? = some (iv.getD j 0) := by
    rw [List.getD_eq_getElem?_getD, List.getElem?_eq_getElem (by rw [hl]; exact j.2)]; rfl
  have h2 : m[(j : Nat)]? = some (m.getD j 0) := by
    rw [List.getD_eq_getElem?_getD, List.getElem?_eq_getElem j.2]; rfl
  have e0 : ∀ (l : List ℝ) (x : ℝ), l[(j : Nat)]? = some x → ent l j = x := fun l x hx => by
    unfold ent
    rw [List.getD_eq_getElem?_getD, hx]
    rfl
  have e1 : ent (abIv cls iv) j = iv.getD j 0 / abFactor cls j ^ 2 := e0 _ _ (by rw [abIv_get, h1]; rfl)
  have e2 : ent (abM cls m) j = m.getD j 0 * abFactor cls j := e0 _ _ (by rw [abM_get, h2]; rfl)
  have e3 : ent (abM cls (observed m iv g)) j = (m.getD j 0 + g j / Real.sqrt (iv.getD j 0)) * abFactor cls j :=
    e0 _ _ (by rw [abM_get, observed, List.getElem?_mapIdx, h2]; rfl)
  rw [e1, e2, e3]
  rcases (hpos _ (List.mem_of_getElem? h1)).lt_or_eq with hv | hv
  · rw [if_pos hv]
    have hs := Real.sq_sqrt hv.le
    have hs0 := Real.sqrt_pos.mpr hv
    generalize iv.getD (j : Nat) 0 = v at *
    generalize Real.sqrt v = q at *
    rw [← hs]
    field_simp
    ring
  · rw [if_neg (by rw [← hv]; exact lt_irrefl _), ← hv]
    simp

theorem chi2_residual : ∀ a b iv r : List ℝ, a.length = b.length → chi2 (sub a a) iv (sub b r) = chi2 b iv r
  | [], [], _, _, _ => rfl
  | _ :: _, _ :: _, [], _, _ => by simp [chi2]
  | _ :: _, _ :: _, _ :: _, [], _ => by simp [chi2, sub]
  | x :: a, y :: b, v :: iv, w :: r, h => by
    have ih := chi2_residual a b iv r (by simpa using h)
    simp only [sub, List.zipWith_cons_cons, chi2_cons] at ih ⊢
    rw [ih]
    ring

/-- C207: for a galaxy that is a nonnegative combination of the templates, chi-squared of the fit to photometry with errors, plus the squared distance of the fitted photometry from the
true one in units of the errors, is at most the sum of the squares of the errors in these units.  In bands with inverse variance zero the photometry may hold anything. -/
theorem C207_bound (nnls : Nnls ℝ) (hn : NNLSOK nnls) (F : Fitter ℝ) (A : AMat ℝ) (hR : Ready F A) (hr : AbReady F.abCls F.responses.length) (z : ℝ) (hz : InRange A.x z)
    (m iv c : List ℝ) (hm : m.length = F.responses.length) (hiv : iv.length = F.responses.length) (hpos : ∀ v ∈ iv, 0 ≤ v) (hc : c.length = F.templates.nsed) (hc0 : ∀ v ∈ c, 0 ≤ v)
    (hrec : F.reconstruct (some (.scalar z)) (some (.vec c)) 0 = .ok (.vec (abM F.abCls m))) (g : Nat → ℝ) (d : List ℝ) (hd : Agree iv d (observed m iv g))
    (noise : Nat → Nat → Nat → ℝ) (out : FitOut ℝ) (h : F.fitCoeffs nnls (some (.scalar z)) (some (.vec d)) (some (.vec iv)) 0 noise = .ok out) :
    ∃ r, F.reconstruct (some (.scalar z)) (some out.coeffs) 0 = .ok (.vec r) ∧
      chi2 (abM F.abCls d) (abIv F.abCls iv) r + chi2 (abM F.abCls m) (abIv F.abCls iv) r ≤ noise2 iv g := by
  obtain ⟨c', rfl, ho'⟩ := C49_ab nnls hn F hr A hR z hz d iv (by rw [hd.1, observed_length, hm]) hiv hpos noise out h
  rw [agree_optimal hd hpos] at ho'
  obtain ⟨m', _, h1, ho⟩ := exact_optimal hR hz hc hc0 (abIv_nonneg F.abCls iv hpos)
  rw [hrec] at h1
  simp only [Except.ok.injEq, NDA.vec, NDA.arr.injEq, List.cons.injEq, and_true] at h1
  rw [← h1.2.2] at ho
  obtain ⟨r, r', hr1, hr2, hle⟩ := C153_nonexpansive F A hR z hz _ _ _ c c' (by rw [abM_length, hm]) (by rw [abM_length, observed_length, hm]) (abIv_nonneg F.abCls iv hpos) ho ho'
  rw [hrec] at hr1
  simp only [Except.ok.injEq, NDA.vec, NDA.arr.injEq, List.cons.injEq, and_true] at hr1
  obtain rfl := hr1.2.2
  refine ⟨r', hr2, ?_⟩
  rw [agree_chi2 hd hpos]
  rw [observed_chi2 F.abCls m iv (by rw [hiv, hm]) hpos g] at hle
  rw [chi2_residual _ _ _ _ (by rw [abM_length, abM_length, observed_length])] at hle
  linarith

/-- The sum of the squares of standard normal deviates exceeds `t` with probability at most their number divided by `t`. -/
theorem noise2_tail {Ω : Type} [MeasurableSpace Ω] (P : Measure Ω) (g : Ω → Nat → ℝ) (hg : ∀ j, HasLaw (fun ω => g ω j) (gaussianReal 0 1) P) (iv : List ℝ) (t : ℝ) (ht : 0 < t) :
    P {ω | t ≤ noise2 iv (g ω)} ≤ ENNReal.ofReal (bandsUsed iv / t) := by
  have one : ∀ j, ∫⁻ ω, ENNReal.ofReal (g ω j ^ 2) ∂P = 1 := by
    intro j
    have h1 : ∫⁻ ω, ENNReal.ofReal (g ω j ^ 2) ∂P = ∫⁻ x, ENNReal.ofReal (x ^ 2) ∂(gaussianReal 0 1) := by
      rw [← (hg j).map_eq, lintegral_map' (by fun_prop) (hg j).aemeasurable]
    have h2 := variance_id_gaussianReal (μ := 0) (v := 1)
    have h3 : Var[id; gaussianReal 0 1] = ∫ x, x ^ 2 ∂(gaussianReal 0 1) := by
      rw [variance_of_integral_eq_zero aemeasurable_id (by simp)]
      simp
    have h4 : Integrable (fun x : ℝ => x ^ 2) (gaussianReal 0 1) := by
      simpa using (memLp_id_gaussianReal (μ := 0) (v := 1) 2).integrable_sq
    rw [h1, ← ofReal_integral_eq_lintegral_ofReal h4 (ae_of_all _ fun x => sq_nonneg x), ← h3, h2]
    simp
  have hm : ∀ j, AEMeasurable (fun ω => ENNReal.ofReal (g ω j ^ 2)) P := fun j => ((hg j).aemeasurable.pow_const 2).ennreal_ofReal
  have tot : ∫⁻ ω, ENNReal.ofReal (noise2 iv (g ω)) ∂P = ENNReal.ofReal (bandsUsed iv) := by
    simp only [noise2]
    simp_rw [ENNReal.ofReal_sum_of_nonneg (fun _ _ => sq_nonneg _)]
    rw [lintegral_finset_sum' _ (fun j _ => hm j), Finset.sum_congr rfl fun j _ => one j, Finset.sum_const, bandsUsed_card]
    simp
  have hae : AEMeasurable (fun ω => ENNReal.ofReal (noise2 iv (g ω))) P := by
    apply AEMeasurable.ennreal_ofReal
    simp only [noise2]
    exact Finset.aemeasurable_fun_sum _ fun j _ => (hg j).aemeasurable.pow_const 2
  have hmk := meas_ge_le_lintegral_div hae (ε := ENNReal.ofReal t) (by simpa using ht) ENNReal.ofReal_ne_top
  rw [tot, ← ENNReal.ofReal_div_of_pos ht] at hmk
  refine (measure_mono fun ω hω => ?_).trans hmk
  exact ENNReal.ofReal_le_ofReal hω

/-- C207: chi-squared of the fit and the distance of the fitted photometry from the true one, in units of the errors, exceed `t` with probability at most the number of bands used
divided by `t`. -/
theorem C207_probability {Ω : Type} [MeasurableSpace Ω] (P : Measure Ω) (g : Ω → Nat → ℝ) (hg : ∀ j, HasLaw (fun ω => g ω j) (gaussianReal 0 1) P) (nnls : Nnls ℝ) (hn : NNLSOK nnls)
    (F : Fitter ℝ) (A : AMat ℝ) (hR : Ready F A) (hr : AbReady F.abCls F.responses.length) (z : ℝ) (hz : InRange A.x z) (m iv c : List ℝ)
    (hm : m.length = F.responses.length) (hiv : iv.length = F.responses.length) (hpos : ∀ v ∈ iv, 0 ≤ v) (hc : c.length = F.templates.nsed) (hc0 : ∀ v ∈ c, 0 ≤ v)
    (hrec : F.reconstruct (some (.scalar z)) (some (.vec c)) 0 = .ok (.vec (abM F.abCls m))) (t : ℝ) (ht : 0 < t) :
    P {ω | ∃ d noise out r, Agree iv d (observed m iv (g ω)) ∧ F.fitCoeffs nnls (some (.scalar z)) (some (.vec d)) (some (.vec iv)) 0 noise = .ok out ∧
      F.reconstruct (some (.scalar z)) (some out.coeffs) 0 = .ok (.vec r) ∧
      t ≤ chi2 (abM F.abCls d) (abIv F.abCls iv) r + chi2 (abM F.abCls m) (abIv F.abCls iv) r} ≤ ENNReal.ofReal (bandsUsed iv / t) := by
  refine (measure_mono fun ω hω => ?_).trans (noise2_tail P g hg iv t ht)
  obtain ⟨d, noise, out, r, hd, hf, hr1, hle⟩ := hω
  obtain ⟨r', hr2, hle'⟩ := C207_bound nnls hn F A hR hr z hz m iv c hm hiv hpos hc hc0 hrec (g ω) d hd noise out hf
  rw [hr1] at hr2
  simp only [Except.ok.injEq, NDA.vec, NDA.arr.injEq, List.cons.injEq, and_true] at hr2
  rw [← hr2.2.2] at hle'
  exact hle.trans hle'

/-- C207 for one band: the fitted flux is off by `d` standard errors with probability at most the number of bands used divided by `d ^ 2`. -/
theorem C207_band {Ω : Type} [MeasurableSpace Ω] (P : Measure Ω) (g : Ω → Nat → ℝ) (hg : ∀ j, HasLaw (fun ω => g ω j) (gaussianReal 0 1) P) (nnls : Nnls ℝ) (hn : NNLSOK nnls)
    (F : Fitter ℝ) (A : AMat ℝ) (hR : Ready F A) (hr : AbReady F.abCls F.responses.length) (z : ℝ) (hz : InRange A.x z) (m iv c : List ℝ)
    (hm : m.length = F.responses.length) (hiv : iv.length = F.responses.length) (hpos : ∀ v ∈ iv, 0 ≤ v) (hc : c.length = F.templates.nsed) (hc0 : ∀ v ∈ c, 0 ≤ v)
    (hrec : F.reconstruct (some (.scalar z)) (some (.vec c)) 0 = .ok (.vec (abM F.abCls m))) (d : ℝ) (hd : 0 < d) (j : Nat) (x v : ℝ) (hx : (abM F.abCls m)[j]? = some x)
    (hv : (abIv F.abCls iv)[j]? = some v) (hv0 : 0 < v) :
    P {ω | ∃ p noise out r y, Agree iv p (observed m iv (g ω)) ∧ F.fitCoeffs nnls (some (.scalar z)) (some (.vec p)) (some (.vec iv)) 0 noise = .ok out ∧
      F.reconstruct (some (.scalar z)) (some out.coeffs) 0 = .ok (.vec r) ∧ r[j]? = some y ∧ d / Real.sqrt v ≤ |y - x|} ≤ ENNReal.ofReal (bandsUsed iv / d ^ 2) := by
  refine (measure_mono fun ω hω => ?_).trans (C207_probability P g hg nnls hn F A hR hr z hz m iv c hm hiv hpos hc hc0 hrec (d ^ 2) (by positivity))
  obtain ⟨p, noise, out, r, y, hp, hf, hr1, hy, hle⟩ := hω
  refine ⟨p, noise, out, r, hp, hf, hr1, ?_⟩
  have h1 := chi2_nonneg (abM F.abCls p) (abIv F.abCls iv) r (abIv_nonneg F.abCls iv hpos)
  have h2 := chi2_band (abIv F.abCls iv) (abM F.abCls m) r (abIv_nonneg F.abCls iv hpos) j v x y hv hx hy
  have h3 : d ^ 2 ≤ v * (x - y) ^ 2 := by
    have hs := Real.sqrt_pos.mpr hv0
    rw [div_le_iff₀ hs] at hle
    have : d ^ 2 ≤ (|y - x| * Real.sqrt v) ^ 2 := by gcongr
    rw [mul_pow, sq_abs, Real.sq_sqrt hv0.le] at this
    nlinarith
  linarith

/-- The hypotheses hold for independent standard normal deviates and a galaxy made of equal parts of two templates; both bands are used. -/
example : ∃ (Ω : Type) (_ : MeasurableSpace Ω) (P : Measure Ω) (g : Ω → Nat → ℝ), (∀ j, HasLaw (fun ω => g ω j) (gaussianReal 0 1) P) ∧ NNLSOK (lhNnls 0) ∧
    Ready demoKc2.toFitter demoAm2 ∧ AbReady demoKc2.abCls demoKc2.responses.length ∧ demoKc2.responses.length = 2 ∧ InRange demoAm2.x 2 ∧ demoKc2.templates.nsed = 2 ∧
    demoKc2.reconstruct (some (.scalar 2)) (some (.vec [1, 1])) 0 = .ok (.vec (abM demoKc2.abCls [3, 3])) ∧ bandsUsed [1, 1 / 2] = 2 := by
  obtain ⟨Ω, hΩ, P, g, _, _, _, h1, h2, h3, _, h5, h6, h7, _, h9, h10, _⟩ := demo_truth
  exact ⟨Ω, hΩ, P, g, h1, h2, h3, h5, h6, h7, h9, h10, by norm_num [bandsUsed]⟩

end KC
