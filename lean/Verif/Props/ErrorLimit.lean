import Verif.Props.SampleErrors
import Mathlib.Probability.StrongLaw
import Mathlib.Probability.Distributions.Gaussian.Real
import Mathlib.Analysis.SpecialFunctions.Integrability.Basic
import Mathlib.Probability.ConditionalProbability
import Mathlib.Probability.HasLawExists

/-!
# The limit of the documented errors (C218)
-/

namespace KC
open Spec MeasureTheory ProbabilityTheory Filter Topology

/-- the scatter as mean square minus squared mean -/
theorem scatter_eq (S : Finset ℕ) (hS : S.Nonempty) (f : ℕ → ℝ) :
    scatter S f = Real.sqrt ((∑ k ∈ S, f k ^ 2) / S.card - ((∑ k ∈ S, f k) / S.card) ^ 2) := by
  have hc : (S.card : ℝ) ≠ 0 := by exact_mod_cast hS.card_ne_zero
  unfold scatter
  congr 1
  have e : ∀ m : ℝ, ∑ k ∈ S, (f k - m) ^ 2 = ∑ k ∈ S, f k ^ 2 - 2 * m * ∑ k ∈ S, f k + S.card * m ^ 2 := by
    intro m
    rw [Finset.mul_sum, ← nsmul_eq_mul, ← Finset.sum_const, ← Finset.sum_sub_distrib, ← Finset.sum_add_distrib]
    exact Finset.sum_congr rfl (fun k _ => by ring)
  rw [e]
  field_simp
  ring

/-- the density of a normal law is bounded -/
theorem gaussian_le (μ : ℝ) (v : NNReal) (hv : v ≠ 0) :
    gaussianReal μ v ≤ ENNReal.ofReal ((Real.sqrt (2 * Real.pi * v))⁻¹) • (volume : Measure ℝ) := by
  rw [gaussianReal_of_var_ne_zero μ hv, ← withDensity_const]
  refine withDensity_mono (Filter.Eventually.of_forall fun x => ?_)
  rw [gaussianPDF_def]
  refine ENNReal.ofReal_le_ofReal ?_
  unfold gaussianPDFReal
  refine mul_le_of_le_one_right (by positivity) ?_
  rw [Real.exp_le_one_iff]
  exact div_nonpos_of_nonpos_of_nonneg (neg_nonpos.mpr (sq_nonneg _)) (by positivity)

/-- The squared magnitude of the positive fluxes of a normal law has a mean value. -/
theorem mag_sq_integrable (μ : ℝ) (v : NNReal) (hv : v ≠ 0) :
    Integrable (fun x : ℝ => if 0 < x then mag x ^ 2 else 0) (gaussianReal μ v) := by
  have h1 : Integrable (fun x : ℝ => if 0 < x ∧ x ≤ 1 then x ^ (-(1 / 2) : ℝ) else 0) (gaussianReal μ v) := by
    have h0 : IntegrableOn (fun x : ℝ => x ^ (-(1 / 2) : ℝ)) (Set.Ioc 0 1) volume :=
      (intervalIntegrable_iff_integrableOn_Ioc_of_le zero_le_one).mp (intervalIntegral.intervalIntegrable_rpow' (by norm_num))
    have h2 := (integrable_indicator_iff measurableSet_Ioc).mpr h0
    have h3 : Integrable ((Set.Ioc 0 1).indicator (fun x : ℝ => x ^ (-(1 / 2) : ℝ))) (gaussianReal μ v) :=
      (h2.smul_measure ENNReal.ofReal_ne_top).mono_measure (gaussian_le μ v hv)
    refine h3.congr (Filter.Eventually.of_forall fun x => ?_)
    simp only [Set.indicator, Set.mem_Ioc]
  have h2 : Integrable (fun x : ℝ => x ^ 2) (gaussianReal μ v) := (memLp_id_gaussianReal 2).integrable_sq
  have hb := ((h1.const_mul 16).add h2).const_mul ((2.5 / Real.log 10) ^ 2)
  refine hb.mono' ?_ (Filter.Eventually.of_forall fun x => ?_)
  · refine (Measurable.ite measurableSet_Ioi ?_ measurable_const).aestronglyMeasurable
    unfold mag Real.logb
    fun_prop
  · simp only [Pi.add_apply]
    by_cases hx : 0 < x
    · rw [if_pos hx, Real.norm_eq_abs, abs_of_nonneg (sq_nonneg _)]
      have hm : mag x ^ 2 = (2.5 / Real.log 10) ^ 2 * Real.log x ^ 2 := by
        unfold mag Real.logb
        ring
      rw [hm]
      refine mul_le_mul_of_nonneg_left ?_ (sq_nonneg _)
      by_cases h1 : x ≤ 1
      · rw [if_pos ⟨hx, h1⟩]
        have h := Real.abs_log_mul_self_rpow_lt x (1 / 4) hx h1 (by norm_num)
        have h4 : (Real.log x * x ^ (1 / 4 : ℝ)) ^ 2 ≤ 16 := by
          rw [← sq_abs]
          have := abs_nonneg (Real.log x * x ^ (1 / 4 : ℝ))
          rw [show (1 : ℝ) / (1 / 4) = 4 by norm_num] at h
          nlinarith
        have h5 : (x ^ (1 / 4 : ℝ)) ^ 2 * x ^ (-(1 / 2) : ℝ) = 1 := by
          rw [← Real.rpow_natCast, ← Real.rpow_mul hx.le, ← Real.rpow_add hx]
          norm_num
        have h6 : 0 < x ^ (-(1 / 2) : ℝ) := Real.rpow_pos_of_pos hx _
        have h7 : Real.log x ^ 2 = (Real.log x * x ^ (1 / 4 : ℝ)) ^ 2 * x ^ (-(1 / 2) : ℝ) := by
          rw [mul_pow, mul_assoc, h5, mul_one]
        rw [h7]
        nlinarith [sq_nonneg x]
      · rw [if_neg (fun h => h1 h.2)]
        push Not at h1
        have h8 := Real.log_nonneg h1.le
        have h9 := Real.log_le_sub_one_of_pos hx
        nlinarith
    · rw [if_neg hx, norm_zero]
      refine mul_nonneg (sq_nonneg _) ?_
      rw [if_neg (fun h => hx h.1)]
      nlinarith [sq_nonneg x]

/-- Standard deviation of a random variable given an event. -/
noncomputable def Spec.condSd {Ω : Type} [MeasurableSpace Ω] (P : Measure Ω) (S : Set Ω) (Y : Ω → ℝ) : ℝ := Real.sqrt (Var[Y; P[|S]])

theorem means_limit {Ω E : Type} [MeasurableSpace Ω] [MeasurableSpace E] {P : Measure Ω} {ν : Measure E} {W : ℕ → Ω → E} (hi : iIndepFun W P)
    (hl : ∀ k, HasLaw (W k) ν P) (φ : E → ℝ) (hφ : Measurable φ) (hint : Integrable φ ν) :
    ∀ᵐ ω ∂P, Tendsto (fun n : ℕ => (∑ k ∈ Finset.range n, φ (W k ω)) / n) atTop (𝓝 (∫ w, φ w ∂ν)) := by
  have hid : ∀ k, IdentDistrib (W k) (W 0) P P := fun k => ⟨(hl k).aemeasurable, (hl 0).aemeasurable, by rw [(hl k).map_eq, (hl 0).map_eq]⟩
  have e : ∫ w, φ w ∂ν = ∫ ω, φ (W 0 ω) ∂P := by
    rw [← (hl 0).map_eq, integral_map (hl 0).aemeasurable hφ.aestronglyMeasurable]
  rw [e]
  rw [← (hl 0).map_eq] at hint
  exact strong_law_ae_real (fun k ω => φ (W k ω)) (hint.comp_aemeasurable (hl 0).aemeasurable) (fun _ _ h => (hi.indepFun h).comp hφ hφ) (fun k => (hid k).comp hφ)

/-- The scatter of the kept values tends to their standard deviation. -/
theorem scatter_limit {Ω E : Type} [MeasurableSpace Ω] [MeasurableSpace E] {P : Measure Ω} {ν : Measure E} [IsProbabilityMeasure ν] {W : ℕ → Ω → E} (hi : iIndepFun W P)
    (hl : ∀ k, HasLaw (W k) ν P) (a y : E → ℝ) (ha : Measurable a) (hy : Measurable y)
    (hp : 0 < ν {w | 0 < a w}) (hint : Integrable (fun w => if 0 < a w then y w ^ 2 else 0) ν) :
    ∀ᵐ ω ∂P, (∀ᶠ n : ℕ in atTop, ∃ k < n, 0 < a (W k ω)) ∧
      Tendsto (fun n => scatter ((Finset.range n).filter (fun k => 0 < a (W k ω))) (fun k => y (W k ω))) atTop (𝓝 (condSd ν {w | 0 < a w} y)) := by
  have hS : MeasurableSet {w | 0 < a w} := measurableSet_lt measurable_const ha
  have hreal : 0 < ν.real {w | 0 < a w} := ENNReal.toReal_pos hp.ne' (measure_ne_top _ _)
  -- the three means
  have i1 : Integrable (fun w => if 0 < a w then (1 : ℝ) else 0) ν := by
    have := (integrable_indicator_iff (μ := ν) hS).mpr (integrable_const (1 : ℝ)).integrableOn
    refine this.congr (Filter.Eventually.of_forall fun w => ?_)
    simp [Set.indicator]
  have i2 : Integrable (fun w => if 0 < a w then y w else 0) ν := by
    refine (hint.add i1).mono' ((Measurable.ite hS hy measurable_const).aestronglyMeasurable) (Filter.Eventually.of_forall fun w => ?_)
    simp only [Pi.add_apply]
    by_cases h : 0 < a w
    · simp only [if_pos h, Real.norm_eq_abs]
      rw [← sq_abs (y w)]
      nlinarith [sq_nonneg (|y w| - 1), abs_nonneg (y w)]
    · simp [if_neg h]
  have l1 := means_limit hi hl (fun w => if 0 < a w then (1 : ℝ) else 0) (Measurable.ite hS measurable_const measurable_const) i1
  have l2 := means_limit hi hl (fun w => if 0 < a w then y w else 0) (Measurable.ite hS hy measurable_const) i2
  have l3 := means_limit hi hl (fun w => if 0 < a w then y w ^ 2 else 0) (Measurable.ite hS (hy.pow_const 2) measurable_const) hint
  have e0 : ∀ f : E → ℝ, ∫ w, (if 0 < a w then f w else 0) ∂ν = ∫ w in {w | 0 < a w}, f w ∂ν := by
    intro f
    rw [← integral_indicator hS]
    congr 1
  have e1 : ∫ w, (if 0 < a w then (1 : ℝ) else 0) ∂ν = ν.real {w | 0 < a w} := by
    rw [e0 (fun _ => 1)]
    simp
  have ec : ∀ f : E → ℝ, ∫ w, f w ∂ν[|{w | 0 < a w}] = (∫ w in {w | 0 < a w}, f w ∂ν) / ν.real {w | 0 < a w} := by
    intro f
    rw [ProbabilityTheory.cond, integral_smul_measure, ENNReal.toReal_inv, smul_eq_mul, div_eq_inv_mul]
    rfl
  have : IsProbabilityMeasure ν[|{w | 0 < a w}] := cond_isProbabilityMeasure hp.ne'
  have hL2 : MemLp (fun w => y w) 2 ν[|{w | 0 < a w}] := by
    rw [memLp_two_iff_integrable_sq hy.aestronglyMeasurable]
    have h1 : IntegrableOn (fun w => y w ^ 2) {w | 0 < a w} ν := by
      rw [← integrable_indicator_iff hS]
      refine hint.congr (Filter.Eventually.of_forall fun w => ?_)
      simp [Set.indicator]
    exact h1.integrable.smul_measure (ENNReal.inv_ne_top.mpr hp.ne')
  have hvar : condSd ν {w | 0 < a w} (fun w => y w) =
      Real.sqrt ((∫ w, (if 0 < a w then y w ^ 2 else 0) ∂ν) / ν.real {w | 0 < a w} -
        ((∫ w, (if 0 < a w then y w else 0) ∂ν) / ν.real {w | 0 < a w}) ^ 2) := by
    unfold condSd
    rw [variance_eq_sub hL2, e0, e0, ← ec, ← ec]
    rfl
  filter_upwards [l1, l2, l3] with ω h1 h2 h3
  rw [e1] at h1
  have hpos : ∀ᶠ n : ℕ in atTop, ∃ k < n, 0 < a (W k ω) := by
    filter_upwards [h1.eventually (lt_mem_nhds hreal)] with n hn
    by_contra hc
    push Not at hc
    rw [Finset.sum_eq_zero (fun k hk => if_neg (not_lt.mpr (hc k (Finset.mem_range.mp hk))))] at hn
    simp at hn
  refine ⟨hpos, ?_⟩
  have hlim := ((h3.div h1 hreal.ne').sub ((h2.div h1 hreal.ne').pow 2)).sqrt
  rw [← hvar] at hlim
  refine hlim.congr' ?_
  filter_upwards [hpos, eventually_gt_atTop 0] with n hn hn0
  obtain ⟨k0, hk0, hk1⟩ := hn
  rw [scatter_eq _ ⟨k0, by simp [hk0, hk1]⟩]
  have hn' : (n : ℝ) ≠ 0 := by exact_mod_cast hn0.ne'
  have hcard : (∑ k ∈ Finset.range n, if 0 < a (W k ω) then (1 : ℝ) else 0) = ((Finset.range n).filter (fun k => 0 < a (W k ω))).card := by
    rw [← Finset.sum_filter]; simp
  simp only [Pi.div_apply]
  rw [hcard, ← Finset.sum_filter, ← Finset.sum_filter, div_div_div_cancel_right₀ hn', div_div_div_cancel_right₀ hn']

/-- C218: let the samples of a galaxy be independent draws of one law: draw `W k` determines the flux `a` of the sample in the band, which is normal with a positive
variance, and the K-correction `κ` of the fit to it, which is bounded.  Then, as the number of samples grows, the documented error tends, with probability one, to the standard
deviation of magnitude minus K-correction given a positive flux. -/
theorem C218_limit {Ω E : Type} [MeasurableSpace Ω] [MeasurableSpace E] (P : Measure Ω) (W : ℕ → Ω → E) (hi : iIndepFun W P)
    (ν : Measure E) [IsProbabilityMeasure ν] (hl : ∀ k, HasLaw (W k) ν P)
    (a κ : E → ℝ) (ha : Measurable a) (hκm : Measurable κ) (B : ℝ) (hB : ∀ w, |κ w| ≤ B) (μ : ℝ) (var : NNReal) (hvar : var ≠ 0)
    (hlaw : HasLaw a (gaussianReal μ var) ν)
    (K : Kc ℝ) (hr : AbReady K.abCls K.responses.length) (A Ao : AMat ℝ) (hA : K.Amatrix = some A) (hAo : K.AmatrixOut = some Ao) (hG : Ao.Good)
    (hn : Ao.nrow = K.responses.length) (him : K.imap.length = Ao.nrow) (maggies coeffs : Ω → Nat → Nat → Nat → Nat → ℝ) (zs : List ℝ) (hz : zs ≠ []) (ivs : List (List ℝ))
    (hiv : ivs.length = zs.length) (hivl : ∀ iv ∈ ivs, iv.length = K.responses.length) (bs : ℝ) (dist : Option (List ℝ))
    (hd : ∀ ds ∈ dist, ds.length = zs.length ∧ ∀ d ∈ ds, 0 < d) (x : Ω → Nat → NDA ℝ)
    (h : ∀ ω mc, 0 < mc → K.absmagMc (cubeOf zs.length K.responses.length mc (maggies ω mc)) (some (.arr [zs.length] K.responses.length ivs)) (some (.vec zs))
        (cubeOf zs.length K.templates.nsed mc (coeffs ω mc)) bs (dist.map .vec) false false = .ok (.one (x ω mc)))
    (g j i : Nat) (z v : ℝ) (iv : List ℝ) (hg : zs[g]? = some z) (hgi : ivs[g]? = some iv) (hj : K.imap[j]? = some i) (hv : iv[i]? = some v) (hv0 : 0 < v)
    (hmag : ∀ ω mc k, k < mc → maggies ω mc g i k = a (W k ω))
    (hk : ∀ ω mc k, k < mc → 0 < a (W k ω) → ∃ kc, K.kcorrect (some (.scalar z)) (some (.vec ((List.range K.templates.nsed).map (fun t => coeffs ω mc g t k)))) bs = .ok kc ∧
      entry kc 0 j = some (κ (W k ω)))
    (hmiss : ∀ᵐ ω ∂P, ∀ mc, ∀ k < mc, 0 < a (W k ω) → entry (x ω mc) (g * K.responses.length + j) k ≠ some (-9999)) :
    ∀ᵐ ω ∂P, Tendsto (fun mc => ((mcErrors (x ω mc))[g * K.responses.length + j]?).getD 0) atTop
      (𝓝 (condSd ν {w | 0 < a w} (fun w => mag (a w) - κ w))) := by
  have hmm : Measurable (fun w => mag (a w)) := by
    unfold mag Real.logb
    fun_prop
  have hp : 0 < ν {w | 0 < a w} := by
    have h1 : ν {w | 0 < a w} = gaussianReal μ var (Set.Ioi 0) := by
      rw [← hlaw.map_eq, Measure.map_apply_of_aemeasurable hlaw.aemeasurable measurableSet_Ioi]
      rfl
    rw [h1, pos_iff_ne_zero]
    intro h0
    have := gaussianReal_absolutelyContinuous' μ hvar h0
    simp at this
  have hint : Integrable (fun w => if 0 < a w then (mag (a w) - κ w) ^ 2 else 0) ν := by
    have h1 : Integrable (fun w => if 0 < a w then mag (a w) ^ 2 else 0) ν := by
      have h2 := mag_sq_integrable μ var hvar
      rw [← hlaw.map_eq] at h2
      exact h2.comp_aemeasurable hlaw.aemeasurable
    have hB0 : 0 ≤ B := (abs_nonneg _).trans (hB (Classical.choice (nonempty_of_isProbabilityMeasure ν)))
    refine ((h1.const_mul 2).add (integrable_const (2 * B ^ 2))).mono' ?_ (Filter.Eventually.of_forall fun w => ?_)
    · exact (Measurable.ite (measurableSet_lt measurable_const ha) ((hmm.sub hκm).pow_const 2) measurable_const).aestronglyMeasurable
    · simp only [Pi.add_apply]
      by_cases hpos : 0 < a w
      · simp only [if_pos hpos]
        rw [Real.norm_eq_abs, abs_of_nonneg (sq_nonneg _)]
        have h3 : κ w ^ 2 ≤ B ^ 2 := by
          rw [← sq_abs]
          exact pow_le_pow_left₀ (abs_nonneg _) (hB _) 2
        nlinarith [sq_nonneg (mag (a w) + κ w)]
      · simp only [if_neg hpos, norm_zero]
        positivity
  filter_upwards [scatter_limit hi hl a (fun w => mag (a w) - κ w) ha (hmm.sub hκm) hp hint, hmiss] with ω hω hm
  refine hω.2.congr' ?_
  filter_upwards [hω.1, eventually_gt_atTop 0] with mc hmc hmc0
  have hset : (Finset.range mc).filter (fun k => 0 < maggies ω mc g i k) = (Finset.range mc).filter (fun k => 0 < a (W k ω)) :=
    Finset.filter_congr fun k hk => by rw [hmag ω mc k (Finset.mem_range.mp hk)]
  obtain ⟨kv, h1, h2⟩ := C216_errors K hr A Ao hA hAo hG hn him mc (maggies ω mc) (coeffs ω mc) zs hz ivs hiv hivl bs dist hd (x ω mc) (h ω mc hmc0) g j i z v iv hg hgi hj hv hv0
    (by obtain ⟨k, hk1, hk2⟩ := hmc; exact ⟨k, hk1, by rw [hmag ω mc k hk1]; exact hk2⟩) (fun k hk1 hk2 => hm mc k hk1 (by rw [← hmag ω mc k hk1]; exact hk2))
  rw [h2, Option.getD_some, hset]
  apply scatter_congr
  intro k hkm
  simp only [Finset.mem_filter, Finset.mem_range] at hkm
  obtain ⟨kc, b1, b2⟩ := h1 k hkm.1
  obtain ⟨kc', c1, c2⟩ := hk ω mc k hkm.1 hkm.2
  rw [b1] at c1
  cases c1
  rw [b2] at c2
  rw [Option.some.inj c2, hmag ω mc k hkm.1]

/-- C218 where the K-correction is the same for all samples with flux (band shift equal to the redshift, or one mix of templates: C217): the limit is the standard deviation of
the magnitude of the flux, given that it is positive.  No sample has the magnitude -9999, with probability one. -/
theorem C218_photometry {Ω : Type} [MeasurableSpace Ω] (P : Measure Ω) (F : ℕ → Ω → ℝ) (hi : iIndepFun F P)
    (μ : ℝ) (var : NNReal) (hvar : var ≠ 0) (hlaw : ∀ k, HasLaw (F k) (gaussianReal μ var) P) (κ : ℝ)
    (K : Kc ℝ) (hr : AbReady K.abCls K.responses.length) (A Ao : AMat ℝ) (hA : K.Amatrix = some A) (hAo : K.AmatrixOut = some Ao) (hG : Ao.Good)
    (hn : Ao.nrow = K.responses.length) (him : K.imap.length = Ao.nrow) (maggies coeffs : Ω → Nat → Nat → Nat → Nat → ℝ) (zs : List ℝ) (hz : zs ≠ []) (ivs : List (List ℝ))
    (hiv : ivs.length = zs.length) (hivl : ∀ iv ∈ ivs, iv.length = K.responses.length) (bs : ℝ) (dist : Option (List ℝ))
    (hd : ∀ ds ∈ dist, ds.length = zs.length ∧ ∀ d ∈ ds, 0 < d) (x : Ω → Nat → NDA ℝ)
    (h : ∀ ω mc, 0 < mc → K.absmagMc (cubeOf zs.length K.responses.length mc (maggies ω mc)) (some (.arr [zs.length] K.responses.length ivs)) (some (.vec zs))
        (cubeOf zs.length K.templates.nsed mc (coeffs ω mc)) bs (dist.map .vec) false false = .ok (.one (x ω mc)))
    (g j i : Nat) (z v : ℝ) (iv : List ℝ) (hg : zs[g]? = some z) (hgi : ivs[g]? = some iv) (hj : K.imap[j]? = some i) (hv : iv[i]? = some v) (hv0 : 0 < v)
    (hmag : ∀ ω mc k, k < mc → maggies ω mc g i k = F k ω)
    (hk : ∀ ω mc k, k < mc → 0 < F k ω → ∃ kc, K.kcorrect (some (.scalar z)) (some (.vec ((List.range K.templates.nsed).map (fun t => coeffs ω mc g t k)))) bs = .ok kc ∧
      entry kc 0 j = some κ) :
    ∀ᵐ ω ∂P, Tendsto (fun mc => ((mcErrors (x ω mc))[g * K.responses.length + j]?).getD 0) atTop
      (𝓝 (condSd (gaussianReal μ var) {f | 0 < f} mag)) := by
  have hmm : Measurable mag := by
    unfold mag Real.logb
    fun_prop
  have hmiss : ∀ᵐ ω ∂P, ∀ mc, ∀ k < mc, 0 < F k ω → entry (x ω mc) (g * K.responses.length + j) k ≠ some (-9999) := by
    have hne : ∀ᵐ ω ∂P, ∀ k, F k ω ≠ 10 ^ ((-9999 - (abOffset K.abCls i - dmSpec K.distmod z (dist.map (fun ds => ent ds g))) + κ) / (-2.5)) := by
      rw [ae_all_iff]
      intro k
      have := nullSingletonClass_gaussianReal (μ := μ) hvar
      have h0 : ∀ᵐ y ∂(gaussianReal μ var), y ≠ 10 ^ ((-9999 - (abOffset K.abCls i - dmSpec K.distmod z (dist.map (fun ds => ent ds g))) + κ) / (-2.5)) :=
        Measure.ae_ne _ _
      rw [← (hlaw k).map_eq] at h0
      exact ae_of_ae_map (hlaw k).aemeasurable h0
    filter_upwards [hne] with ω hω mc k hkm hpos he
    obtain ⟨kc, kv, b1, b2, _, b3⟩ := mc_entries K hr A Ao hA hAo hG hn him mc (maggies ω mc) (coeffs ω mc) zs hz ivs hiv hivl bs dist hd (x ω mc) (h ω mc (by omega)) g j i z v iv hg hgi hj hv hv0 k hkm
    obtain ⟨kc', c1, c2⟩ := hk ω mc k hkm hpos
    rw [b1] at c1
    cases c1
    rw [b2] at c2
    rw [he, hmag ω mc k hkm, if_pos hpos, Option.some.inj c2] at b3
    have e := Option.some.inj b3
    refine hω k ?_
    have hl : Real.logb 10 (F k ω) = (-9999 - (abOffset K.abCls i - dmSpec K.distmod z (dist.map (fun ds => ent ds g))) + κ) / (-2.5) := by
      unfold mag at e
      rw [eq_div_iff (by norm_num)]
      linarith
    rw [← hl, Real.rpow_logb (by norm_num) (by norm_num) hpos]
  have hL := C218_limit P F hi (gaussianReal μ var) hlaw id (fun _ => κ) measurable_id measurable_const |κ| (fun _ => le_rfl) μ var hvar .id K hr A Ao hA hAo hG hn him maggies
    coeffs zs hz ivs hiv hivl bs dist hd x h g j i z v iv hg hgi hj hv hv0 hmag hk hmiss
  have e : condSd (gaussianReal μ var) {f | 0 < f} (fun f => mag f - κ) = condSd (gaussianReal μ var) {f | 0 < f} mag := by
    unfold condSd
    by_cases h0 : gaussianReal μ var {f | 0 < f} = 0
    · rw [cond_eq_zero_of_meas_eq_zero h0]; simp [variance, evariance]
    · have := cond_isProbabilityMeasure h0
      rw [variance_sub_const hmm.aestronglyMeasurable]
  rw [← e]
  exact hL

/-! ### Not vacuous -/

/-- any samples of a galaxy at rest with coefficients 1: the call returns -/
theorem demo_returns (f : Nat → Nat → Nat → ℝ) (mc : Nat) :
    ∃ x, demoKc.absmagMc (cubeOf 1 1 mc f) (some (.arr [1] 1 [[1]])) (some (.vec [0])) (cubeOf 1 2 mc (fun _ _ _ => 1)) 0 none false false = .ok (.one x) := by
  obtain ⟨ret, hret⟩ := (C75_table_partial demoKc trivial demoAm demoAm rfl rfl demoAm_good rfl rfl mc f (fun _ _ _ => 1) [0] (by simp)
    [[1]] rfl (by intro iv h; fin_cases h; rfl) 0 none (by simp) false false).1.mpr (by
      intro g k z iv hg hiv hk
      match g, hg, hiv with
      | 0, hg, hiv =>
        cases hg
        cases hiv
        obtain ⟨a, ha⟩ := (C70_corrected_partial demoKc trivial demoAm demoAm rfl rfl 0 [f 0 0 k] [1] [1, 1] rfl rfl rfl 0 none (by simp)).1.mpr ⟨_, demoKc_k0⟩
        exact ⟨_, ha⟩)
  obtain ⟨x, rfl⟩ := absmagMc_single _ _ _ _ _ _ _ _ hret
  exact ⟨x, hret⟩

/-- normal fluxes with mean 5 and variance 1: both theorems apply -/
example : ∃ (Ω : Type) (_ : MeasurableSpace Ω) (P : Measure Ω) (F : ℕ → Ω → ℝ) (x : Ω → Nat → NDA ℝ),
    (∀ ω mc, demoKc.absmagMc (cubeOf 1 1 mc (fun _ _ k => F k ω)) (some (.arr [1] 1 [[1]])) (some (.vec [0])) (cubeOf 1 2 mc (fun _ _ _ => 1)) 0 none false false =
      .ok (.one (x ω mc))) ∧ IsProbabilityMeasure P ∧ (∀ k, HasLaw (F k) (gaussianReal 5 1) P) ∧
    ∀ᵐ ω ∂P, Tendsto (fun mc => ((mcErrors (x ω mc))[0]?).getD 0) atTop (𝓝 (condSd (gaussianReal 5 1) {f | 0 < f} mag)) := by
  obtain ⟨Ω, mΩ, P, F, hF, hl, hi, hP⟩ := exists_iid ℕ (gaussianReal 5 1)
  have hx : ∀ ω mc, ∃ x, demoKc.absmagMc (cubeOf 1 1 mc (fun _ _ k => F k ω)) (some (.arr [1] 1 [[1]])) (some (.vec [0])) (cubeOf 1 2 mc (fun _ _ _ => 1)) 0 none false false =
      .ok (.one x) := fun ω mc => demo_returns _ mc
  choose x hx using hx
  refine ⟨Ω, mΩ, P, F, x, hx, hP, hl, ?_⟩
  have h := C218_photometry P F hi 5 1 one_ne_zero hl 0 demoKc trivial demoAm demoAm rfl rfl demoAm_good rfl rfl (fun ω _ _ _ k => F k ω) (fun _ _ _ _ _ => 1) [0] (by simp)
    [[1]] rfl (by intro iv h; fin_cases h; rfl) 0 none (by simp) x (fun ω mc _ => hx ω mc) 0 0 0 0 1 [1] rfl rfl rfl rfl one_pos (fun _ _ _ _ => rfl) (fun _ _ _ _ _ => ⟨_, demoKc_k0, rfl⟩)
  exact h

end KC
