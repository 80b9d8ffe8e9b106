import Verif.Props.CoeffCont
import Verif.Props.BestFitAb
import Verif.Props.LinearFit
import Verif.Props.MonteCarlo

/-!
# Monte Carlo draws with small errors (C205)
-/

namespace KC
open Spec MeasureTheory ProbabilityTheory

section
variable {Ω : Type} [MeasurableSpace Ω] {P : Measure Ω}

/-- Chebyshev's inequality for a normal deviate. -/
theorem normal_tail {X : Ω → ℝ} {μ : ℝ} {v : NNReal} (h : HasLaw X (gaussianReal μ v) P) {d : ℝ} (hd : 0 < d) :
    P {ω | d ≤ |X ω - μ|} ≤ ENNReal.ofReal (v / d ^ 2) := by
  have hm : MeasurableSet {x : ℝ | d ≤ |x - μ|} := measurableSet_le measurable_const (by fun_prop)
  rw [h.measure_eq (p := fun x => d ≤ |x - μ|) hm]
  have := meas_ge_le_variance_div_sq (memLp_id_gaussianReal (μ := μ) (v := v) 2) hd
  rw [variance_id_gaussianReal] at this
  simpa only [id, integral_id_gaussianReal] using this

end

/-- The variances of the bands with weight are small once the inverse variances are large. -/
theorem small_noise (δ η : ℝ) (hδ : 0 < δ) (hη : 0 < η) : ∀ iv : List ℝ, ∃ K : ℝ, 0 < K ∧ ∀ s, K ≤ s → ∀ v ∈ iv, 0 < v → 1 / (s * v) / δ ^ 2 ≤ η
  | [] => ⟨1, one_pos, fun _ _ _ h => by cases h⟩
  | v :: iv => by
    obtain ⟨K, hK, h⟩ := small_noise δ η hδ hη iv
    by_cases hv : 0 < v
    · refine ⟨max K (1 / (v * δ ^ 2 * η)), lt_max_of_lt_left hK, fun s hs u hu hu0 => ?_⟩
      rcases List.mem_cons.mp hu with rfl | hu
      · have h1 : 1 / (u * δ ^ 2 * η) ≤ s := (le_max_right _ _).trans hs
        have hs0 : 0 < s := lt_of_lt_of_le hK ((le_max_left _ _).trans hs)
        rw [div_le_iff₀ (by positivity)] at h1
        rw [div_div, div_le_iff₀ (by positivity)]
        nlinarith
      · exact h s ((le_max_left _ _).trans hs) u hu hu0
    · refine ⟨K, hK, fun s hs u hu hu0 => ?_⟩
      rcases List.mem_cons.mp hu with rfl | hu
      · exact absurd hu0 hv
      · exact h s hs u hu hu0

/-- C205: a Monte Carlo draw whose photometry is close to the data has coefficients close to those of the fit to the data.  How close it has to be does not depend on the size of the
errors: the inverse variances may be multiplied by any factor.  The coefficients of the fit itself do not change with the factor. -/
theorem C205_draws (nnls nnls' : Nnls ℝ) (hn : NNLSOK nnls) (hn' : NNLSOK nnls') (F : Fitter ℝ) (A : AMat ℝ) (hR : Ready F A) (hr : AbReady F.abCls F.responses.length)
    (hnb : F.responses.length ≠ 1) (z : ℝ) (hz : InRange A.x z) (m iv : List ℝ) (hm : m.length = F.responses.length) (hiv : iv.length = F.responses.length)
    (hpos : ∀ v ∈ iv, 0 ≤ v) (hi : Spec.Indep F z iv) (noise0 : Nat → Nat → Nat → ℝ) (c0 : List ℝ)
    (h0 : F.fitCoeffs nnls (some (.scalar z)) (some (.vec m)) (some (.vec iv)) 0 noise0 = .ok ⟨.vec c0, none⟩) (ε : ℝ) (hε : 0 < ε) :
    ∃ δ : ℝ, 0 < δ ∧ ∀ (s : ℝ), 0 < s → ∀ (mc : Nat), 0 < mc → ∀ (noise : Nat → Nat → Nat → ℝ) out,
      F.fitCoeffs nnls' (some (.scalar z)) (some (.vec m)) (some (.vec (iv.map (fun v => s * v)))) mc noise = .ok out →
      out.coeffs = .vec c0 ∧ ∃ cm mm, out.mc = some (.arr [F.templates.nsed] mc cm, .arr [F.responses.length] mc mm) ∧ ∀ k < mc,
        (∀ (j : Nat) x y, m[j]? = some x → (column mm k)[j]? = some y → |y - x * abFactor F.abCls j| < δ * abFactor F.abCls j) → Near ε c0 (column cm k) := by
  have vinj : ∀ a b : List ℝ, NDA.vec a = NDA.vec b → a = b := by
    intro a b h
    simp only [NDA.vec, NDA.arr.injEq, List.cons.injEq, and_true] at h
    exact h.2.2
  have hf := fun j => abFactor_pos F.abCls j
  obtain ⟨c0', δ, e0, hδ, hclose⟩ := C200_coefficients nnls demoNnls hn C161_solver.1 F A hR hr m iv hm hiv hpos z hz hi noise0 _ h0 ε hε
  obtain rfl := vinj _ _ e0
  refine ⟨δ, hδ, fun s hs0 mc hmc noise out h => ?_⟩
  have hlen : (iv.map (fun v => s * v)).length = F.responses.length := by simp [hiv]
  have hsp : ∀ v ∈ iv.map (fun v => s * v), 0 ≤ v := by
    intro v hv
    obtain ⟨u, hu, rfl⟩ := List.mem_map.mp hv
    exact mul_nonneg hs0.le (hpos u hu)
  have habs : abIv F.abCls (iv.map (fun v => s * v)) = (abIv F.abCls iv).map (fun v => s * v) := by
    apply List.ext_getElem?
    intro j
    simp only [abIv_get, List.getElem?_map]
    cases iv[j]? with
    | none => rfl
    | some v => simp [mul_div_assoc]
  have uniq : ∀ (m' : List ℝ), m'.length = F.responses.length → ∀ c c', Optimal F z (abM F.abCls m') (abIv F.abCls iv) c →
      Optimal F z (abM F.abCls m') (abIv F.abCls iv) c' → c = c' := fun m' hm' c c' =>
    optimal_eq F A hR z hz _ _ (by rw [abM_length, hm']) (by rw [abIv_length, hiv]) (abIv_nonneg _ _ hpos) (indep_ab _ hi) c c'
  obtain ⟨p, _, hp⟩ := C55_ab nnls' hn'.len F hr hnb A hR.set z m _ hm hlen hsp
  obtain ⟨hc, cm, mm, he, hcl, hml, _, hmr, hk⟩ := hp mc hmc noise out h
  -- the fit to the data
  refine ⟨?_, cm, _, he, fun k hkm hnear => ?_⟩
  · obtain ⟨c, ec, ho⟩ := C49_ab nnls' hn' F hr A hR z hz m _ hm hlen hsp noise _ hc
    obtain ⟨c', ec', ho'⟩ := C49_ab nnls hn F hr A hR z hz m iv hm hiv hpos noise0 _ h0
    simp only [FitOut.mk.injEq, and_true] at ec ec'
    obtain rfl := vinj _ _ ec'
    rw [habs, C62_weight_scale F A hR z hz _ _ _ s hs0] at ho
    rw [ec, uniq m hm c c0 ho ho']
  obtain ⟨hfit, _⟩ := hk k hkm
  let m' : List ℝ := (column mm k).mapIdx fun j x => x / abFactor F.abCls j
  have hcm : (column mm k).length = F.responses.length := by simp [column, hml]
  have hm' : m'.length = F.responses.length := by simp [m', hcm]
  have hback : (m'.mapIdx fun j x => x * abFactor F.abCls j) = column mm k := by
    apply List.ext_getElem?
    intro j
    simp only [m', List.getElem?_mapIdx, Option.map_map]
    cases (column mm k)[j]? with
    | none => rfl
    | some x => simp [(hf j).ne']
  have hfit' : F.fitCoeffs nnls' (some (.scalar z)) (some (.vec m')) (some (.vec (iv.map (fun v => s * v)))) 0 noise = .ok ⟨.vec (column cm k), none⟩ := by
    rw [fit_eff nnls' F hr z m' _ hm' hlen 0 noise, hback]
    exact hfit
  obtain ⟨c1, e1, o1⟩ := C49_ab nnls' hn' F hr A hR z hz m' _ hm' hlen hsp noise _ hfit'
  simp only [FitOut.mk.injEq, and_true] at e1
  obtain rfl := vinj _ _ e1
  rw [habs, C62_weight_scale F A hR z hz _ _ _ s hs0] at o1
  obtain ⟨c2, h2, o2⟩ := C161_ab demoNnls C161_solver.1 F (solve_returns C161_solver.2 _) hr hnb A hR z hz m' iv hm' hiv hpos noise
  rw [uniq m' hm' _ _ o1 o2]
  have near : Near δ m m' := by
    refine ⟨by rw [hm', hm], fun j x y hx hy => ?_⟩
    simp only [m', List.getElem?_mapIdx, Option.map_eq_some_iff] at hy
    obtain ⟨y, hy, rfl⟩ := hy
    have := hnear j x y hx hy
    rw [show y / abFactor F.abCls j - x = (y - x * abFactor F.abCls j) / abFactor F.abCls j by field_simp [(hf j).ne'], abs_div, abs_of_pos (hf j), div_lt_iff₀ (hf j)]
    exact this
  obtain ⟨c3, e3, h3⟩ := hclose z m' iv noise _ hz (by simpa using hδ) near ⟨rfl, fun j x y hx hy => by
    rw [hx] at hy; cases hy; simpa using hδ⟩ hpos h2
  obtain rfl := vinj _ _ e3
  exact h3

/-- C205: the probability that a Monte Carlo draw has coefficients farther than `ε` from those of the fit to the data is as small as wanted once all inverse variances have been
multiplied by a large enough factor. -/
theorem C205_probability {Ω : Type} [MeasurableSpace Ω] (P : Measure Ω) (noise : Ω → Nat → Nat → Nat → ℝ) (hd : Deviates P noise) (nnls nnls' : Nnls ℝ) (hn : NNLSOK nnls)
    (hn' : NNLSOK nnls') (F : Fitter ℝ) (A : AMat ℝ) (hR : Ready F A) (hr : AbReady F.abCls F.responses.length)
    (hnb : F.responses.length ≠ 1) (z : ℝ) (hz : InRange A.x z) (m iv : List ℝ) (hm : m.length = F.responses.length) (hiv : iv.length = F.responses.length)
    (hpos : ∀ v ∈ iv, 0 ≤ v) (hi : Spec.Indep F z iv) (noise0 : Nat → Nat → Nat → ℝ) (c0 : List ℝ)
    (h0 : F.fitCoeffs nnls (some (.scalar z)) (some (.vec m)) (some (.vec iv)) 0 noise0 = .ok ⟨.vec c0, none⟩) (mc : Nat) (hmc : 0 < mc) (ε η : ℝ) (hε : 0 < ε) (hη : 0 < η) :
    ∃ K : ℝ, 0 < K ∧ ∀ s, K ≤ s →
      P {ω | ∃ out, F.fitCoeffs nnls' (some (.scalar z)) (some (.vec m)) (some (.vec (iv.map (fun v => s * v)))) mc (noise ω) = .ok out ∧
        ¬ ∃ cm mm, out.mc = some (.arr [F.templates.nsed] mc cm, mm) ∧ ∀ k < mc, Near ε c0 (column cm k)} ≤ ENNReal.ofReal η := by
  obtain ⟨δ, hδ, hdraw⟩ := C205_draws nnls nnls' hn hn' F A hR hr hnb z hz m iv hm hiv hpos hi noise0 c0 h0 ε hε
  have hf := fun j => abFactor_pos F.abCls j
  have hN : (0 : ℝ) < (mc * F.responses.length : ℕ) + 1 := by positivity
  obtain ⟨K, hK, hsmall⟩ := small_noise δ (η / ((mc * F.responses.length : ℕ) + 1)) hδ (div_pos hη hN) iv
  refine ⟨K, hK, fun s hs => ?_⟩
  have hs0 : 0 < s := lt_of_lt_of_le hK hs
  have hlen : (iv.map (fun v => s * v)).length = F.responses.length := by simp [hiv]
  have hsp : ∀ v ∈ iv.map (fun v => s * v), 0 ≤ v := by
    intro v hv
    obtain ⟨u, hu, rfl⟩ := List.mem_map.mp hv
    exact mul_nonneg hs0.le (hpos u hu)
  obtain ⟨S, hS1, hS2, hS3, _⟩ := C115_one P noise hd nnls' hn'.len F hr hnb A hR.set z m _ hm hlen hsp mc hmc
  have hmj : ∀ j < F.responses.length, m[j]? = some (m.getD j 0) := fun j hj => by
    rw [List.getD_eq_getElem?_getD, List.getElem?_eq_getElem (by rw [hm]; exact hj)]; rfl
  have hivj : ∀ j < F.responses.length, iv[j]? = some (iv.getD j 0) := fun j hj => by
    rw [List.getD_eq_getElem?_getD, List.getElem?_eq_getElem (by rw [hiv]; exact hj)]; rfl
  -- a sample of one band is rarely far from the data
  have one : ∀ j < F.responses.length, ∀ k, P {ω | δ * abFactor F.abCls j ≤ |S (j, k) ω - m.getD j 0 * abFactor F.abCls j|} ≤
      ENNReal.ofReal (η / ((mc * F.responses.length : ℕ) + 1)) := by
    intro j hj k
    rcases (hpos _ (List.mem_of_getElem? (hivj j hj))).lt_or_eq with hv | hv
    · refine (normal_tail (hS2 j k _ (s * iv.getD j 0) (hmj j hj) (by rw [List.getElem?_map, hivj j hj]; rfl) (mul_pos hs0 hv)) (mul_pos hδ (hf j))).trans ?_
      apply ENNReal.ofReal_le_ofReal
      refine le_trans (le_of_eq ?_) (hsmall s hs _ (List.mem_of_getElem? (hivj j hj)) hv)
      rw [Real.coe_toNNReal _ (by have := mul_pos hs0 hv; positivity)]
      have := (hf j).ne'
      have := (mul_pos hs0 hv).ne'
      field_simp
    · have h1 := hS3 j k _ (hmj j hj) (by rw [List.getElem?_map, hivj j hj, ← hv]; simp)
      have : {ω | δ * abFactor F.abCls j ≤ |S (j, k) ω - m.getD j 0 * abFactor F.abCls j|} = ∅ := by
        ext ω
        simp only [Set.mem_ofPred_eq, Set.mem_empty_iff_false, iff_false, not_le]
        rw [h1 ω, sub_self, abs_zero]
        exact mul_pos hδ (hf j)
      rw [this, measure_empty]
      exact zero_le
  calc P {ω | ∃ out, F.fitCoeffs nnls' (some (.scalar z)) (some (.vec m)) (some (.vec (iv.map (fun v => s * v)))) mc (noise ω) = .ok out ∧
        ¬ ∃ cm mm, out.mc = some (.arr [F.templates.nsed] mc cm, mm) ∧ ∀ k < mc, Near ε c0 (column cm k)}
      ≤ P (⋃ q ∈ (Finset.range F.responses.length ×ˢ Finset.range mc), {ω | δ * abFactor F.abCls q.1 ≤ |S q ω - m.getD q.1 0 * abFactor F.abCls q.1|}) := by
        refine measure_mono fun ω hω => ?_
        obtain ⟨out, hout, hbad⟩ := hω
        by_contra hno
        simp only [Set.mem_iUnion, Set.mem_ofPred_eq, Finset.mem_product, Finset.mem_range, exists_prop, not_exists, not_and, not_le] at hno
        obtain ⟨_, cm, mm, he, hk⟩ := hdraw s hs0 mc hmc (noise ω) out hout
        obtain ⟨cm', mm', he', _, hent⟩ := hS1 ω out hout
        rw [he] at he'
        simp only [Option.some.injEq, Prod.mk.injEq] at he'
        obtain ⟨rfl, rfl⟩ := he'
        refine hbad ⟨cm, _, he, fun k hkm => hk k hkm fun j x y hx hy => ?_⟩
        have hj : j < F.responses.length := by rw [← hm]; exact (List.getElem?_eq_some_iff.mp hx).1
        have h1 := hent j k hj hkm
        simp only [entry] at h1
        unfold column at hy
        rw [List.getElem?_map] at hy
        cases hrow : mm[j]? with
        | none => rw [hrow] at h1; simp at h1
        | some row =>
          rw [hrow] at h1 hy
          simp only [Option.bind_some] at h1
          simp only [Option.map_some, Option.some.injEq, List.getD_eq_getElem?_getD, h1, Option.getD_some] at hy
          rw [hmj j hj, Option.some.injEq] at hx
          rw [← hy, ← hx]
          exact hno (j, k) ⟨hj, hkm⟩
    _ ≤ ∑ q ∈ (Finset.range F.responses.length ×ˢ Finset.range mc), P {ω | δ * abFactor F.abCls q.1 ≤ |S q ω - m.getD q.1 0 * abFactor F.abCls q.1|} :=
        measure_biUnion_finset_le _ _
    _ ≤ ∑ _q ∈ (Finset.range F.responses.length ×ˢ Finset.range mc), ENNReal.ofReal (η / ((mc * F.responses.length : ℕ) + 1)) := by
        refine Finset.sum_le_sum fun q hq => ?_
        simp only [Finset.mem_product, Finset.mem_range] at hq
        exact one q.1 hq.1 q.2
    _ ≤ ENNReal.ofReal η := by
        rw [Finset.sum_const, Finset.card_product, Finset.card_range, Finset.card_range, nsmul_eq_mul, ← ENNReal.ofReal_natCast, ← ENNReal.ofReal_mul (by positivity)]
        apply ENNReal.ofReal_le_ofReal
        rw [mul_div_assoc', div_le_iff₀ hN, mul_comm F.responses.length mc]
        nlinarith

/-- The hypotheses hold for independent standard normal deviates and a fit with two templates. -/
example : ∃ (Ω : Type) (_ : MeasurableSpace Ω) (P : Measure Ω) (noise : Ω → Nat → Nat → Nat → ℝ) (c0 : List ℝ), Deviates P noise ∧ NNLSOK (lhNnls 0) ∧ Ready demoKc2.toFitter demoAm2 ∧ AbReady demoKc2.abCls demoKc2.responses.length ∧ demoKc2.responses.length = 2 ∧
    InRange demoAm2.x 2 ∧ Spec.Indep demoKc2.toFitter 2 [1, 1 / 2] ∧
    demoKc2.toFitter.fitCoeffs (lhNnls 0) (some (.scalar 2)) (some (.vec [3, 3])) (some (.vec [1, 1 / 2])) 0 (fun _ _ _ => 0) = .ok ⟨.vec c0, none⟩ := by
  obtain ⟨c0, h1, h2, h3, h4, _⟩ := demo_used
  exact ⟨_, _, _, _, c0, deviates_exist, C184_contract, h1, trivial, rfl, h2, h3, h4⟩

end KC
