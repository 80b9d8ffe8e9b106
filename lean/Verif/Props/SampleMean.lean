import Verif.Props.SampleLaw
import Verif.Props.Between

/-!
# Mean and scatter of the sampled coefficients (C222)
-/

namespace KC
open Spec MeasureTheory ProbabilityTheory Filter Topology

/-- Sample `k` of entry `i` of the coefficients `fit_coeffs` returns with `mc`. -/
noncomputable def Spec.sampled (out : FitOut ℝ) (i k : Nat) : ℝ := match out.mc with
  | some (cm, _) => (entry cm i k).getD 0
  | none => 0

/-- Sample `k` of entry `i` of key `q` of the derived quantities. -/
noncomputable def Spec.keySample (D : Derived ℝ) (q i k : Nat) : ℝ := (D.keys[q]?.bind (fun x => entry x i k)).getD 0

/-- a continuous function that grows with its argument in proportion is bounded by a multiple of the norm -/
theorem homogeneous_bound {ι : Type} [Fintype ι] (f : (ι → ℝ) → ℝ) (hf : Continuous f) (hs : ∀ w (s : ℝ), 0 < s → f (s • w) = s * f w) : ∃ C, ∀ w, |f w| ≤ C * ‖w‖ := by
  obtain ⟨C, hC⟩ := (isCompact_sphere (0 : ι → ℝ) 1).exists_bound_of_continuousOn hf.continuousOn
  refine ⟨C, fun w => ?_⟩
  by_cases hw : w = 0
  · have h2 := hs 0 2 two_pos
    rw [smul_zero] at h2
    have : f 0 = 0 := by linarith
    rw [hw, this, abs_zero, norm_zero, mul_zero]
  · have hp : 0 < ‖w‖ := norm_pos_iff.mpr hw
    have h1 := hC (‖w‖⁻¹ • w) (by simp [norm_smul, hp.ne'])
    rw [hs w _ (inv_pos.mpr hp), Real.norm_eq_abs, abs_mul, abs_of_pos (inv_pos.mpr hp)] at h1
    rw [mul_comm C]
    exact (inv_mul_le_iff₀ hp).mp h1

/-- its mean square is finite under the law of the fluxes -/
theorem homogeneous_memLp (cls : Cls) (nb : Nat) (m iv : List ℝ) (f : ({l : Fin nb // 0 < ent iv l} → ℝ) → ℝ) (hf : Continuous f) (hs : ∀ w (s : ℝ), 0 < s → f (s • w) = s * f w) :
    MemLp f 2 (fluxLaw cls nb m iv) := by
  obtain ⟨C, hC⟩ := homogeneous_bound f hf hs
  have h1 : ∀ l : {l : Fin nb // 0 < ent iv l}, MemLp (fun w : {l : Fin nb // 0 < ent iv l} → ℝ => w l) 2 (fluxLaw cls nb m iv) := fun l =>
    (memLp_id_gaussianReal' 2 (by simp)).comp_measurePreserving (measurePreserving_eval (fun l : {l : Fin nb // 0 < ent iv l} =>
      gaussianReal (ent m l.1 * abFactor cls l.1) (Real.toNNReal (abFactor cls l.1 ^ 2 / ent iv l.1))) l)
  have h2 : MemLp (fun w : {l : Fin nb // 0 < ent iv l} → ℝ => ∑ l, |w l|) 2 (fluxLaw cls nb m iv) := memLp_finsetSum _ fun l _ => (h1 l).abs
  refine h2.of_le_mul (c := |C|) hf.measurable.aestronglyMeasurable (Eventually.of_forall fun w => ?_)
  rw [Real.norm_eq_abs, Real.norm_eq_abs, abs_of_nonneg (Finset.sum_nonneg fun l _ => abs_nonneg (w l))]
  refine (hC w).trans (mul_le_mul (le_abs_self C) ?_ (norm_nonneg _) (abs_nonneg _))
  rw [pi_norm_le_iff_of_nonneg (Finset.sum_nonneg fun l _ => abs_nonneg (w l))]
  intro l
  exact Finset.single_le_sum (f := fun l => |w l|) (fun l _ => abs_nonneg (w l)) (Finset.mem_univ l)

/-- open sets of fluxes have positive probability -/
theorem flux_open (cls : Cls) (nb : Nat) (m iv : List ℝ) : (fluxLaw cls nb m iv).IsOpenPosMeasure := by
  have : ∀ l : {l : Fin nb // 0 < ent iv l}, (gaussianReal (ent m l.1 * abFactor cls l.1) (Real.toNNReal (abFactor cls l.1 ^ 2 / ent iv l.1))).IsOpenPosMeasure := fun l =>
    (gaussianReal_absolutelyContinuous' _ (flux_var cls nb iv l)).isOpenPosMeasure
  unfold fluxLaw
  infer_instance

/-- mean and scatter of a continuous function of the fluxes that grows with them in proportion -/
theorem moments_limit {Ω : Type} [MeasurableSpace Ω] {P : Measure Ω} {cls : Cls} {nb : Nat} {m iv : List ℝ} {W : ℕ → Ω → ({l : Fin nb // 0 < ent iv l} → ℝ)} (hW : iIndepFun W P)
    (hWl : ∀ k, HasLaw (W k) (fluxLaw cls nb m iv) P) (f : ({l : Fin nb // 0 < ent iv l} → ℝ) → ℝ) (hf : Continuous f) (hL : MemLp f 2 (fluxLaw cls nb m iv)) (S : Ω → Nat → Nat → ℝ)
    (hS : ∀ ω mc k, k < mc → S ω mc k = f (W k ω)) :
    ∀ᵐ ω ∂P, Tendsto (fun mc => (∑ k ∈ Finset.range mc, S ω mc k) / mc) atTop (𝓝 (∫ w, f w ∂fluxLaw cls nb m iv)) ∧
      Tendsto (fun mc => scatter (Finset.range mc) (S ω mc)) atTop (𝓝 √(Var[f; fluxLaw cls nb m iv])) := by
  have hsc := scatter_limit hW hWl (fun _ => 1) f measurable_const hf.measurable (by simp) (by simpa using hL.integrable_sq)
  filter_upwards [means_limit hW hWl f hf.measurable (hL.integrable (by norm_num)), hsc] with ω h2 h3
  refine ⟨h2.congr fun mc => ?_, ?_⟩
  · rw [Finset.sum_congr rfl fun k hk => hS ω mc k (Finset.mem_range.mp hk)]
  · have h4 := h3.2
    simp only [zero_lt_one, Finset.filter_true, condSd] at h4
    rw [show {w : {l : Fin nb // 0 < ent iv l} → ℝ | True} = Set.univ from rfl, cond_univ] at h4
    refine h4.congr fun mc => ?_
    unfold scatter
    rw [Finset.sum_congr rfl fun k hk => hS ω mc k (Finset.mem_range.mp hk)]
    congr 2
    exact Finset.sum_congr rfl fun k hk => by rw [hS ω mc k (Finset.mem_range.mp hk)]

/-- C222: fit a table of galaxies with Monte Carlo samples drawn from independent standard normal deviates.  Where the bands that enter the fit of a galaxy tell the templates apart, with
probability one mean and scatter of the samples of each coefficient tend to mean and standard deviation of the best-fit coefficient for fluxes of `fluxLaw`.  The probability of a positive
coefficient and the mean are positive for every template, those absent from the best fit included. -/
theorem C222_coeffs {Ω : Type} [MeasurableSpace Ω] (P : Measure Ω) (noise : Ω → Nat → Nat → Nat → ℝ) (hdev : Deviates P noise) (nnls : Nnls ℝ) (hok : NNLSOK nnls)
    (K : Kc ℝ) (hr : AbReady K.abCls K.responses.length) (hnb : K.responses.length ≠ 1) (A : AMat ℝ) (hR : Ready K.toFitter A)
    (zs : List ℝ) (ms ivs : List (List ℝ)) (hl : zs.length ≠ 1)
    (hm : ms.length = zs.length) (hiv : ivs.length = zs.length) (hmr : ∀ r ∈ ms, r.length = K.responses.length) (hivr : ∀ r ∈ ivs, r.length = K.responses.length)
    (hpos : ∀ r ∈ ivs, ∀ v ∈ r, 0 ≤ v) (out : Ω → Nat → FitOut ℝ)
    (hfit : ∀ ω mc, 0 < mc → K.toFitter.fitCoeffs nnls (some (.vec zs)) (some (.arr [zs.length] K.responses.length ms)) (some (.arr [zs.length] K.responses.length ivs)) mc
      (noise ω) = .ok (out ω mc))
    (g : Nat) (z : ℝ) (m iv : List ℝ) (hg : zs[g]? = some z) (hgm : ms[g]? = some m) (hgi : ivs[g]? = some iv) (hz : InRange A.x z) (hind : Indep K.toFitter z iv)
    (t : Fin K.templates.nsed) :
    ∃ f : ({l : Fin K.responses.length // 0 < ent iv l} → ℝ) → ℝ,
      (∀ w (d c : List ℝ), d.length = K.responses.length → (∀ l : {l : Fin K.responses.length // 0 < ent iv l}, d[(l.1 : Nat)]? = some (w l)) →
        Optimal K.toFitter z d (abIv K.abCls iv) c → c[(t : Nat)]? = some (f w)) ∧
      (∀ w : {l : Fin K.responses.length // 0 < ent iv l} → ℝ, ∃ d c : List ℝ, d.length = K.responses.length ∧ (∀ l : {l : Fin K.responses.length // 0 < ent iv l}, d[(l.1 : Nat)]? = some (w l)) ∧ Optimal K.toFitter z d (abIv K.abCls iv) c) ∧
      MemLp f 2 (fluxLaw K.abCls K.responses.length m iv) ∧
      (∀ ω mc k, k < mc → 0 ≤ sampled (out ω mc) (g * K.templates.nsed + t) k) ∧
      0 < (fluxLaw K.abCls K.responses.length m iv).real {w | 0 < f w} ∧ 0 < ∫ w, f w ∂fluxLaw K.abCls K.responses.length m iv ∧
      ∀ᵐ ω ∂P, Tendsto (fun mc => fraction mc (fun k => 0 < sampled (out ω mc) (g * K.templates.nsed + t) k)) atTop (𝓝 ((fluxLaw K.abCls K.responses.length m iv).real {w | 0 < f w})) ∧
        Tendsto (fun mc => (∑ k ∈ Finset.range mc, sampled (out ω mc) (g * K.templates.nsed + t) k) / mc) atTop (𝓝 (∫ w, f w ∂fluxLaw K.abCls K.responses.length m iv)) ∧
        Tendsto (fun mc => scatter (Finset.range mc) (sampled (out ω mc) (g * K.templates.nsed + t))) atTop (𝓝 √(Var[f; fluxLaw K.abCls K.responses.length m iv])) := by
  obtain ⟨W, cf, c, mf, hW, hWl, c1, c2, c3, c4, c5, hc⟩ := sample_fits P noise hdev nnls hok K hr hnb A hR zs ms ivs hl hm hiv hmr hivr hpos out hfit g z m iv hg hgm hgi hz hind
  have hgl : g < zs.length := (List.getElem?_eq_some_iff.mp hg).1
  have hip : ∀ v ∈ iv, 0 ≤ v := hpos iv (List.mem_of_getElem? hgi)
  have hfc : Continuous (fun w => cf w t) := (continuous_apply t).comp c1
  have hL := homogeneous_memLp K.abCls K.responses.length m iv (fun w => cf w t) hfc (fun w s hs => congrFun (c3 w s hs) t)
  have hint : Integrable (fun w => cf w t) (fluxLaw K.abCls K.responses.length m iv) := hL.integrable (by norm_num)
  -- the fluxes of template `t` alone are fitted by it
  obtain ⟨w0, hw0⟩ : ∃ w0, 0 < cf w0 t := by
    obtain ⟨a, _, am⟩ := hR.model
    have h1 := am ⟨z, hz⟩ (alone K.templates.nsed t) (alone_length _ _)
    generalize (fun j => ∑ i, a j i ⟨z, hz⟩ * ent (alone K.templates.nsed t) i) = r at h1
    refine ⟨fun l => r l.1, ?_⟩
    have h2 : Optimal K.toFitter z (List.ofFn r) (abIv K.abCls iv) (alone K.templates.nsed t) := by
      refine ⟨alone_length _ _, ?_, _, h1, fun y hy _ => ⟨_, am ⟨z, hz⟩ y hy, ?_⟩⟩
      · intro v hv
        obtain ⟨i, _, rfl⟩ := List.mem_map.mp hv
        split_ifs <;> norm_num
      · rw [chi2_self]
        exact chi2_nonneg _ _ _ (abIv_nonneg _ _ hip)
    have h3 := c5 (fun l => r l.1) (List.ofFn r) (by simp) (fun l => by simp) _ h2
    have h4 := congrArg (fun l : List ℝ => l[(t : Nat)]?) h3
    simp only [alone, List.getElem?_map, List.getElem?_ofFn, t.2, dif_pos, List.getElem?_range t.2, Option.map_some, if_true, Option.some.injEq] at h4
    have h5 : cf (fun l => r l.1) t = 1 := h4.symm
    rw [h5]
    exact one_pos
  have hopen := flux_open K.abCls K.responses.length m iv
  have hU : 0 < (fluxLaw K.abCls K.responses.length m iv) {w | 0 < cf w t} := (isOpen_lt continuous_const hfc).measure_pos _ ⟨w0, hw0⟩
  have hsam : ∀ ω mc k, k < mc → sampled (out ω mc) (g * K.templates.nsed + t) k = cf (W k ω) t := by
    intro ω mc k hk
    obtain ⟨h1, h2⟩ := hc ω mc (by omega)
    have h3 := congrArg (fun l : List ℝ => l[(t : Nat)]?) (h2 k hk).1
    have h4 : c ω mc g t k = cf (W k ω) t := by simpa using h3
    unfold sampled
    rw [h1]
    simp only
    rw [cube_entry _ _ _ _ _ _ _ hgl t.2 hk, h4]
    rfl
  refine ⟨fun w => cf w t, fun w d c h1 h2 h3 => ?_, fun w => ?_, hL, fun ω mc k hk => (hsam ω mc k hk).ge.trans' (c2 _ t), ENNReal.toReal_pos hU.ne' (measure_ne_top _ _), ?_, ?_⟩
  · rw [c5 w d h1 h2 c h3]
    simp
  · obtain ⟨d, h1, h2, h3⟩ := c4 w
    exact ⟨d, _, h1, h2, h3⟩
  · rw [integral_pos_iff_support_of_nonneg (fun w => c2 w t) hint]
    exact hU.trans_le (measure_mono fun w hw => ne_of_gt hw)
  filter_upwards [fraction_limit hW hWl {w | 0 < cf w t} (measurableSet_lt measurable_const hfc.measurable),
    moments_limit hW hWl (fun w => cf w t) hfc hL (fun ω mc => sampled (out ω mc) (g * K.templates.nsed + t)) hsam] with ω h1 h2
  refine ⟨h1.congr fun mc => fraction_congr fun k hk => ?_, h2⟩
  rw [hsam ω mc k hk]

/-- C222 for the stellar mass (key 0) and the integrated star formation (key 1) of the samples. -/
theorem C222_mass {Ω : Type} [MeasurableSpace Ω] (P : Measure Ω) (noise : Ω → Nat → Nat → Nat → ℝ) (hdev : Deviates P noise) (nnls : Nnls ℝ) (hok : NNLSOK nnls)
    (K : Kc ℝ) (hr : AbReady K.abCls K.responses.length) (hnb : K.responses.length ≠ 1) (A : AMat ℝ) (hR : Ready K.toFitter A)
    (zs : List ℝ) (ms ivs : List (List ℝ)) (hl : zs.length ≠ 1)
    (hm : ms.length = zs.length) (hiv : ivs.length = zs.length) (hmr : ∀ r ∈ ms, r.length = K.responses.length) (hivr : ∀ r ∈ ivs, r.length = K.responses.length)
    (hpos : ∀ r ∈ ivs, ∀ v ∈ r, 0 ≤ v) (out : Ω → Nat → FitOut ℝ)
    (hfit : ∀ ω mc, 0 < mc → K.toFitter.fitCoeffs nnls (some (.vec zs)) (some (.arr [zs.length] K.responses.length ms)) (some (.arr [zs.length] K.responses.length ivs)) mc
      (noise ω) = .ok (out ω mc))
    (g : Nat) (z : ℝ) (m iv : List ℝ) (hg : zs[g]? = some z) (hgm : ms[g]? = some m) (hgi : ivs[g]? = some iv) (hz : InRange A.x z) (hind : Indep K.toFitter z iv)
    (t : Tmpl ℝ) (Ao : AMat ℝ) (hK : MassKc K t Ao) (hG : Ao.Good) (reg : Reg ℝ) (bs : ℝ) (R : Ω → Nat → Derived ℝ)
    (hder : ∀ ω mc cm mm, 0 < mc → (out ω mc).mc = some (cm, mm) → K.derivedMc reg (some (.vec zs)) cm bs none = .ok (some (R ω mc))) (q : Nat) (hq : q = 0 ∨ q = 1) :
    ∃ f : ({l : Fin K.responses.length // 0 < ent iv l} → ℝ) → ℝ,
      (∀ w (d c : List ℝ), d.length = K.responses.length → (∀ l : {l : Fin K.responses.length // 0 < ent iv l}, d[(l.1 : Nat)]? = some (w l)) →
        Optimal K.toFitter z d (abIv K.abCls iv) c → ∃ E, K.derived reg (some (.scalar z)) (some (.vec c)) bs none = .ok E ∧ E.keys[q]? = some (.scalar (f w))) ∧
      (∀ w : {l : Fin K.responses.length // 0 < ent iv l} → ℝ, ∃ d c : List ℝ, d.length = K.responses.length ∧ (∀ l : {l : Fin K.responses.length // 0 < ent iv l}, d[(l.1 : Nat)]? = some (w l)) ∧ Optimal K.toFitter z d (abIv K.abCls iv) c) ∧
      MemLp f 2 (fluxLaw K.abCls K.responses.length m iv) ∧
      ∀ᵐ ω ∂P, Tendsto (fun mc => (∑ k ∈ Finset.range mc, keySample (R ω mc) q g k) / mc) atTop (𝓝 (∫ w, f w ∂fluxLaw K.abCls K.responses.length m iv)) ∧
        Tendsto (fun mc => scatter (Finset.range mc) (keySample (R ω mc) q g)) atTop (𝓝 √(Var[f; fluxLaw K.abCls K.responses.length m iv])) := by
  obtain ⟨W, cf, c, mf, hW, hWl, c1, c2, c3, c4, c5, hc⟩ := sample_fits P noise hdev nnls hok K hr hnb A hR zs ms ivs hl hm hiv hmr hivr hpos out hfit g z m iv hg hgm hgi hz hind
  have hval : ∀ c : Fin K.templates.nsed → ℝ, ∀ E, K.derived reg (some (.scalar z)) (some (.vec (List.ofFn c))) bs none = .ok E →
      E.keys[q]? = some (.scalar (total (List.ofFn c) (if q = 0 then t.mremain else t.intsfh) * lumFactor (K.distmod z))) := by
    intro c E hE
    obtain ⟨ss, fl, _, _, hV⟩ := derived_vals hK hG reg z _ (by simp) bs E hE
    rcases hq with rfl | rfl
    · exact congrArg some hV.mremain
    · exact congrArg some hV.intsfh
  have hfc : Continuous (fun w => total (List.ofFn (cf w)) (if q = 0 then t.mremain else t.intsfh) * lumFactor (K.distmod z)) := by
    simp only [total_ofFn]
    exact (continuous_finsetSum _ fun i _ => ((continuous_apply i).comp c1).mul continuous_const).mul continuous_const
  have hL := homogeneous_memLp K.abCls K.responses.length m iv _ hfc (fun w s hs => by
    simp only [total_ofFn, c3 w s hs, mul_assoc, ← Finset.mul_sum])
  -- the values of one sample
  have cell : ∀ ω mc k, k < mc → (∃ E, K.derived reg (some (.scalar z)) (some (.vec (List.ofFn (cf (W k ω))))) bs none = .ok E) ∧
      keySample (R ω mc) q g k = total (List.ofFn (cf (W k ω))) (if q = 0 then t.mremain else t.intsfh) * lumFactor (K.distmod z) := by
    intro ω mc k hk
    obtain ⟨h1, h2⟩ := hc ω mc (by omega)
    obtain ⟨R', E, e1, e2, e3⟩ := C82_table hK hG reg zs mc (c ω mc) bs _ (hder ω mc _ _ (by omega) h1) g k z hg hk
    cases e1
    rw [(h2 k hk).1] at e2
    obtain ⟨x, hx⟩ : ∃ x, (R ω mc).keys[q]? = some x := ⟨_, List.getElem?_eq_getElem (by rcases hq with rfl | rfl <;> simp [Derived.keys])⟩
    have e4 := (e3 q x _ hx (hval _ E e2)).2 0 _ rfl
    simp only [NDA.flat, List.length_singleton, mul_one, add_zero] at e4
    refine ⟨⟨E, e2⟩, ?_⟩
    unfold keySample
    rw [hx, Option.bind_some, e4]
    rfl
  have hP : IsProbabilityMeasure P := hdev.indep.isProbabilityMeasure
  obtain ⟨ω0⟩ : Nonempty Ω := nonempty_of_isProbabilityMeasure P
  have hall := (derived_returns hK reg z _ (by simp) bs).mp (cell ω0 1 0 one_pos).1
  refine ⟨_, fun w d c h1 h2 h3 => ?_, fun w => ?_, hL, moments_limit hW hWl _ hfc hL _ (fun ω mc k hk => (cell ω mc k hk).2)⟩
  · rw [c5 w d h1 h2 c h3]
    obtain ⟨E, hE⟩ := (derived_returns hK reg z (List.ofFn (cf w)) (by simp) bs).mpr hall
    exact ⟨E, hE, hval _ E hE⟩
  · obtain ⟨d, h1, h2, h3⟩ := c4 w
    exact ⟨d, _, h1, h2, h3⟩

/-- Not vacuous: both coefficients of the second galaxy of `demo_draws`, at redshift 2 between the nodes 1 and 3 of the grid. -/
example (t : Fin 2) : ∃ (Ω : Type) (_ : MeasurableSpace Ω) (P : Measure Ω) (out : Ω → Nat → FitOut ℝ) (μ σ : ℝ), IsProbabilityMeasure P ∧ 0 < μ ∧
    ∀ᵐ ω ∂P, Tendsto (fun mc => (∑ k ∈ Finset.range mc, sampled (out ω mc) (1 * 2 + t) k) / mc) atTop (𝓝 μ) ∧ Tendsto (fun mc => scatter (Finset.range mc) (sampled (out ω mc) (1 * 2 + t))) atTop (𝓝 σ) := by
  have hdev := deviates_exist
  generalize (fun (ω : ℕ × ℕ × ℕ → ℝ) i k p => ω (i, k, p)) = noise at hdev
  generalize Measure.infinitePi (fun _ : ℕ × ℕ × ℕ => gaussianReal 0 1) = P at hdev
  have hP : IsProbabilityMeasure P := hdev.indep.isProbabilityMeasure
  obtain ⟨_, hrd, hin, hind, _⟩ := demo_used
  obtain ⟨out, x, hout, hx⟩ := demo_draws noise
  obtain ⟨f, _, _, _, _, _, h1, h2⟩ := C222_coeffs P noise hdev (lhNnls 0) C184_contract demoKc2 trivial (by decide) demoAm2 hrd [2, 2] [[3, 3], [3, 3]] [[1, 1 / 2], [1, 1 / 2]] (by simp) rfl rfl
    demo_ms demo_ivs demo_ivs_pos out hout 1 2 [3, 3] [1, 1 / 2] rfl rfl rfl hin hind t
  exact ⟨_, _, P, out, _, _, hP, h1, h2.mono fun ω h => h.2⟩

/-- Not vacuous: the stellar mass of the second galaxy of `demo_both_draws`. -/
example : ∃ (Ω : Type) (_ : MeasurableSpace Ω) (P : Measure Ω) (R : Ω → Nat → Derived ℝ) (μ σ : ℝ), IsProbabilityMeasure P ∧
    ∀ᵐ ω ∂P, Tendsto (fun mc => (∑ k ∈ Finset.range mc, keySample (R ω mc) 0 1 k) / mc) atTop (𝓝 μ) ∧
      Tendsto (fun mc => scatter (Finset.range mc) (keySample (R ω mc) 0 1)) atTop (𝓝 σ) := by
  have hdev := deviates_exist
  generalize (fun (ω : ℕ × ℕ × ℕ → ℝ) i k p => ω (i, k, p)) = noise at hdev
  generalize Measure.infinitePi (fun _ : ℕ × ℕ × ℕ => gaussianReal 0 1) = P at hdev
  have hP : IsProbabilityMeasure P := hdev.indep.isProbabilityMeasure
  have hin : InRange demoAm2.x 2 := by constructor <;> norm_num [demoAm2]
  obtain ⟨out, R, hout, hR⟩ := demo_both_draws noise
  obtain ⟨f, _, _, _, h⟩ := C222_mass P noise hdev (lhNnls 0) C184_contract demoBoth trivial (by decide) demoAm2 demo_both_ready [2, 2] [[3, 3], [3, 3]] [[1, 1 / 2], [1, 1 / 2]] (by simp) rfl rfl
    demo_ms demo_ivs demo_ivs_pos out hout 1 2 [3, 3] [1, 1 / 2] rfl rfl rfl hin demo_both_indep demoTmpl demoAm2 demo_both_mass demo_ready.good demoReg 0 R
    (fun ω mc cm mm a b => hR ω mc cm mm a b) 0 (Or.inl rfl)
  exact ⟨_, _, P, R, _, _, hP, h⟩

end KC
