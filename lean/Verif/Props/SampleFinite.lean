import Mathlib.Algebra.Order.Chebyshev
import Verif.Props.SampleOneMag

/-!
# Monte Carlo samples in finite number: expectation of mean and scatter, error of the mean (C223)
-/

namespace KC
open Spec MeasureTheory ProbabilityTheory Filter Topology

/-- mean and scatter of `mc` independent samples: the mean is unbiased, its variance that of one sample divided by `mc`, and the expectation of the squared scatter is too low by
the factor `1 - 1 / mc` -/
theorem moments_finite {Ω : Type} [MeasurableSpace Ω] {P : Measure Ω} {cls : Cls} {nb : Nat} {m iv : List ℝ} {W : ℕ → Ω → ({l : Fin nb // 0 < ent iv l} → ℝ)} (hW : iIndepFun W P)
    (hWl : ∀ k, HasLaw (W k) (fluxLaw cls nb m iv) P) (f : ({l : Fin nb // 0 < ent iv l} → ℝ) → ℝ) (hf : Continuous f) (hL : MemLp f 2 (fluxLaw cls nb m iv)) (S : Ω → Nat → Nat → ℝ)
    (hS : ∀ ω mc k, k < mc → S ω mc k = f (W k ω)) (mc : Nat) (h0 : 0 < mc) :
    (∫ ω, (∑ k ∈ Finset.range mc, S ω mc k) / mc ∂P = ∫ w, f w ∂fluxLaw cls nb m iv) ∧
      Var[fun ω => (∑ k ∈ Finset.range mc, S ω mc k) / mc; P] = Var[f; fluxLaw cls nb m iv] / mc ∧
      (∀ ε > 0, P.real {ω | ε ≤ |(∑ k ∈ Finset.range mc, S ω mc k) / mc - ∫ w, f w ∂fluxLaw cls nb m iv|} ≤ Var[f; fluxLaw cls nb m iv] / (mc * ε ^ 2)) ∧
      ∫ ω, scatter (Finset.range mc) (S ω mc) ^ 2 ∂P = (1 - 1 / mc) * Var[f; fluxLaw cls nb m iv] := by
  have hP : IsProbabilityMeasure P := hW.isProbabilityMeasure
  have hm : (mc : ℝ) ≠ 0 := by positivity
  have hsum : ∀ ω, ∑ k ∈ Finset.range mc, S ω mc k = ∑ k ∈ Finset.range mc, f (W k ω) := fun ω => Finset.sum_congr rfl fun k hk => hS ω mc k (Finset.mem_range.mp hk)
  have hXL : ∀ k, MemLp (fun ω => f (W k ω)) 2 P := fun k => by
    rw [← (hWl k).map_eq] at hL
    exact hL.comp_of_map (hWl k).aemeasurable
  have hXi : ∀ k, ∫ ω, f (W k ω) ∂P = ∫ w, f w ∂fluxLaw cls nb m iv := fun k => (hWl k).integral_comp hf.aestronglyMeasurable
  have hXv : ∀ k, Var[fun ω => f (W k ω); P] = Var[f; fluxLaw cls nb m iv] := fun k => by
    rw [← (hWl k).map_eq, variance_map hf.aemeasurable (hWl k).aemeasurable]
    rfl
  have hsq : ∀ k, ∫ ω, f (W k ω) ^ 2 ∂P = Var[f; fluxLaw cls nb m iv] + (∫ w, f w ∂fluxLaw cls nb m iv) ^ 2 := fun k => by
    have := variance_eq_sub (hXL k)
    rw [hXv, hXi] at this
    rw [this]
    simp [Pi.pow_apply]
  have hmL : MemLp (fun ω => (∑ k ∈ Finset.range mc, f (W k ω)) / mc) 2 P := by
    simp only [div_eq_mul_inv]
    exact (memLp_finsetSum _ fun k _ => hXL k).mul_const _
  have h1 : ∫ ω, (∑ k ∈ Finset.range mc, f (W k ω)) / mc ∂P = ∫ w, f w ∂fluxLaw cls nb m iv := by
    rw [integral_div, integral_finsetSum _ fun k _ => (hXL k).integrable (by norm_num)]
    simp only [hXi, Finset.sum_const, Finset.card_range, nsmul_eq_mul]
    field_simp
  have h2 : Var[fun ω => (∑ k ∈ Finset.range mc, f (W k ω)) / mc; P] = Var[f; fluxLaw cls nb m iv] / mc := by
    have hind : Set.Pairwise (↑(Finset.range mc)) fun i j => IndepFun (fun ω => f (W i ω)) (fun ω => f (W j ω)) P :=
      fun i _ j _ hij => (hW.indepFun hij).comp hf.measurable hf.measurable
    have hv := IndepFun.variance_sum (fun k _ => hXL k) hind
    simp only [hXv, Finset.sum_const, Finset.card_range, nsmul_eq_mul] at hv
    have e : (fun ω => (∑ k ∈ Finset.range mc, f (W k ω)) / (mc : ℝ)) = fun ω => (mc : ℝ)⁻¹ * (∑ k ∈ Finset.range mc, fun ω => f (W k ω)) ω := by
      funext ω
      rw [Finset.sum_apply, div_eq_inv_mul]
    rw [e, variance_const_mul, hv]
    field_simp
  simp only [hsum]
  refine ⟨h1, h2, fun ε hε => ?_, ?_⟩
  · have h3 := meas_ge_le_variance_div_sq hmL hε
    rw [h1, h2] at h3
    have h4 := ENNReal.toReal_mono ENNReal.ofReal_ne_top h3
    rw [ENNReal.toReal_ofReal (div_nonneg (div_nonneg (variance_nonneg _ _) (Nat.cast_nonneg _)) (sq_nonneg _)), div_div] at h4
    exact h4
  · have h3 : ∀ ω, scatter (Finset.range mc) (S ω mc) ^ 2 = (∑ k ∈ Finset.range mc, f (W k ω) ^ 2) / mc - ((∑ k ∈ Finset.range mc, f (W k ω)) / mc) ^ 2 := by
      intro ω
      rw [scatter_congr _ _ (fun k => f (W k ω)) (fun k hk => hS ω mc k (Finset.mem_range.mp hk)), scatter_eq _ ⟨0, by simpa using h0⟩, Finset.card_range, Real.sq_sqrt]
      have h4 := sq_sum_le_card_mul_sum_sq (s := Finset.range mc) (f := fun k => f (W k ω))
      rw [Finset.card_range] at h4
      have hmp : (0 : ℝ) < mc := by positivity
      rw [div_pow, sub_nonneg, div_le_div_iff₀ (by positivity) hmp]
      nlinarith
    simp only [h3]
    have h4 := variance_eq_sub hmL
    rw [h2, h1] at h4
    have h5 : ∫ ω, ((∑ k ∈ Finset.range mc, f (W k ω)) / mc) ^ 2 ∂P = Var[f; fluxLaw cls nb m iv] / mc + (∫ w, f w ∂fluxLaw cls nb m iv) ^ 2 := by
      rw [h4]
      simp [Pi.pow_apply]
    have i1 : ∀ k, Integrable (fun ω => f (W k ω) ^ 2) P := fun k => (hXL k).integrable_sq
    rw [integral_sub ((integrable_finsetSum _ fun k _ => i1 k).div_const _) hmL.integrable_sq, h5, integral_div, integral_finsetSum _ fun k _ => i1 k]
    simp only [hsq, Finset.sum_const, Finset.card_range, nsmul_eq_mul]
    field_simp
    ring
/-- C223: fit a table of galaxies with `mc` Monte Carlo samples.  Where the bands that enter the fit of a galaxy tell the templates apart, the mean of the samples of a coefficient has the
expectation of the best-fit coefficient `f` for fluxes of `fluxLaw`, its variance is that of `f` divided by `mc`, it is off by `ε` with probability at most `Var f / (mc ε²)`, and the
expectation of the squared scatter (numpy's `std` squared) is `(1 - 1 / mc) Var f`. -/
theorem C223_coeffs {Ω : Type} [MeasurableSpace Ω] (P : Measure Ω) (noise : Ω → Nat → Nat → Nat → ℝ) (hdev : Deviates P noise) (nnls : Nnls ℝ) (hok : NNLSOK nnls)
    (K : Kc ℝ) (hr : AbReady K.abCls K.responses.length) (hnb : K.responses.length ≠ 1) (A : AMat ℝ) (hR : Ready K.toFitter A)
    (zs : List ℝ) (ms ivs : List (List ℝ)) (hl : zs.length ≠ 1)
    (hm : ms.length = zs.length) (hiv : ivs.length = zs.length) (hmr : ∀ r ∈ ms, r.length = K.responses.length) (hivr : ∀ r ∈ ivs, r.length = K.responses.length)
    (hpos : ∀ r ∈ ivs, ∀ v ∈ r, 0 ≤ v) (out : Ω → Nat → FitOut ℝ)
    (hfit : ∀ ω mc, 0 < mc → K.toFitter.fitCoeffs nnls (some (.vec zs)) (some (.arr [zs.length] K.responses.length ms)) (some (.arr [zs.length] K.responses.length ivs)) mc
      (noise ω) = .ok (out ω mc))
    (g : Nat) (z : ℝ) (m iv : List ℝ) (hg : zs[g]? = some z) (hgm : ms[g]? = some m) (hgi : ivs[g]? = some iv) (hz : InRange A.x z) (hind : Indep K.toFitter z iv)
    (t : Fin K.templates.nsed) :
    ∃ f : ({l : Fin K.responses.length // 0 < ent iv l} → ℝ) → ℝ,
      (∀ w (d c : List ℝ), d.length = K.responses.length → (∀ l : {l : Fin K.responses.length // 0 < ent iv l}, d[(l.1 : Nat)]? = some (w l)) →
        Optimal K.toFitter z d (abIv K.abCls iv) c → c[(t : Nat)]? = some (f w)) ∧
      (∀ w : {l : Fin K.responses.length // 0 < ent iv l} → ℝ, ∃ d c : List ℝ, d.length = K.responses.length ∧ (∀ l : {l : Fin K.responses.length // 0 < ent iv l}, d[(l.1 : Nat)]? = some (w l)) ∧ Optimal K.toFitter z d (abIv K.abCls iv) c) ∧
      MemLp f 2 (fluxLaw K.abCls K.responses.length m iv) ∧
      ∀ mc > 0, (∫ ω, (∑ k ∈ Finset.range mc, sampled (out ω mc) (g * K.templates.nsed + t) k) / mc ∂P = ∫ w, f w ∂fluxLaw K.abCls K.responses.length m iv) ∧
        Var[fun ω => (∑ k ∈ Finset.range mc, sampled (out ω mc) (g * K.templates.nsed + t) k) / mc; P] = Var[f; fluxLaw K.abCls K.responses.length m iv] / mc ∧
        (∀ ε > 0, P.real {ω | ε ≤ |(∑ k ∈ Finset.range mc, sampled (out ω mc) (g * K.templates.nsed + t) k) / mc - ∫ w, f w ∂fluxLaw K.abCls K.responses.length m iv|} ≤ Var[f; fluxLaw K.abCls K.responses.length m iv] / (mc * ε ^ 2)) ∧
        ∫ ω, scatter (Finset.range mc) (sampled (out ω mc) (g * K.templates.nsed + t)) ^ 2 ∂P = (1 - 1 / mc) * Var[f; fluxLaw K.abCls K.responses.length m iv] := by
  obtain ⟨W, cf, c, mf, hW, hWl, c1, c2, c3, c4, c5, hc⟩ := sample_fits P noise hdev nnls hok K hr hnb A hR zs ms ivs hl hm hiv hmr hivr hpos out hfit g z m iv hg hgm hgi hz hind
  have hgl : g < zs.length := (List.getElem?_eq_some_iff.mp hg).1
  have hfc : Continuous (fun w => cf w t) := (continuous_apply t).comp c1
  have hL := homogeneous_memLp K.abCls K.responses.length m iv (fun w => cf w t) hfc (fun w s hs => congrFun (c3 w s hs) t)
  have hsam : ∀ ω mc k, k < mc → sampled (out ω mc) (g * K.templates.nsed + t) k = cf (W k ω) t := by
    intro ω mc k hk
    obtain ⟨h1, h2⟩ := hc ω mc (by omega)
    have h3 := congrArg (fun l : List ℝ => l[(t : Nat)]?) (h2 k hk).1
    have h4 : c ω mc g t k = cf (W k ω) t := by simpa using h3
    unfold sampled
    rw [h1]
    simp only
    rw [cube_entry _ _ _ _ _ _ _ hgl t.2 hk, h4]
    rfl
  refine ⟨fun w => cf w t, fun w d c h1 h2 h3 => ?_, fun w => ?_, hL, fun mc h0 => moments_finite hW hWl (fun w => cf w t) hfc hL (fun ω mc => sampled (out ω mc) (g * K.templates.nsed + t)) hsam mc h0⟩
  · rw [c5 w d h1 h2 c h3]
    simp
  · obtain ⟨d, h1, h2, h3⟩ := c4 w
    exact ⟨d, _, h1, h2, h3⟩

/-- C223 for one galaxy. -/
theorem C223_one {Ω : Type} [MeasurableSpace Ω] (P : Measure Ω) (noise : Ω → Nat → Nat → Nat → ℝ) (hdev : Deviates P noise) (nnls : Nnls ℝ) (hok : NNLSOK nnls)
    (K : Kc ℝ) (hr : AbReady K.abCls K.responses.length) (hnb : K.responses.length ≠ 1) (A : AMat ℝ) (hR : Ready K.toFitter A) (z : ℝ) (m iv : List ℝ)
    (hml : m.length = K.responses.length) (hivl : iv.length = K.responses.length) (hip : ∀ v ∈ iv, 0 ≤ v) (out : Ω → Nat → FitOut ℝ)
    (hfit : ∀ ω mc, 0 < mc → K.toFitter.fitCoeffs nnls (some (.scalar z)) (some (.vec m)) (some (.vec iv)) mc (noise ω) = .ok (out ω mc))
    (hz : InRange A.x z) (hind : Indep K.toFitter z iv)
    (t : Fin K.templates.nsed) :
    ∃ f : ({l : Fin K.responses.length // 0 < ent iv l} → ℝ) → ℝ,
      (∀ w (d c : List ℝ), d.length = K.responses.length → (∀ l : {l : Fin K.responses.length // 0 < ent iv l}, d[(l.1 : Nat)]? = some (w l)) →
        Optimal K.toFitter z d (abIv K.abCls iv) c → c[(t : Nat)]? = some (f w)) ∧
      (∀ w : {l : Fin K.responses.length // 0 < ent iv l} → ℝ, ∃ d c : List ℝ, d.length = K.responses.length ∧ (∀ l : {l : Fin K.responses.length // 0 < ent iv l}, d[(l.1 : Nat)]? = some (w l)) ∧ Optimal K.toFitter z d (abIv K.abCls iv) c) ∧
      MemLp f 2 (fluxLaw K.abCls K.responses.length m iv) ∧
      ∀ mc > 0, (∫ ω, (∑ k ∈ Finset.range mc, sampled (out ω mc) t k) / mc ∂P = ∫ w, f w ∂fluxLaw K.abCls K.responses.length m iv) ∧
        Var[fun ω => (∑ k ∈ Finset.range mc, sampled (out ω mc) t k) / mc; P] = Var[f; fluxLaw K.abCls K.responses.length m iv] / mc ∧
        (∀ ε > 0, P.real {ω | ε ≤ |(∑ k ∈ Finset.range mc, sampled (out ω mc) t k) / mc - ∫ w, f w ∂fluxLaw K.abCls K.responses.length m iv|} ≤ Var[f; fluxLaw K.abCls K.responses.length m iv] / (mc * ε ^ 2)) ∧
        ∫ ω, scatter (Finset.range mc) (sampled (out ω mc) t) ^ 2 ∂P = (1 - 1 / mc) * Var[f; fluxLaw K.abCls K.responses.length m iv] := by
  obtain ⟨W, cf, hW, hWl, c1, c2, c3, c4, c5, hc⟩ := sample_fits_one P noise hdev nnls hok K hr hnb A hR z m iv hml hivl hip out hfit hz hind
  have hfc : Continuous (fun w => cf w t) := (continuous_apply t).comp c1
  have hL := homogeneous_memLp K.abCls K.responses.length m iv (fun w => cf w t) hfc (fun w s hs => congrFun (c3 w s hs) t)
  have hsam : ∀ ω mc k, k < mc → sampled (out ω mc) t k = cf (W k ω) t := by
    intro ω mc k hk
    obtain ⟨cm, mm, h1, _, _, h4, h2⟩ := hc ω mc (by omega)
    unfold sampled
    rw [h1]
    simp only
    rw [one_entry h4 hk (h2 k hk).1 t]
    rfl
  refine ⟨fun w => cf w t, fun w d c h1 h2 h3 => ?_, fun w => ?_, hL, fun mc h0 => moments_finite hW hWl (fun w => cf w t) hfc hL (fun ω mc => sampled (out ω mc) t) hsam mc h0⟩
  · rw [c5 w d h1 h2 c h3]
    simp
  · obtain ⟨d, h1, h2, h3⟩ := c4 w
    exact ⟨d, _, h1, h2, h3⟩

/-- C223 for the stellar mass (key 0) and the integrated star formation (key 1) of the samples. -/
theorem C223_mass {Ω : Type} [MeasurableSpace Ω] (P : Measure Ω) (noise : Ω → Nat → Nat → Nat → ℝ) (hdev : Deviates P noise) (nnls : Nnls ℝ) (hok : NNLSOK nnls)
    (K : Kc ℝ) (hr : AbReady K.abCls K.responses.length) (hnb : K.responses.length ≠ 1) (A : AMat ℝ) (hR : Ready K.toFitter A)
    (zs : List ℝ) (ms ivs : List (List ℝ)) (hl : zs.length ≠ 1)
    (hm : ms.length = zs.length) (hiv : ivs.length = zs.length) (hmr : ∀ r ∈ ms, r.length = K.responses.length) (hivr : ∀ r ∈ ivs, r.length = K.responses.length)
    (hpos : ∀ r ∈ ivs, ∀ v ∈ r, 0 ≤ v) (out : Ω → Nat → FitOut ℝ)
    (hfit : ∀ ω mc, 0 < mc → K.toFitter.fitCoeffs nnls (some (.vec zs)) (some (.arr [zs.length] K.responses.length ms)) (some (.arr [zs.length] K.responses.length ivs)) mc
      (noise ω) = .ok (out ω mc))
    (g : Nat) (z : ℝ) (m iv : List ℝ) (hg : zs[g]? = some z) (hgm : ms[g]? = some m) (hgi : ivs[g]? = some iv) (hz : InRange A.x z) (hind : Indep K.toFitter z iv)
    (t : Tmpl ℝ) (Ao : AMat ℝ) (hK : MassKc K t Ao) (hG : Ao.Good) (reg : Reg ℝ) (bs : ℝ) (R : Ω → Nat → Derived ℝ)
    (hder : ∀ ω mc cm mm, 0 < mc → (out ω mc).mc = some (cm, mm) → K.derivedMc reg (some (.vec zs)) cm bs none = .ok (some (R ω mc))) (q : Nat) (hq : q = 0 ∨ q = 1) :
    ∃ f : ({l : Fin K.responses.length // 0 < ent iv l} → ℝ) → ℝ,
      (∀ w (d c : List ℝ), d.length = K.responses.length → (∀ l : {l : Fin K.responses.length // 0 < ent iv l}, d[(l.1 : Nat)]? = some (w l)) →
        Optimal K.toFitter z d (abIv K.abCls iv) c → ∃ E, K.derived reg (some (.scalar z)) (some (.vec c)) bs none = .ok E ∧ E.keys[q]? = some (.scalar (f w))) ∧
      (∀ w : {l : Fin K.responses.length // 0 < ent iv l} → ℝ, ∃ d c : List ℝ, d.length = K.responses.length ∧ (∀ l : {l : Fin K.responses.length // 0 < ent iv l}, d[(l.1 : Nat)]? = some (w l)) ∧ Optimal K.toFitter z d (abIv K.abCls iv) c) ∧
      MemLp f 2 (fluxLaw K.abCls K.responses.length m iv) ∧
      ∀ mc > 0, (∫ ω, (∑ k ∈ Finset.range mc, keySample (R ω mc) q g k) / mc ∂P = ∫ w, f w ∂fluxLaw K.abCls K.responses.length m iv) ∧
        Var[fun ω => (∑ k ∈ Finset.range mc, keySample (R ω mc) q g k) / mc; P] = Var[f; fluxLaw K.abCls K.responses.length m iv] / mc ∧
        (∀ ε > 0, P.real {ω | ε ≤ |(∑ k ∈ Finset.range mc, keySample (R ω mc) q g k) / mc - ∫ w, f w ∂fluxLaw K.abCls K.responses.length m iv|} ≤ Var[f; fluxLaw K.abCls K.responses.length m iv] / (mc * ε ^ 2)) ∧
        ∫ ω, scatter (Finset.range mc) (keySample (R ω mc) q g) ^ 2 ∂P = (1 - 1 / mc) * Var[f; fluxLaw K.abCls K.responses.length m iv] := by
  obtain ⟨W, cf, c, mf, hW, hWl, c1, c2, c3, c4, c5, hc⟩ := sample_fits P noise hdev nnls hok K hr hnb A hR zs ms ivs hl hm hiv hmr hivr hpos out hfit g z m iv hg hgm hgi hz hind
  have hval : ∀ c : Fin K.templates.nsed → ℝ, ∀ E, K.derived reg (some (.scalar z)) (some (.vec (List.ofFn c))) bs none = .ok E →
      E.keys[q]? = some (.scalar (total (List.ofFn c) (if q = 0 then t.mremain else t.intsfh) * lumFactor (K.distmod z))) := by
    intro c E hE
    obtain ⟨ss, fl, _, _, hV⟩ := derived_vals hK hG reg z _ (by simp) bs E hE
    rcases hq with rfl | rfl
    · exact congrArg some hV.mremain
    · exact congrArg some hV.intsfh
  have hfc : Continuous (fun w => total (List.ofFn (cf w)) (if q = 0 then t.mremain else t.intsfh) * lumFactor (K.distmod z)) := by
    simp only [total_ofFn]
    exact (continuous_finsetSum _ fun i _ => ((continuous_apply i).comp c1).mul continuous_const).mul continuous_const
  have hL := homogeneous_memLp K.abCls K.responses.length m iv _ hfc (fun w s hs => by
    simp only [total_ofFn, c3 w s hs, mul_assoc, ← Finset.mul_sum])
  -- the values of one sample
  have cell : ∀ ω mc k, k < mc → (∃ E, K.derived reg (some (.scalar z)) (some (.vec (List.ofFn (cf (W k ω))))) bs none = .ok E) ∧
      keySample (R ω mc) q g k = total (List.ofFn (cf (W k ω))) (if q = 0 then t.mremain else t.intsfh) * lumFactor (K.distmod z) := by
    intro ω mc k hk
    obtain ⟨h1, h2⟩ := hc ω mc (by omega)
    obtain ⟨R', E, e1, e2, e3⟩ := C82_table hK hG reg zs mc (c ω mc) bs _ (hder ω mc _ _ (by omega) h1) g k z hg hk
    cases e1
    rw [(h2 k hk).1] at e2
    obtain ⟨x, hx⟩ : ∃ x, (R ω mc).keys[q]? = some x := ⟨_, List.getElem?_eq_getElem (by rcases hq with rfl | rfl <;> simp [Derived.keys])⟩
    have e4 := (e3 q x _ hx (hval _ E e2)).2 0 _ rfl
    simp only [NDA.flat, List.length_singleton, mul_one, add_zero] at e4
    refine ⟨⟨E, e2⟩, ?_⟩
    unfold keySample
    rw [hx, Option.bind_some, e4]
    rfl
  have hP : IsProbabilityMeasure P := hdev.indep.isProbabilityMeasure
  obtain ⟨ω0⟩ : Nonempty Ω := nonempty_of_isProbabilityMeasure P
  have hall := (derived_returns hK reg z _ (by simp) bs).mp (cell ω0 1 0 one_pos).1
  refine ⟨_, fun w d c h1 h2 h3 => ?_, fun w => ?_, hL, fun mc h0 => moments_finite hW hWl _ hfc hL (fun ω mc => keySample (R ω mc) q g) (fun ω mc k hk => (cell ω mc k hk).2) mc h0⟩
  · rw [c5 w d h1 h2 c h3]
    obtain ⟨E, hE⟩ := (derived_returns hK reg z (List.ofFn (cf w)) (by simp) bs).mpr hall
    exact ⟨E, hE, hval _ E hE⟩
  · obtain ⟨d, h1, h2, h3⟩ := c4 w
    exact ⟨d, _, h1, h2, h3⟩

/-- C223 for the stellar mass and the integrated star formation of one galaxy. -/
theorem C223_mass_one {Ω : Type} [MeasurableSpace Ω] (P : Measure Ω) (noise : Ω → Nat → Nat → Nat → ℝ) (hdev : Deviates P noise) (nnls : Nnls ℝ) (hok : NNLSOK nnls)
    (K : Kc ℝ) (hr : AbReady K.abCls K.responses.length) (hnb : K.responses.length ≠ 1) (A : AMat ℝ) (hR : Ready K.toFitter A) (z : ℝ) (m iv : List ℝ)
    (hml : m.length = K.responses.length) (hivl : iv.length = K.responses.length) (hip : ∀ v ∈ iv, 0 ≤ v) (out : Ω → Nat → FitOut ℝ)
    (hfit : ∀ ω mc, 0 < mc → K.toFitter.fitCoeffs nnls (some (.scalar z)) (some (.vec m)) (some (.vec iv)) mc (noise ω) = .ok (out ω mc))
    (hz : InRange A.x z) (hind : Indep K.toFitter z iv)
    (t : Tmpl ℝ) (Ao : AMat ℝ) (hK : MassKc K t Ao) (hG : Ao.Good) (reg : Reg ℝ) (bs : ℝ) (R : Ω → Nat → Derived ℝ)
    (hder : ∀ ω mc cm mm, 0 < mc → (out ω mc).mc = some (cm, mm) → K.derivedMc reg (some (.scalar z)) cm bs none = .ok (some (R ω mc))) (q : Nat) (hq : q = 0 ∨ q = 1) :
    ∃ f : ({l : Fin K.responses.length // 0 < ent iv l} → ℝ) → ℝ,
      (∀ w (d c : List ℝ), d.length = K.responses.length → (∀ l : {l : Fin K.responses.length // 0 < ent iv l}, d[(l.1 : Nat)]? = some (w l)) →
        Optimal K.toFitter z d (abIv K.abCls iv) c → ∃ E, K.derived reg (some (.scalar z)) (some (.vec c)) bs none = .ok E ∧ E.keys[q]? = some (.scalar (f w))) ∧
      (∀ w : {l : Fin K.responses.length // 0 < ent iv l} → ℝ, ∃ d c : List ℝ, d.length = K.responses.length ∧ (∀ l : {l : Fin K.responses.length // 0 < ent iv l}, d[(l.1 : Nat)]? = some (w l)) ∧ Optimal K.toFitter z d (abIv K.abCls iv) c) ∧
      MemLp f 2 (fluxLaw K.abCls K.responses.length m iv) ∧
      ∀ mc > 0, (∫ ω, (∑ k ∈ Finset.range mc, keySample (R ω mc) q 0 k) / mc ∂P = ∫ w, f w ∂fluxLaw K.abCls K.responses.length m iv) ∧
        Var[fun ω => (∑ k ∈ Finset.range mc, keySample (R ω mc) q 0 k) / mc; P] = Var[f; fluxLaw K.abCls K.responses.length m iv] / mc ∧
        (∀ ε > 0, P.real {ω | ε ≤ |(∑ k ∈ Finset.range mc, keySample (R ω mc) q 0 k) / mc - ∫ w, f w ∂fluxLaw K.abCls K.responses.length m iv|} ≤ Var[f; fluxLaw K.abCls K.responses.length m iv] / (mc * ε ^ 2)) ∧
        ∫ ω, scatter (Finset.range mc) (keySample (R ω mc) q 0) ^ 2 ∂P = (1 - 1 / mc) * Var[f; fluxLaw K.abCls K.responses.length m iv] := by
  obtain ⟨W, cf, hW, hWl, c1, c2, c3, c4, c5, hc⟩ := sample_fits_one P noise hdev nnls hok K hr hnb A hR z m iv hml hivl hip out hfit hz hind
  have hval : ∀ c : Fin K.templates.nsed → ℝ, ∀ E, K.derived reg (some (.scalar z)) (some (.vec (List.ofFn c))) bs none = .ok E →
      E.keys[q]? = some (.scalar (total (List.ofFn c) (if q = 0 then t.mremain else t.intsfh) * lumFactor (K.distmod z))) := by
    intro c E hE
    obtain ⟨ss, fl, _, _, hV⟩ := derived_vals hK hG reg z _ (by simp) bs E hE
    rcases hq with rfl | rfl
    · exact congrArg some hV.mremain
    · exact congrArg some hV.intsfh
  have hfc : Continuous (fun w => total (List.ofFn (cf w)) (if q = 0 then t.mremain else t.intsfh) * lumFactor (K.distmod z)) := by
    simp only [total_ofFn]
    exact (continuous_finsetSum _ fun i _ => ((continuous_apply i).comp c1).mul continuous_const).mul continuous_const
  have hL := homogeneous_memLp K.abCls K.responses.length m iv _ hfc (fun w s hs => by
    simp only [total_ofFn, c3 w s hs, mul_assoc, ← Finset.mul_sum])
  -- the values of one sample
  have cell : ∀ ω mc k, k < mc → (∃ E, K.derived reg (some (.scalar z)) (some (.vec (List.ofFn (cf (W k ω))))) bs none = .ok E) ∧
      keySample (R ω mc) q 0 k = total (List.ofFn (cf (W k ω))) (if q = 0 then t.mremain else t.intsfh) * lumFactor (K.distmod z) := by
    intro ω mc k hk
    obtain ⟨cm, mm, h1, h3, _, _, h2⟩ := hc ω mc (by omega)
    obtain ⟨R', E, e1, e2, e3⟩ := ((C82_one hK.tpl hK.mass hK.out reg z mc cm h3 bs).2 _ (hder ω mc _ _ (by omega) h1)).2 k hk
    cases e1
    rw [← column_ent, (h2 k hk).1] at e2
    obtain ⟨x, hx⟩ : ∃ x, (R ω mc).keys[q]? = some x := ⟨_, List.getElem?_eq_getElem (by rcases hq with rfl | rfl <;> simp [Derived.keys])⟩
    have e4 := (e3 q x _ hx (hval _ E e2)).2 0 _ (by simp [NDA.shape]) rfl
    rw [real_f32] at e4
    refine ⟨⟨E, e2⟩, ?_⟩
    unfold keySample
    rw [hx, Option.bind_some, e4]
    rfl
  have hP : IsProbabilityMeasure P := hdev.indep.isProbabilityMeasure
  obtain ⟨ω0⟩ : Nonempty Ω := nonempty_of_isProbabilityMeasure P
  have hall := (derived_returns hK reg z _ (by simp) bs).mp (cell ω0 1 0 one_pos).1
  refine ⟨_, fun w d c h1 h2 h3 => ?_, fun w => ?_, hL, fun mc h0 => moments_finite hW hWl _ hfc hL (fun ω mc => keySample (R ω mc) q 0) (fun ω mc k hk => (cell ω mc k hk).2) mc h0⟩
  · rw [c5 w d h1 h2 c h3]
    obtain ⟨E, hE⟩ := (derived_returns hK reg z (List.ofFn (cf w)) (by simp) bs).mpr hall
    exact ⟨E, hE, hval _ E hE⟩
  · obtain ⟨d, h1, h2, h3⟩ := c4 w
    exact ⟨d, _, h1, h2, h3⟩

/-- Not vacuous: ten samples of both coefficients and of the stellar mass, for the second galaxy of a table and for one galaxy, at redshift 2 between the nodes 1 and 3 of the grid. -/
example (t : Fin 2) : ∃ (Ω : Type) (_ : MeasurableSpace Ω) (P : Measure Ω) (out out' : Ω → Nat → FitOut ℝ) (R R' : Ω → Nat → Derived ℝ) (v v' u u' : ℝ), IsProbabilityMeasure P ∧
    (∫ ω, scatter (Finset.range 10) (sampled (out ω 10) (1 * 2 + t)) ^ 2 ∂P = 9 / 10 * v) ∧ (∫ ω, scatter (Finset.range 10) (sampled (out' ω 10) t) ^ 2 ∂P = 9 / 10 * v') ∧
    (∫ ω, scatter (Finset.range 10) (keySample (R ω 10) 0 1) ^ 2 ∂P = 9 / 10 * u) ∧ ∫ ω, scatter (Finset.range 10) (keySample (R' ω 10) 0 0) ^ 2 ∂P = 9 / 10 * u' := by
  have hdev := deviates_exist
  generalize (fun (ω : ℕ × ℕ × ℕ → ℝ) i k p => ω (i, k, p)) = noise at hdev
  generalize Measure.infinitePi (fun _ : ℕ × ℕ × ℕ => gaussianReal 0 1) = P at hdev
  have hP : IsProbabilityMeasure P := hdev.indep.isProbabilityMeasure
  have hin : InRange demoAm2.x 2 := by constructor <;> norm_num [demoAm2]
  have hip : ∀ v ∈ [(1 : ℝ), 1 / 2], 0 ≤ v := by simp
  have e : (1 - 1 / ((10 : ℕ) : ℝ)) = 9 / 10 := by norm_num
  obtain ⟨out, R, hout, hR⟩ := demo_both_draws noise
  obtain ⟨out', R', hout', hR'⟩ := demo_one_draws noise
  obtain ⟨_, _, _, _, h1⟩ := C223_coeffs P noise hdev (lhNnls 0) C184_contract demoBoth trivial (by decide) demoAm2 demo_both_ready [2, 2] [[3, 3], [3, 3]] [[1, 1 / 2], [1, 1 / 2]] (by simp) rfl rfl
    demo_ms demo_ivs demo_ivs_pos out hout 1 2 [3, 3] [1, 1 / 2] rfl rfl rfl hin demo_both_indep t
  obtain ⟨_, _, _, _, h2⟩ := C223_one P noise hdev (lhNnls 0) C184_contract demoBoth trivial (by decide) demoAm2 demo_both_ready 2 [3, 3] [1, 1 / 2] rfl rfl hip out' hout' hin demo_both_indep t
  obtain ⟨_, _, _, _, h3⟩ := C223_mass P noise hdev (lhNnls 0) C184_contract demoBoth trivial (by decide) demoAm2 demo_both_ready [2, 2] [[3, 3], [3, 3]] [[1, 1 / 2], [1, 1 / 2]] (by simp) rfl rfl
    demo_ms demo_ivs demo_ivs_pos out hout 1 2 [3, 3] [1, 1 / 2] rfl rfl rfl hin demo_both_indep demoTmpl demoAm2 demo_both_mass demo_ready.good demoReg 0 R
    (fun ω mc cm mm a b => hR ω mc cm mm a b) 0 (Or.inl rfl)
  obtain ⟨_, _, _, _, h4⟩ := C223_mass_one P noise hdev (lhNnls 0) C184_contract demoBoth trivial (by decide) demoAm2 demo_both_ready 2 [3, 3] [1, 1 / 2] rfl rfl hip out' hout' hin
    demo_both_indep demoTmpl demoAm2 demo_both_mass demo_ready.good demoReg 0 R' hR' 0 (Or.inl rfl)
  exact ⟨_, _, P, out, out', R, R', _, _, _, _, hP, e ▸ (h1 10 (by norm_num)).2.2.2, e ▸ (h2 10 (by norm_num)).2.2.2, e ▸ (h3 10 (by norm_num)).2.2.2, e ▸ (h4 10 (by norm_num)).2.2.2⟩

end KC
