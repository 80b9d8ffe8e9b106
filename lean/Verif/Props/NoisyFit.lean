import Verif.Props.SmallErrors

/-!
# Fits to noisy photometry of a galaxy made of the templates (C206)
-/

namespace KC
open Spec MeasureTheory ProbabilityTheory

namespace Spec

/-- The photometry `m` with an error of standard normal deviates `g` times the standard errors of the inverse variances `iv`; no error in bands with inverse variance zero. -/
noncomputable def observed (m iv : List ℝ) (g : Nat → ℝ) : List ℝ := m.mapIdx fun j x => x + g j / Real.sqrt (iv.getD j 0)

/-- Two photometries that are the same in the bands with positive inverse variance; in the others they may hold anything. -/
def Agree (iv d d' : List ℝ) : Prop := d.length = d'.length ∧ ∀ (j : Nat) (v : ℝ), iv[j]? = some v → 0 < v → d[j]? = d'[j]?

end Spec

theorem chi2_comm : ∀ a iv b : List ℝ, chi2 a iv b = chi2 b iv a
  | [], _, b => by simp [chi2]
  | _ :: _, _, [] => by simp [chi2]
  | _ :: _, [], _ :: _ => by simp [chi2]
  | x :: a, v :: iv, y :: b => by
    rw [chi2_cons, chi2_cons, chi2_comm a iv b]
    ring

theorem agree_chi2 {iv d d' : List ℝ} (h : Agree iv d d') (hpos : ∀ v ∈ iv, 0 ≤ v) (cls : Cls) (r : List ℝ) :
    chi2 (abM cls d) (abIv cls iv) r = chi2 (abM cls d') (abIv cls iv) r := by
  rw [chi2_comm, chi2_comm _ _ r]
  refine chi2_congr _ _ _ _ (by rw [abM_length, abM_length, h.1]) fun j v hj hv => ?_
  rw [abIv_get] at hj
  cases hi : iv[j]? with
  | none => rw [hi] at hj; simp at hj
  | some u =>
    rw [hi] at hj
    simp only [Option.map_some, Option.some.injEq] at hj
    have hu : u ≠ 0 := by rintro rfl; exact hv (by rw [← hj, zero_div])
    rw [abM_get, abM_get, h.2 j u hi (lt_of_le_of_ne (hpos u (List.mem_of_getElem? hi)) hu.symm)]

theorem agree_optimal {iv d d' : List ℝ} (h : Agree iv d d') (hpos : ∀ v ∈ iv, 0 ≤ v) (F : Fitter ℝ) (z : ℝ) (c : List ℝ) :
    Optimal F z (abM F.abCls d) (abIv F.abCls iv) c ↔ Optimal F z (abM F.abCls d') (abIv F.abCls iv) c := by
  simp only [Optimal, agree_chi2 h hpos]

theorem agree_scale {iv d d' : List ℝ} {s : ℝ} (hs : 0 < s) (h : Agree (iv.map (fun v => s * v)) d d') : Agree iv d d' :=
  ⟨h.1, fun j v hj hv => h.2 j (s * v) (by rw [List.getElem?_map, hj]; rfl) (mul_pos hs hv)⟩

theorem observed_length (m iv : List ℝ) (g : Nat → ℝ) : (observed m iv g).length = m.length := by simp [observed]

/-- Once the inverse variances are large, the noisy photometry is close to the true one, with a probability as close to one as wanted. -/
theorem observed_near {Ω : Type} [MeasurableSpace Ω] (P : Measure Ω) (g : Ω → Nat → ℝ) (hg : ∀ j, HasLaw (fun ω => g ω j) (gaussianReal 0 1) P) (m iv : List ℝ)
    (hl : iv.length = m.length) (hpos : ∀ v ∈ iv, 0 ≤ v) (δ η : ℝ) (hδ : 0 < δ) (hη : 0 < η) :
    ∃ K : ℝ, 0 < K ∧ ∀ s, K ≤ s → P {ω | ¬ Near δ m (observed m (iv.map (fun v => s * v)) (g ω))} ≤ ENNReal.ofReal η := by
  have hN : (0 : ℝ) < (m.length : ℕ) + 1 := by positivity
  obtain ⟨K, hK, hsmall⟩ := small_noise δ (η / ((m.length : ℕ) + 1)) hδ (div_pos hη hN) iv
  refine ⟨K, hK, fun s hs => ?_⟩
  have hs0 : 0 < s := lt_of_lt_of_le hK hs
  have hivj : ∀ j < m.length, iv[j]? = some (iv.getD j 0) := fun j hj => by
    rw [List.getD_eq_getElem?_getD, List.getElem?_eq_getElem (by rw [hl]; exact hj)]; rfl
  have hsv : ∀ j < m.length, (iv.map (fun v => s * v)).getD j 0 = s * iv.getD j 0 := fun j hj => by
    rw [List.getD_eq_getElem?_getD, List.getElem?_map, hivj j hj]; rfl
  have one : ∀ j < m.length, P {ω | δ ≤ |g ω j / Real.sqrt (s * iv.getD j 0)|} ≤ ENNReal.ofReal (η / ((m.length : ℕ) + 1)) := by
    intro j hj
    rcases (hpos _ (List.mem_of_getElem? (hivj j hj))).lt_or_eq with hv | hv
    · have hsv0 := mul_pos hs0 hv
      have h1 := normal_tail (shifted_law (hg j) 0 (s * iv.getD j 0) hsv0) hδ
      simp only [zero_add, sub_zero] at h1
      refine h1.trans (ENNReal.ofReal_le_ofReal ?_)
      rw [Real.coe_toNNReal _ (by positivity)]
      exact hsmall s hs _ (List.mem_of_getElem? (hivj j hj)) hv
    · have : {ω | δ ≤ |g ω j / Real.sqrt (s * iv.getD j 0)|} = ∅ := by
        ext ω
        simp only [Set.mem_ofPred_eq, Set.mem_empty_iff_false, iff_false, not_le]
        rw [← hv, mul_zero, Real.sqrt_zero, div_zero, abs_zero]
        exact hδ
      rw [this, measure_empty]
      exact zero_le
  calc P {ω | ¬ Near δ m (observed m (iv.map (fun v => s * v)) (g ω))}
      ≤ P (⋃ j ∈ Finset.range m.length, {ω | δ ≤ |g ω j / Real.sqrt (s * iv.getD j 0)|}) := by
        refine measure_mono fun ω hω => ?_
        by_contra hno
        simp only [Set.mem_iUnion, Set.mem_ofPred_eq, Finset.mem_range, exists_prop, not_exists, not_and, not_le] at hno
        refine hω ⟨observed_length _ _ _, fun j x y hx hy => ?_⟩
        have hj : j < m.length := (List.getElem?_eq_some_iff.mp hx).1
        simp only [observed, List.getElem?_mapIdx, hx, Option.map_some, Option.some.injEq] at hy
        rw [← hy, hsv j hj, add_sub_cancel_left]
        exact hno j hj
    _ ≤ ∑ j ∈ Finset.range m.length, P {ω | δ ≤ |g ω j / Real.sqrt (s * iv.getD j 0)|} := measure_biUnion_finset_le _ _
    _ ≤ ∑ _j ∈ Finset.range m.length, ENNReal.ofReal (η / ((m.length : ℕ) + 1)) :=
        Finset.sum_le_sum fun j hj => one j (Finset.mem_range.mp hj)
    _ ≤ ENNReal.ofReal η := by
        rw [Finset.sum_const, Finset.card_range, nsmul_eq_mul, ← ENNReal.ofReal_natCast, ← ENNReal.ofReal_mul (by positivity)]
        apply ENNReal.ofReal_le_ofReal
        rw [mul_div_assoc', div_le_iff₀ hN]
        nlinarith

/-- A fit with the inverse variances times a common factor, by any solver that meets the contract, is the fit without the factor by another one; what is in the bands with inverse variance zero does not matter. -/
theorem scaled_fit (nnls nnls' : Nnls ℝ) (hn : NNLSOK nnls) (hn' : NNLSOK nnls') (hret : NnlsReturns nnls') (F : Fitter ℝ) (A : AMat ℝ) (hR : Ready F A)
    (hr : AbReady F.abCls F.responses.length) (hnb : F.responses.length ≠ 1) (z : ℝ) (hz : InRange A.x z) (m d iv : List ℝ) (hm : m.length = F.responses.length)
    (hiv : iv.length = F.responses.length) (hpos : ∀ v ∈ iv, 0 ≤ v) (hi : Spec.Indep F z iv) (s : ℝ) (hs : 0 < s) (hd : Agree (iv.map (fun v => s * v)) d m) (noise : Nat → Nat → Nat → ℝ) (out : FitOut ℝ)
    (h : F.fitCoeffs nnls (some (.scalar z)) (some (.vec d)) (some (.vec (iv.map (fun v => s * v)))) 0 noise = .ok out) :
    F.fitCoeffs nnls' (some (.scalar z)) (some (.vec m)) (some (.vec iv)) 0 noise = .ok out := by
  have hlen : (iv.map (fun v => s * v)).length = F.responses.length := by simp [hiv]
  have hsp : ∀ v ∈ iv.map (fun v => s * v), 0 ≤ v := by
    intro v hv
    obtain ⟨u, hu, rfl⟩ := List.mem_map.mp hv
    exact mul_nonneg hs.le (hpos u hu)
  have habs : abIv F.abCls (iv.map (fun v => s * v)) = (abIv F.abCls iv).map (fun v => s * v) := by
    apply List.ext_getElem?
    intro j
    simp only [abIv_get, List.getElem?_map]
    cases iv[j]? with
    | none => rfl
    | some v => simp [mul_div_assoc]
  obtain ⟨c, rfl, ho⟩ := C49_ab nnls hn F hr A hR z hz d _ (by rw [hd.1, hm]) hlen hsp noise out h
  rw [habs, C62_weight_scale F A hR z hz _ _ _ s hs, agree_optimal (agree_scale hs hd) hpos] at ho
  obtain ⟨c', h', o'⟩ := C161_ab nnls' hn' F (solve_returns hret _) hr hnb A hR z hz m iv hm hiv hpos noise
  rw [optimal_eq F A hR z hz _ _ (by rw [abM_length, hm]) (by rw [abIv_length, hiv]) (abIv_nonneg _ _ hpos) (indep_ab _ hi) c c' ho o']
  exact h'

/-- The fit to the exact photometry of nonnegative coefficients returns them. -/
theorem exact_fit (nnls : Nnls ℝ) (hn : NNLSOK nnls) (hret : NnlsReturns nnls) (F : Fitter ℝ) (A : AMat ℝ) (hR : Ready F A)
    (hr : AbReady F.abCls F.responses.length) (hnb : F.responses.length ≠ 1) (z : ℝ) (hz : InRange A.x z) (m iv c : List ℝ) (hm : m.length = F.responses.length)
    (hiv : iv.length = F.responses.length) (hpos : ∀ v ∈ iv, 0 ≤ v) (hi : Spec.Indep F z iv) (hc : c.length = F.templates.nsed) (hc0 : ∀ v ∈ c, 0 ≤ v)
    (hrec : F.reconstruct (some (.scalar z)) (some (.vec c)) 0 = .ok (.vec (abM F.abCls m))) (noise : Nat → Nat → Nat → ℝ) :
    F.fitCoeffs nnls (some (.scalar z)) (some (.vec m)) (some (.vec iv)) 0 noise = .ok ⟨.vec c, none⟩ := by
  obtain ⟨c', h', o'⟩ := C161_ab nnls hn F (solve_returns hret _) hr hnb A hR z hz m iv hm hiv hpos noise
  obtain ⟨m', _, h1, ho⟩ := exact_optimal hR hz hc hc0 (abIv_nonneg F.abCls iv hpos)
  rw [hrec] at h1
  simp only [Except.ok.injEq, NDA.vec, NDA.arr.injEq, List.cons.injEq, and_true] at h1
  rw [← h1.2.2] at ho
  rw [optimal_eq F A hR z hz _ _ (by rw [abM_length, hm]) (by rw [abIv_length, hiv]) (abIv_nonneg _ _ hpos) (indep_ab _ hi) c c' ho o']
  exact h'

/-- C206: for a galaxy that is a nonnegative combination of the templates, observed with normal errors, the coefficients of the fit tend to the true ones in probability as the errors
become small.  In bands with inverse variance zero the photometry may hold anything. -/
theorem C206_coefficients {Ω : Type} [MeasurableSpace Ω] (P : Measure Ω) (g : Ω → Nat → ℝ) (hg : ∀ j, HasLaw (fun ω => g ω j) (gaussianReal 0 1) P) (nnls : Nnls ℝ) (hn : NNLSOK nnls)
    (F : Fitter ℝ) (A : AMat ℝ) (hR : Ready F A) (hr : AbReady F.abCls F.responses.length) (hnb : F.responses.length ≠ 1) (z : ℝ) (hz : InRange A.x z) (m iv c : List ℝ)
    (hm : m.length = F.responses.length) (hiv : iv.length = F.responses.length) (hpos : ∀ v ∈ iv, 0 ≤ v) (hi : Spec.Indep F z iv) (hc : c.length = F.templates.nsed)
    (hc0 : ∀ v ∈ c, 0 ≤ v) (hrec : F.reconstruct (some (.scalar z)) (some (.vec c)) 0 = .ok (.vec (abM F.abCls m))) (ε η : ℝ) (hε : 0 < ε) (hη : 0 < η) :
    ∃ K : ℝ, 0 < K ∧ ∀ s, K ≤ s →
      P {ω | ∃ d noise out, Agree (iv.map (fun v => s * v)) d (observed m (iv.map (fun v => s * v)) (g ω)) ∧
        F.fitCoeffs nnls (some (.scalar z)) (some (.vec d)) (some (.vec (iv.map (fun v => s * v)))) 0 noise = .ok out ∧
        ¬ ∃ c', out.coeffs = .vec c' ∧ Near ε c c'} ≤ ENNReal.ofReal η := by
  have h0 := exact_fit demoNnls C161_solver.1 C161_solver.2 F A hR hr hnb z hz m iv c hm hiv hpos hi hc hc0 hrec (fun _ _ _ => 0)
  obtain ⟨c0, δ, e0, hδ, hclose⟩ := C200_coefficients demoNnls demoNnls C161_solver.1 C161_solver.1 F A hR hr m iv hm hiv hpos z hz hi _ _ h0 ε hε
  simp only [NDA.vec, NDA.arr.injEq, List.cons.injEq, and_true] at e0
  obtain rfl := e0.2.2
  obtain ⟨K, hK, hP⟩ := observed_near P g hg m iv (by rw [hiv, hm]) hpos δ η hδ hη
  refine ⟨K, hK, fun s hs => (measure_mono fun ω hω => ?_).trans (hP s hs)⟩
  obtain ⟨d, noise, out, hd, hf, hbad⟩ := hω
  intro hnear
  have hs0 : 0 < s := lt_of_lt_of_le hK hs
  have hf' := scaled_fit nnls demoNnls hn C161_solver.1 C161_solver.2 F A hR hr hnb z hz _ d iv (by rw [observed_length, hm]) hiv hpos hi s hs0 hd noise out hf
  exact hbad (hclose z _ iv noise out hz (by simpa using hδ) hnear ⟨rfl, fun j x y hx hy => by rw [hx] at hy; cases hy; simpa using hδ⟩ hpos hf')

/-- C206 for the K-correction of a band in which the galaxy has flux: it tends to the true one in probability. -/
theorem C206_kcorrect {Ω : Type} [MeasurableSpace Ω] (P : Measure Ω) (g : Ω → Nat → ℝ) (hg : ∀ j, HasLaw (fun ω => g ω j) (gaussianReal 0 1) P) (nnls : Nnls ℝ) (hn : NNLSOK nnls)
    (K : Kc ℝ) (A Ao : AMat ℝ) (hR : Ready K.toFitter A) (hAo : K.AmatrixOut = some Ao) (hr : AbReady K.abCls K.responses.length) (hnb : K.responses.length ≠ 1) (z : ℝ)
    (hz : InRange A.x z) (m iv c : List ℝ) (hm : m.length = K.responses.length) (hiv : iv.length = K.responses.length) (hpos : ∀ v ∈ iv, 0 ≤ v)
    (hi : Spec.Indep K.toFitter z iv) (hc : c.length = K.templates.nsed) (hc0 : ∀ v ∈ c, 0 ≤ v)
    (hrec : K.reconstruct (some (.scalar z)) (some (.vec c)) 0 = .ok (.vec (abM K.abCls m))) (bs : ℝ) (k0 b0 : NDA ℝ)
    (hk0 : K.kcorrect (some (.scalar z)) (some (.vec c)) bs = .ok k0) (hb0 : K.reconstructOut (some (.scalar 0)) (some (.vec c)) bs = .ok b0) (j i : Nat) (hij : K.imap[j]? = some i)
    (fa fb : ℝ) (hfa : (abM K.abCls m)[i]? = some fa) (hfb : entry b0 0 j = some fb) (pa : 0 < fa) (pb : 0 < fb) (ε η : ℝ) (hε : 0 < ε) (hη : 0 < η) :
    ∃ x0 S, entry k0 0 j = some x0 ∧ 0 < S ∧ ∀ s, S ≤ s →
      P {ω | ∃ d noise out, Agree (iv.map (fun v => s * v)) d (observed m (iv.map (fun v => s * v)) (g ω)) ∧
        K.toFitter.fitCoeffs nnls (some (.scalar z)) (some (.vec d)) (some (.vec (iv.map (fun v => s * v)))) 0 noise = .ok out ∧
        ¬ ∃ k x, K.kcorrect (some (.scalar z)) (some out.coeffs) bs = .ok k ∧ entry k 0 j = some x ∧ |x - x0| < ε} ≤ ENNReal.ofReal η := by
  have h0 := exact_fit demoNnls C161_solver.1 C161_solver.2 K.toFitter A hR hr hnb z hz m iv c hm hiv hpos hi hc hc0 hrec (fun _ _ _ => 0)
  obtain ⟨x0, δ, hx0, hδ, hclose⟩ := C200_kcorrect demoNnls demoNnls C161_solver.1 C161_solver.1 K A Ao hR hAo hr m iv hm hiv hpos z hz hi _ _ h0 bs k0 _ b0 hk0 hrec hb0 j i hij fa fb
    (by simpa [entry, NDA.vec] using hfa) hfb pa pb ε hε
  obtain ⟨S, hS, hP⟩ := observed_near P g hg m iv (by rw [hiv, hm]) hpos δ η hδ hη
  refine ⟨x0, S, hx0, hS, fun s hs => (measure_mono fun ω hω => ?_).trans (hP s hs)⟩
  obtain ⟨d, noise, out, hd, hf, hbad⟩ := hω
  intro hnear
  have hs0 : 0 < s := lt_of_lt_of_le hS hs
  have hf' := scaled_fit nnls demoNnls hn C161_solver.1 C161_solver.2 K.toFitter A hR hr hnb z hz _ d iv (by rw [observed_length, hm]) hiv hpos hi s hs0 hd noise out hf
  exact hbad (hclose z _ iv noise out hz (by simpa using hδ) hnear ⟨rfl, fun j x y hx hy => by rw [hx] at hy; cases hy; simpa using hδ⟩ hpos hf')

/-- The hypotheses hold for independent standard normal deviates and a galaxy made of equal parts of two templates. -/
theorem demo_truth : ∃ (Ω : Type) (_ : MeasurableSpace Ω) (P : Measure Ω) (g : Ω → Nat → ℝ) (k0 b0 : NDA ℝ) (fb : ℝ), (∀ j, HasLaw (fun ω => g ω j) (gaussianReal 0 1) P) ∧ NNLSOK (lhNnls 0) ∧
    Ready demoKc2.toFitter demoAm2 ∧ demoKc2.AmatrixOut = some demoAm2 ∧ AbReady demoKc2.abCls demoKc2.responses.length ∧ demoKc2.responses.length = 2 ∧ InRange demoAm2.x 2 ∧
    Spec.Indep demoKc2.toFitter 2 [1, 1 / 2] ∧ demoKc2.templates.nsed = 2 ∧
    demoKc2.reconstruct (some (.scalar 2)) (some (.vec [1, 1])) 0 = .ok (.vec (abM demoKc2.abCls [3, 3])) ∧ demoKc2.kcorrect (some (.scalar 2)) (some (.vec [1, 1])) 0 = .ok k0 ∧
    demoKc2.reconstructOut (some (.scalar 0)) (some (.vec [1, 1])) 0 = .ok b0 ∧ demoKc2.imap[1]? = some 1 ∧ (abM demoKc2.abCls [3, 3])[1]? = some 3 ∧ entry b0 0 1 = some fb ∧ 0 < fb := by
  obtain ⟨_, h1, h2, h3, _⟩ := demo_used
  have h0 : demoAm2.at 0 = .ok [[1, 2], [3, 1]] := at_node (k := 0) demo_ready.good (by simp [demoAm2])
  have hab : abM demoKc2.abCls [3, 3] = [3, 3] := abM_base _
  have hx : demoKc2.reconstruct (some (.scalar 2)) (some (.vec [1, 1])) 0 = .ok (.vec [3, 3]) := by
    refine (recon_real demoKc2.toFitter demoAm2 2 [1, 1] 0 rfl).trans ?_
    rw [show ((1 : ℝ) + 2) * (1 + 0) - 1 = 2 by norm_num, demoAm2_at2]
    norm_num [reconRow, dot, sumL_real, NDA.vec, Except.map]
    rfl
  have hy : demoKc2.reconstructOut (some (.scalar 0)) (some (.vec [1, 1])) 0 = .ok (.arr [] 2 [reconRow 0 [[1, 2], [3, 1]] [1, 1]]) := by
    refine (recon_real demoKc2.toFitter demoAm2 0 [1, 1] 0 rfl).trans ?_
    rw [show ((1 : ℝ) + 0) * (1 + 0) - 1 = 0 by norm_num, h0]
    rfl
  obtain ⟨k, hk⟩ := (C67_model_magnitudes demoKc2 demoAm2 demoAm2 rfl rfl 2 0 [1, 1] rfl).1.mpr ⟨⟨_, hx⟩, ⟨_, hy⟩⟩
  exact ⟨_, _, Measure.infinitePi (fun _ : ℕ × ℕ × ℕ => gaussianReal 0 1), fun ω j => ω (0, 0, j), k, _, 4, fun j => deviates_exist.law 0 0 j, C184_contract, h1, rfl, trivial, rfl, h2, h3, rfl, by rw [hab]; exact hx, hk, hy, rfl,
    by rw [hab]; rfl, by norm_num [entry, reconRow, dot, sumL_real], by norm_num⟩

end KC
