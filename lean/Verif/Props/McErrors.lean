import Verif.Props.LinearFit
import Verif.Props.MonteCarlo
import Verif.Props.AbClasses

/-!
# The distribution of the Monte Carlo coefficients (C204)
-/

namespace KC
open Spec MeasureTheory ProbabilityTheory

section
variable {Ω : Type} [MeasurableSpace Ω] {P : Measure Ω}

theorem const_law [IsProbabilityMeasure P] (x : ℝ) : HasLaw (fun _ : Ω => x) (gaussianReal x 0) P :=
  ⟨aemeasurable_const, by rw [gaussianReal_zero_var, Measure.map_const]; simp⟩

/-- A sum of independent normal deviates is normal, with the sums of the means and of the variances. -/
theorem sum_law [IsProbabilityMeasure P] {n : Nat} {Y : Fin n → Ω → ℝ} (hi : iIndepFun Y P) {μ : Fin n → ℝ} {v : Fin n → NNReal}
    (hl : ∀ j, HasLaw (Y j) (gaussianReal (μ j) (v j)) P) (s : Finset (Fin n)) :
    HasLaw (fun ω => ∑ j ∈ s, Y j ω) (gaussianReal (∑ j ∈ s, μ j) (∑ j ∈ s, v j)) P := by
  classical
  induction s using Finset.induction_on with
  | empty => simpa using const_law (P := P) 0
  | insert j s hj ih =>
    have hind : IndepFun (Y j) (fun ω => ∑ j ∈ s, Y j ω) P := by
      have := (hi.indepFun_finsetSum_of_notMem₀ (fun i => (hl i).aemeasurable) hj).symm
      convert this using 1
      funext ω
      simp
    have e := gaussianReal_add_gaussianReal_of_indepFun hind (hl j).map_eq ih.map_eq
    rw [Finset.sum_insert hj, Finset.sum_insert hj]
    refine ⟨?_, ?_⟩
    · have : (fun ω => ∑ j ∈ insert j s, Y j ω) = fun ω => Y j ω + ∑ j ∈ s, Y j ω := by
        funext ω; rw [Finset.sum_insert hj]
      rw [this]
      exact (hl j).aemeasurable.add ih.aemeasurable
    · rw [← e]
      congr 1
      funext ω
      simp [Finset.sum_insert hj]

/-- Functions of disjoint groups of independent variables are independent, as a family. -/
theorem blocks_indep {E ι : Type} [MeasurableSpace E] [Fintype ι] {X : ι × ℕ → Ω → ℝ} (hX : iIndepFun X P) (meas : ∀ i, AEMeasurable (X i) P) (f : ℕ → (ι → ℝ) → E) (hf : ∀ k, Measurable (f k)) :
    iIndepFun (fun k ω => f k (fun j => X (j, k) ω)) P := by
  classical
  have : IsProbabilityMeasure P := hX.isProbabilityMeasure
  rw [iIndepFun_iff_measure_inter_preimage_eq_mul]
  intro s B hB
  induction s using Finset.induction_on with
  | empty => simp
  | insert k s hk ih =>
    rw [Finset.set_biInter_insert, Finset.prod_insert hk, ← ih fun i hi => hB i (Finset.mem_insert_of_mem hi)]
    let T : Finset ℕ → Finset (ι × ℕ) := fun s => Finset.univ ×ˢ s
    have hT : ∀ (s : Finset ℕ) (j : ι) (i : ℕ), i ∈ s → (j, i) ∈ T s := fun s j i hi => Finset.mem_product.mpr ⟨Finset.mem_univ j, hi⟩
    have hdis : Disjoint (T {k}) (T s) := by
      rw [Finset.disjoint_left]
      intro i h1 h2
      have e := Finset.mem_singleton.mp (Finset.mem_product.mp h1).2
      exact hk (e ▸ (Finset.mem_product.mp h2).2)
    have hind := hX.indepFun_finset₀ (T {k}) (T s) hdis meas
    have m1 : MeasurableSet {y : T {k} → ℝ | f k (fun j => y ⟨(j, k), hT {k} j k (Finset.mem_singleton_self k)⟩) ∈ B k} :=
      ((hf k).comp (by fun_prop)) (hB k (Finset.mem_insert_self k s))
    have m2 : MeasurableSet (⋂ i : s, {y : T s → ℝ | f i (fun j => y ⟨(j, (i : ℕ)), hT s j i i.2⟩) ∈ B i}) :=
      MeasurableSet.iInter fun i => ((hf i).comp (by fun_prop)) (hB i (Finset.mem_insert_of_mem i.2))
    have h := hind.measure_inter_preimage_eq_mul _ _ m1 m2
    have e : (fun ω (x : T s) => X x ω) ⁻¹' (⋂ i : s, {y : T s → ℝ | f i (fun j => y ⟨(j, (i : ℕ)), hT s j i i.2⟩) ∈ B i}) =
        ⋂ i ∈ s, (fun ω => f i fun j => X (j, i) ω) ⁻¹' B i := by
      ext ω
      simp
    rw [e] at h
    exact h

end

/-- C204: the Monte Carlo draws of `fit_coeffs` and the errors of the coefficients.  There is a linear response `L` of the coefficients to the photometry, that of all fits that use
the templates that the fit to the data uses.  Every linear combination of the coefficients of a draw that uses these templates is a normal deviate with the value of the
fit to the data as mean and the variance that `L` propagates from the inverse variances of the bands; the deviates of different draws are independent. -/
theorem C204_errors {Ω : Type} [MeasurableSpace Ω] (P : Measure Ω) (noise : Ω → Nat → Nat → Nat → ℝ) (hd : Deviates P noise) (nnls : Nnls ℝ) (hn : NNLSOK nnls)
    (F : Fitter ℝ) (A : AMat ℝ) (hR : Ready F A) (hr : AbReady F.abCls F.responses.length) (hnb : F.responses.length ≠ 1) (z : ℝ) (hz : InRange A.x z) (m iv : List ℝ)
    (hm : m.length = F.responses.length) (hiv : iv.length = F.responses.length) (hpos : ∀ v ∈ iv, 0 ≤ v) (hi : Spec.Indep F z iv) (noise0 : Nat → Nat → Nat → ℝ) (c0 : List ℝ)
    (h0 : F.fitCoeffs nnls (some (.scalar z)) (some (.vec m)) (some (.vec iv)) 0 noise0 = .ok ⟨.vec c0, none⟩) (mc : Nat) (hmc : 0 < mc) :
    ∃ L : Nat → Nat → ℝ,
      (∀ (nnls' : Nnls ℝ), NNLSOK nnls' → ∀ (m' : List ℝ), m'.length = F.responses.length → ∀ (noise' : Nat → Nat → Nat → ℝ) (out : FitOut ℝ),
        F.fitCoeffs nnls' (some (.scalar z)) (some (.vec m')) (some (.vec iv)) 0 noise' = .ok out → ∃ c, out.coeffs = .vec c ∧ (used c = used c0 →
          ∀ (t : Nat) (x : ℝ), c[t]? = some x → x = ∑ j : Fin F.responses.length, L t j * m'.getD j 0)) ∧
      ∀ u : Nat → ℝ, ∃ G : Nat → Ω → ℝ,
        (∀ k, HasLaw (G k) (gaussianReal (∑ t : Fin F.templates.nsed, u t * c0.getD t 0)
          (Real.toNNReal (∑ j : Fin F.responses.length, (∑ t : Fin F.templates.nsed, u t * L t j) ^ 2 / iv.getD j 0))) P) ∧
        iIndepFun G P ∧
        ∀ ω out, F.fitCoeffs nnls (some (.scalar z)) (some (.vec m)) (some (.vec iv)) mc (noise ω) = .ok out →
          ∃ cm mm, out.mc = some (.arr [F.templates.nsed] mc cm, mm) ∧ ∀ k < mc, used (column cm k) = used c0 →
            ∑ t : Fin F.templates.nsed, u t * (column cm k).getD t 0 = G k ω := by
  have vinj : ∀ a b : List ℝ, NDA.vec a = NDA.vec b → a = b := by
    intro a b h
    simp only [NDA.vec, NDA.arr.injEq, List.cons.injEq, and_true] at h
    exact h.2.2
  have : IsProbabilityMeasure P := hd.indep.isProbabilityMeasure
  obtain ⟨L0, hL⟩ := C202_piecewise F A hR hr z hz iv hiv hpos hi
  obtain ⟨S, hS1, hS2, hS3, hS4⟩ := C115_one P noise hd nnls hn.len F hr hnb A hR.set z m iv hm hiv hpos mc hmc
  obtain ⟨p, _, hp⟩ := C55_ab nnls hn.len F hr hnb A hR.set z m iv hm hiv hpos
  have hf := fun j => (abFactor_pos F.abCls j)
  have hmj : ∀ j : Fin F.responses.length, m[(j : Nat)]? = some (m.getD j 0) := fun j => by
    rw [List.getD_eq_getElem?_getD, List.getElem?_eq_getElem (by rw [hm]; exact j.2)]; rfl
  have hivj : ∀ j : Fin F.responses.length, iv[(j : Nat)]? = some (iv.getD j 0) := fun j => by
    rw [List.getD_eq_getElem?_getD, List.getElem?_eq_getElem (by rw [hiv]; exact j.2)]; rfl
  obtain ⟨c0', hc0, hl0, hlin0⟩ := hL nnls hn m hm noise0 _ h0
  obtain rfl := vinj _ _ hc0
  refine ⟨L0 (used c0), ?_, ?_⟩
  · intro nnls' hn' m' hm' noise' out h
    obtain ⟨c, hc, hl, hlin⟩ := hL nnls' hn' m' hm' noise' out h
    exact ⟨c, hc, fun hu t x hx => by rw [hlin t x hx, hu]⟩
  intro u
  -- the weight of a band
  let w : Nat → ℝ := fun j => ∑ t : Fin F.templates.nsed, u t * L0 (used c0) t j
  have swap : ∀ m' : List ℝ, ∑ t : Fin F.templates.nsed, u t * (∑ j : Fin F.responses.length, L0 (used c0) t j * m'.getD j 0) =
      ∑ j : Fin F.responses.length, w j * m'.getD j 0 := by
    intro m'
    simp only [w, Finset.mul_sum, Finset.sum_mul]
    rw [Finset.sum_comm]
    exact Finset.sum_congr rfl fun j _ => Finset.sum_congr rfl fun t _ => by ring
  have get : ∀ (c : List ℝ), c.length = F.templates.nsed → ∀ t : Fin F.templates.nsed, c[(t : Nat)]? = some (c.getD t 0) := fun c hc t => by
    rw [List.getD_eq_getElem?_getD, List.getElem?_eq_getElem (by rw [hc]; exact t.2)]; rfl
  have hX : iIndepFun (fun (i : Fin F.responses.length × ℕ) => S ((i.1 : Nat), i.2)) P :=
    hS4.precomp (g := fun i : Fin F.responses.length × ℕ => ((i.1 : Nat), i.2)) (by
      rintro ⟨a, b⟩ ⟨a', b'⟩ h
      simp only [Prod.mk.injEq] at h
      exact Prod.ext (Fin.ext h.1) h.2)
  have law : ∀ (j : Fin F.responses.length) (k : ℕ), HasLaw (fun ω => w j / abFactor F.abCls j * S ((j : Nat), k) ω)
      (gaussianReal (w j * m.getD j 0) (Real.toNNReal (w j ^ 2 / iv.getD j 0))) P := by
    intro j k
    have hfj := hf j
    rcases (hpos _ (List.mem_of_getElem? (hivj j))).lt_or_eq with hv | hv
    · have h1 := gaussianReal_const_mul (hS2 j k _ _ (hmj j) (hivj j) hv) (w j / abFactor F.abCls j)
      convert h1 using 2
      · field_simp
      · apply NNReal.eq
        rw [NNReal.coe_mul, Real.coe_toNNReal _ (by positivity), Real.coe_toNNReal _ (by positivity)]
        show _ = (w j / abFactor F.abCls j) ^ 2 * _
        field_simp
    · have h1 := hS3 j k _ (hmj j) (by rw [hivj j, ← hv])
      have h2 : (fun ω => w j / abFactor F.abCls j * S ((j : Nat), k) ω) = fun _ => w j * m.getD j 0 := by
        funext ω
        rw [h1 ω]
        field_simp
      rw [h2, ← hv, div_zero, Real.toNNReal_zero]
      exact const_law _
  have meas : ∀ i : Fin F.responses.length × ℕ, AEMeasurable (S ((i.1 : Nat), i.2)) P := by
    rintro ⟨j, k⟩
    rcases (hpos _ (List.mem_of_getElem? (hivj j))).lt_or_eq with hv | hv
    · exact (hS2 j k _ _ (hmj j) (hivj j) hv).aemeasurable
    · have h1 := hS3 j k _ (hmj j) (by rw [hivj j, ← hv])
      rw [show S ((j : Nat), k) = fun _ => m.getD j 0 * abFactor F.abCls j from funext h1]
      exact aemeasurable_const
  refine ⟨fun k ω => ∑ j : Fin F.responses.length, w j / abFactor F.abCls j * S ((j : Nat), k) ω, ?_, ?_, ?_⟩
  · intro k
    have hY : iIndepFun (fun (j : Fin F.responses.length) ω => w j / abFactor F.abCls j * S ((j : Nat), k) ω) P :=
      (hX.precomp (g := fun j : Fin F.responses.length => (j, k)) (fun a b h => by simpa using h)).comp
        (fun j x => w j / abFactor F.abCls j * x) (fun j => by fun_prop)
    have h1 := sum_law hY (fun j => law j k) Finset.univ
    convert h1 using 2
    · rw [← swap]
      exact Finset.sum_congr rfl fun t _ => by rw [hlin0 t _ (get c0 hl0 t)]
    · apply NNReal.eq
      rw [NNReal.coe_sum, Real.coe_toNNReal]
      · refine Finset.sum_congr rfl fun j _ => ?_
        rw [Real.coe_toNNReal]
        exact div_nonneg (sq_nonneg _) (hpos _ (List.mem_of_getElem? (hivj j)))
      · exact Finset.sum_nonneg fun j _ => div_nonneg (sq_nonneg _) (hpos _ (List.mem_of_getElem? (hivj j)))
  · exact blocks_indep hX meas (fun _ y => ∑ j : Fin F.responses.length, w j / abFactor F.abCls j * y j) (fun _ => by fun_prop)
  · intro ω out h
    obtain ⟨_, cm, mm, he, hcl, hml, hcr, hmr, hk⟩ := hp mc hmc (noise ω) out h
    obtain ⟨cm', mm', he', _, hent⟩ := hS1 ω out h
    rw [he] at he'
    simp only [Option.some.injEq, Prod.mk.injEq] at he'
    obtain ⟨rfl, rfl⟩ := he'
    refine ⟨cm, _, he, fun k hkm hu => ?_⟩
    obtain ⟨hfit, _, _⟩ := hk k hkm
    have hcol : ∀ j : Fin F.responses.length, (column mm k)[(j : Nat)]? = some (S ((j : Nat), k) ω) := by
      intro j
      have h1 := hent j k j.2 hkm
      simp only [entry] at h1
      unfold column
      rw [List.getElem?_map]
      cases hj : mm[(j : Nat)]? with
      | none => rw [hj] at h1; simp at h1
      | some row =>
        rw [hj] at h1
        simp only [Option.bind_some] at h1
        simp [List.getD_eq_getElem?_getD, h1]
    -- the photometry of the draw in the units of the caller
    let m' : List ℝ := (column mm k).mapIdx fun j x => x / abFactor F.abCls j
    have hcm : (column mm k).length = F.responses.length := by simp [column, hml]
    have hm' : m'.length = F.responses.length := by simp [m', hcm]
    have hback : (m'.mapIdx fun j x => x * abFactor F.abCls j) = column mm k := by
      apply List.ext_getElem?
      intro j
      simp only [m', List.getElem?_mapIdx, Option.map_map]
      cases (column mm k)[j]? with
      | none => rfl
      | some x => simp [(hf j).ne']
    have hfit' : F.fitCoeffs nnls (some (.scalar z)) (some (.vec m')) (some (.vec iv)) 0 (noise ω) = .ok ⟨.vec (column cm k), none⟩ := by
      rw [fit_eff nnls F hr z m' iv hm' hiv 0 (noise ω), hback]
      exact hfit
    obtain ⟨c, hc, hl, hlin⟩ := hL nnls hn m' hm' _ _ hfit'
    obtain rfl := vinj _ _ hc
    rw [hu] at hlin
    rw [Finset.sum_congr rfl fun t _ => by rw [hlin t _ (get _ hl t)], swap]
    refine Finset.sum_congr rfl fun j _ => ?_
    rw [show m'.getD j 0 = S ((j : Nat), k) ω / abFactor F.abCls j by
      rw [List.getD_eq_getElem?_getD]; simp only [m', List.getElem?_mapIdx]; rw [hcol j]; rfl]
    ring

/-- The hypotheses hold for independent standard normal deviates and a fit with two templates; the draws of a fit return. -/
example : ∃ (Ω : Type) (_ : MeasurableSpace Ω) (P : Measure Ω) (noise : Ω → Nat → Nat → Nat → ℝ) (c0 : List ℝ), Deviates P noise ∧ NNLSOK (lhNnls 0) ∧
    Ready demoKc2.toFitter demoAm2 ∧ AbReady demoKc2.abCls demoKc2.responses.length ∧ demoKc2.responses.length = 2 ∧ InRange demoAm2.x 2 ∧ Spec.Indep demoKc2.toFitter 2 [1, 1 / 2] ∧
    demoKc2.toFitter.fitCoeffs (lhNnls 0) (some (.scalar 2)) (some (.vec [3, 3])) (some (.vec [1, 1 / 2])) 0 (fun _ _ _ => 0) = .ok ⟨.vec c0, none⟩ ∧
    c0.length = 2 ∧ ∀ v ∈ c0, 0 < v := by
  obtain ⟨c0, h1, h2, h3, h4, h5, h6⟩ := demo_used
  exact ⟨_, _, _, _, c0, deviates_exist, C184_contract, h1, trivial, rfl, h2, h3, h4, h5, h6⟩

end KC
