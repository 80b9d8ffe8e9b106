import Mathlib.Probability.Moments.SubGaussian
import Verif.Props.SampleFinite

/-!
# How many Monte Carlo samples are enough (C224)
-/

namespace KC
open Spec MeasureTheory ProbabilityTheory Filter Topology

/-- The fraction of `n` samples of which `S` is true estimates the probability `p`: its expectation is `p`, and it is off by `ε` or more with probability at most
`2 exp (-2 n ε²)`, whatever `p` is. -/
def Spec.Accurate {Ω : Type} [MeasurableSpace Ω] (P : Measure Ω) (n : Nat) (S : Ω → Nat → Prop) (p : ℝ) : Prop :=
  ∫ ω, fraction n (S ω) ∂P = p ∧ ∀ ε : ℝ, 0 < ε → P.real {ω | ε ≤ |fraction n (S ω) - p|} ≤ 2 * Real.exp (-2 * n * ε ^ 2)

/-- independent samples of one distribution: Hoeffding's inequality -/
theorem fraction_finite {Ω E : Type} [MeasurableSpace Ω] [MeasurableSpace E] {P : Measure Ω} {ν : Measure E} [IsProbabilityMeasure ν] {W : ℕ → Ω → E} (hi : iIndepFun W P)
    (hl : ∀ k, HasLaw (W k) ν P) (B : Set E) (hB : MeasurableSet B) (n : Nat) (h0 : 0 < n) (S : Ω → Nat → Prop) (hS : ∀ ω, ∀ k < n, W k ω ∈ B ↔ S ω k) :
    Accurate P n S (ν.real B) := by
  classical
  have hP : IsProbabilityMeasure P := hi.isProbabilityMeasure
  have hn : (0 : ℝ) < n := by exact_mod_cast h0
  have hf : Measurable (B.indicator fun _ => (1 : ℝ)) := measurable_const.indicator hB
  have hXm : ∀ k, AEMeasurable (fun ω => B.indicator (fun _ => (1 : ℝ)) (W k ω)) P := fun k => hf.comp_aemeasurable (hl k).aemeasurable
  have hXb : ∀ k, ∀ᵐ ω ∂P, B.indicator (fun _ => (1 : ℝ)) (W k ω) ∈ Set.Icc (0 : ℝ) 1 := fun k => ae_of_all _ fun ω => by
    simp only [Set.indicator_apply]
    split <;> simp
  have hXi : ∀ k, ∫ ω, B.indicator (fun _ => (1 : ℝ)) (W k ω) ∂P = ν.real B := fun k => by
    have := (hl k).integral_comp (f := B.indicator fun _ => (1 : ℝ)) hf.aestronglyMeasurable
    rw [integral_indicator hB, setIntegral_const, smul_eq_mul, mul_one] at this
    exact this
  have hfr : ∀ ω, fraction n (S ω) = (∑ k ∈ Finset.range n, B.indicator (fun _ => (1 : ℝ)) (W k ω)) / n := fun ω => by
    rw [← fraction_congr (hS ω)]
    unfold fraction
    congr 1
    simp only [Set.indicator_apply]
    rw [Finset.sum_boole]
  simp only [Accurate, hfr]
  constructor
  · rw [integral_div, integral_finsetSum _ fun k _ => Integrable.of_mem_Icc 0 1 (hXm k) (hXb k)]
    simp only [hXi, Finset.sum_const, Finset.card_range, nsmul_eq_mul]
    field_simp
  intro ε hε
  have hsub : ∀ k, HasSubgaussianMGF (fun ω => B.indicator (fun _ => (1 : ℝ)) (W k ω) - ν.real B) ((‖(1 : ℝ) - 0‖₊ / 2) ^ 2) P := fun k => by
    have := hasSubgaussianMGF_of_mem_Icc (hXm k) (hXb k)
    rw [hXi] at this
    exact this
  have hind : iIndepFun (fun k ω => B.indicator (fun _ => (1 : ℝ)) (W k ω) - ν.real B) P := hi.comp (fun _ w => B.indicator (fun _ => (1 : ℝ)) w - ν.real B) fun _ => hf.sub_const _
  have hindn : iIndepFun (fun k ω => -(B.indicator (fun _ => (1 : ℝ)) (W k ω) - ν.real B)) P :=
    hi.comp (fun _ w => -(B.indicator (fun _ => (1 : ℝ)) w - ν.real B)) fun _ => (hf.sub_const _).neg
  have hnε : 0 ≤ n * ε := by positivity
  have hexp : Real.exp (-(n * ε) ^ 2 / (2 * n * (((‖(1 : ℝ) - 0‖₊ / 2) ^ 2 : NNReal) : ℝ))) = Real.exp (-2 * n * ε ^ 2) := by
    congr 1
    simp
    field_simp
  have h1 := HasSubgaussianMGF.measure_sum_range_ge_le_of_iIndepFun hind (n := n) (fun k _ => hsub k) hnε
  have h2 := HasSubgaussianMGF.measure_sum_range_ge_le_of_iIndepFun hindn (n := n) (fun k _ => (hsub k).neg) hnε
  rw [hexp] at h1 h2
  rw [two_mul]
  refine le_trans (le_trans (measureReal_mono ?_) (measureReal_union_le _ _)) (add_le_add h1 h2)
  intro ω hω
  have hω' : ε ≤ |(∑ k ∈ Finset.range n, B.indicator (fun _ => (1 : ℝ)) (W k ω)) / n - ν.real B| := hω
  have e : (∑ k ∈ Finset.range n, B.indicator (fun _ => (1 : ℝ)) (W k ω)) / n - ν.real B = (∑ k ∈ Finset.range n, (B.indicator (fun _ => (1 : ℝ)) (W k ω) - ν.real B)) / n := by
    rw [Finset.sum_sub_distrib, Finset.sum_const, Finset.card_range, nsmul_eq_mul]
    field_simp
  rw [e] at hω'
  rcases le_abs.mp hω' with h | h
  · left
    rw [le_div_iff₀ hn] at h
    show n * ε ≤ _
    linarith
  · right
    rw [← neg_div, le_div_iff₀ hn] at h
    show n * ε ≤ _
    rw [Finset.sum_neg_distrib]
    linarith

/-- C224: for any number of samples, the fraction of samples of a galaxy of a table with coefficients in a set, against the probability that the best fit to fluxes of `fluxLaw` is in the set. -/
theorem C224_coeffs {Ω : Type} [MeasurableSpace Ω] (P : Measure Ω) (noise : Ω → Nat → Nat → Nat → ℝ) (hdev : Deviates P noise) (nnls : Nnls ℝ) (hok : NNLSOK nnls)
    (K : Kc ℝ) (hr : AbReady K.abCls K.responses.length) (hnb : K.responses.length ≠ 1) (A : AMat ℝ) (hR : Ready K.toFitter A)
    (zs : List ℝ) (ms ivs : List (List ℝ)) (hl : zs.length ≠ 1)
    (hm : ms.length = zs.length) (hiv : ivs.length = zs.length) (hmr : ∀ r ∈ ms, r.length = K.responses.length) (hivr : ∀ r ∈ ivs, r.length = K.responses.length)
    (hpos : ∀ r ∈ ivs, ∀ v ∈ r, 0 ≤ v) (out : Ω → Nat → FitOut ℝ)
    (hfit : ∀ ω mc, 0 < mc → K.toFitter.fitCoeffs nnls (some (.vec zs)) (some (.arr [zs.length] K.responses.length ms)) (some (.arr [zs.length] K.responses.length ivs)) mc
      (noise ω) = .ok (out ω mc))
    (g : Nat) (z : ℝ) (m iv : List ℝ) (hg : zs[g]? = some z) (hgm : ms[g]? = some m) (hgi : ivs[g]? = some iv) (hz : InRange A.x z) (hind : Indep K.toFitter z iv) :
    ∃ cf : ({l : Fin K.responses.length // 0 < ent iv l} → ℝ) → Fin K.templates.nsed → ℝ,
      (∀ w (d c : List ℝ), d.length = K.responses.length → (∀ l : {l : Fin K.responses.length // 0 < ent iv l}, d[(l.1 : Nat)]? = some (w l)) →
        (Optimal K.toFitter z d (abIv K.abCls iv) c ↔ c = List.ofFn (cf w))) ∧
      (∀ B, MeasurableSet B → ∀ mc, 0 < mc → Accurate P mc (fun ω k => ∃ cm mm, (out ω mc).mc = some (cm, mm) ∧
          ∃ c ∈ B, ∀ t : Fin K.templates.nsed, entry cm (g * K.templates.nsed + t) k = some (c t))
        ((fluxLaw K.abCls K.responses.length m iv).real {w | cf w ∈ B})) := by
  obtain ⟨W, cf, c, mf, hW, hWl, c1, c2, c3, c4, c5, hc⟩ := sample_fits P noise hdev nnls hok K hr hnb A hR zs ms ivs hl hm hiv hmr hivr hpos out hfit g z m iv hg hgm hgi hz hind
  have hgl : g < zs.length := (List.getElem?_eq_some_iff.mp hg).1
  have hip : ∀ v ∈ iv, 0 ≤ v := hpos iv (List.mem_of_getElem? hgi)
  refine ⟨cf, fun w d c h1 h2 => ⟨fun h => c5 w d h1 h2 c h, ?_⟩, fun B hB => ?_⟩
  · rintro rfl
    obtain ⟨d', h3, h4, h5⟩ := c4 w
    exact optimal_weighted K z iv (hivr iv (List.mem_of_getElem? hgi)) hip w d d' _ h1 h2 h3 h4 h5
  · intro mc h0
    refine fraction_finite hW hWl {w | cf w ∈ B} (c1.measurable hB) mc h0 _ fun ω k hk => ?_
    obtain ⟨h1, h2⟩ := hc ω mc h0
    have h3 := (h2 k hk).1
    have he : ∀ t : Fin K.templates.nsed, c ω mc g t k = cf (W k ω) t := by
      intro t
      have := congrArg (fun l : List ℝ => l[(t : Nat)]?) h3
      simpa using this
    have hent : ∀ t : Fin K.templates.nsed, entry (cubeOf zs.length K.templates.nsed mc (c ω mc)) (g * K.templates.nsed + t) k = some (cf (W k ω) t) :=
      fun t => by rw [cube_entry _ _ _ _ _ _ _ hgl t.2 hk, he]
    constructor
    · intro h
      exact ⟨_, _, h1, _, h, hent⟩
    · rintro ⟨cm, mm, e1, c', hB', e2⟩
      rw [h1] at e1
      cases e1
      have : c' = cf (W k ω) := by
        funext t
        have := e2 t
        rw [hent t] at this
        exact (Option.some.inj this).symm
      rw [this] at hB'
      exact hB'

/-- C224 for one galaxy. -/
theorem C224_one {Ω : Type} [MeasurableSpace Ω] (P : Measure Ω) (noise : Ω → Nat → Nat → Nat → ℝ) (hdev : Deviates P noise) (nnls : Nnls ℝ) (hok : NNLSOK nnls)
    (K : Kc ℝ) (hr : AbReady K.abCls K.responses.length) (hnb : K.responses.length ≠ 1) (A : AMat ℝ) (hR : Ready K.toFitter A) (z : ℝ) (m iv : List ℝ)
    (hml : m.length = K.responses.length) (hivl : iv.length = K.responses.length) (hip : ∀ v ∈ iv, 0 ≤ v) (out : Ω → Nat → FitOut ℝ)
    (hfit : ∀ ω mc, 0 < mc → K.toFitter.fitCoeffs nnls (some (.scalar z)) (some (.vec m)) (some (.vec iv)) mc (noise ω) = .ok (out ω mc))
    (hz : InRange A.x z) (hind : Indep K.toFitter z iv) :
    ∃ cf : ({l : Fin K.responses.length // 0 < ent iv l} → ℝ) → Fin K.templates.nsed → ℝ,
      (∀ w (d c : List ℝ), d.length = K.responses.length → (∀ l : {l : Fin K.responses.length // 0 < ent iv l}, d[(l.1 : Nat)]? = some (w l)) →
        (Optimal K.toFitter z d (abIv K.abCls iv) c ↔ c = List.ofFn (cf w))) ∧
      (∀ B, MeasurableSet B → ∀ mc, 0 < mc → Accurate P mc (fun ω k => ∃ cm mm, (out ω mc).mc = some (cm, mm) ∧
          ∃ c ∈ B, ∀ t : Fin K.templates.nsed, entry cm t k = some (c t))
        ((fluxLaw K.abCls K.responses.length m iv).real {w | cf w ∈ B})) := by
  obtain ⟨W, cf, hW, hWl, c1, c2, c3, c4, c5, hc⟩ := sample_fits_one P noise hdev nnls hok K hr hnb A hR z m iv hml hivl hip out hfit hz hind
  refine ⟨cf, fun w d c h1 h2 => ⟨fun h => c5 w d h1 h2 c h, ?_⟩, fun B hB => ?_⟩
  · rintro rfl
    obtain ⟨d', h3, h4, h5⟩ := c4 w
    exact optimal_weighted K z iv hivl hip w d d' _ h1 h2 h3 h4 h5
  · intro mc h0
    refine fraction_finite hW hWl {w | cf w ∈ B} (c1.measurable hB) mc h0 _ fun ω k hk => ?_
    obtain ⟨cm, mm, h1, _, _, h4, h2⟩ := hc ω mc h0
    have hent := one_entry h4 hk (h2 k hk).1
    constructor
    · intro h
      exact ⟨_, _, h1, _, h, hent⟩
    · rintro ⟨cm', mm', e1, c', hB', e2⟩
      rw [h1] at e1
      cases e1
      have : c' = cf (W k ω) := by
        funext t
        have := e2 t
        rw [hent t] at this
        exact (Option.some.inj this).symm
      rw [this] at hB'
      exact hB'

/-- C224 for the derived quantities of a table of galaxies. -/
theorem C224_derived {Ω : Type} [MeasurableSpace Ω] (P : Measure Ω) (noise : Ω → Nat → Nat → Nat → ℝ) (hdev : Deviates P noise) (nnls : Nnls ℝ) (hok : NNLSOK nnls)
    (K : Kc ℝ) (hr : AbReady K.abCls K.responses.length) (hnb : K.responses.length ≠ 1) (A : AMat ℝ) (hR : Ready K.toFitter A)
    (zs : List ℝ) (ms ivs : List (List ℝ)) (hl : zs.length ≠ 1)
    (hm : ms.length = zs.length) (hiv : ivs.length = zs.length) (hmr : ∀ r ∈ ms, r.length = K.responses.length) (hivr : ∀ r ∈ ivs, r.length = K.responses.length)
    (hpos : ∀ r ∈ ivs, ∀ v ∈ r, 0 ≤ v) (out : Ω → Nat → FitOut ℝ)
    (hfit : ∀ ω mc, 0 < mc → K.toFitter.fitCoeffs nnls (some (.vec zs)) (some (.arr [zs.length] K.responses.length ms)) (some (.arr [zs.length] K.responses.length ivs)) mc
      (noise ω) = .ok (out ω mc))
    (g : Nat) (z : ℝ) (m iv : List ℝ) (hg : zs[g]? = some z) (hgm : ms[g]? = some m) (hgi : ivs[g]? = some iv) (hz : InRange A.x z) (hind : Indep K.toFitter z iv)
    (t : Tmpl ℝ) (Ao : AMat ℝ) (hK : MassKc K t Ao) (hG : Ao.Good) (hno : Ao.nrow = K.responsesOut.length) (reg : Reg ℝ) (bs : ℝ) (R : Ω → Nat → Derived ℝ)
    (hder : ∀ ω mc cm mm, 0 < mc → (out ω mc).mc = some (cm, mm) → K.derivedMc reg (some (.vec zs)) cm bs none = .ok (some (R ω mc)))
    (q j : Nat) (hq : q < 7) (hj : j < if q = 2 then Ao.nrow else 1) (s : ℝ) :
    ∃ cf : ({l : Fin K.responses.length // 0 < ent iv l} → ℝ) → Fin K.templates.nsed → ℝ,
      (∀ w (d c : List ℝ), d.length = K.responses.length → (∀ l : {l : Fin K.responses.length // 0 < ent iv l}, d[(l.1 : Nat)]? = some (w l)) →
        (Optimal K.toFitter z d (abIv K.abCls iv) c ↔ c = List.ofFn (cf w))) ∧
      ∀ mc, 0 < mc → Accurate P mc (fun ω k => ∃ x v, (R ω mc).keys[q]? = some x ∧ entry x (g * (if q = 2 then Ao.nrow else 1) + j) k = some v ∧ v ≤ s)
        ((fluxLaw K.abCls K.responses.length m iv).real {w | ∃ E y v, K.derived reg (some (.scalar z)) (some (.vec (List.ofFn (cf w)))) bs none = .ok E ∧
          E.keys[q]? = some y ∧ y.flat[j]? = some v ∧ v ≤ s}) := by
  obtain ⟨W, cf, c, mf, hW, hWl, c1, c2, c3, c4, c5, hc⟩ := sample_fits P noise hdev nnls hok K hr hnb A hR zs ms ivs hl hm hiv hmr hivr hpos out hfit g z m iv hg hgm hgi hz hind
  have hip : ∀ v ∈ iv, 0 ≤ v := hpos iv (List.mem_of_getElem? hgi)
  refine ⟨cf, fun w d c h1 h2 => ⟨fun h => c5 w d h1 h2 c h, ?_⟩, ?_⟩
  · rintro rfl
    obtain ⟨d', h3, h4, h5⟩ := c4 w
    exact optimal_weighted K z iv (hivr iv (List.mem_of_getElem? hgi)) hip w d d' _ h1 h2 h3 h4 h5
  obtain ⟨y, hy, hval⟩ := derived_fn hK hG reg z bs q j (fun h => by rw [if_pos h, hno] at hj; exact hj)
  -- the values of one sample
  have cell : ∀ ω mc k, k < mc → ∃ E x u, K.derived reg (some (.scalar z)) (some (.vec (List.ofFn (cf (W k ω))))) bs none = .ok E ∧ E.keys[q]? = some u ∧
      u.flat[j]? = some (y (cf (W k ω))) ∧ (R ω mc).keys[q]? = some x ∧ entry x (g * (if q = 2 then Ao.nrow else 1) + j) k = some (y (cf (W k ω))) := by
    intro ω mc k hk
    obtain ⟨h1, h2⟩ := hc ω mc (by omega)
    obtain ⟨R', E, e1, e2, e3⟩ := C82_table hK hG reg zs mc (c ω mc) bs _ (hder ω mc _ _ (by omega) h1) g k z hg hk
    cases e1
    rw [(h2 k hk).1] at e2
    obtain ⟨x, hx⟩ : ∃ x, (R ω mc).keys[q]? = some x := ⟨_, List.getElem?_eq_getElem (by simpa [Derived.keys] using hq)⟩
    obtain ⟨u, hu⟩ : ∃ u, E.keys[q]? = some u := ⟨_, List.getElem?_eq_getElem (by simpa [Derived.keys] using hq)⟩
    obtain ⟨e4, e5⟩ := e3 q x u hx hu
    obtain ⟨v, hv⟩ : ∃ v, u.flat[j]? = some v := ⟨_, List.getElem?_eq_getElem (by rw [e4]; exact hj)⟩
    have e6 := hval _ E u v e2 hu hv
    have e7 := e5 j v hv
    rw [e4] at e7
    rw [e6] at hv e7
    exact ⟨E, x, u, e2, hu, hv, hx, e7⟩
  have hP : IsProbabilityMeasure P := hdev.indep.isProbabilityMeasure
  obtain ⟨ω0⟩ : Nonempty Ω := nonempty_of_isProbabilityMeasure P
  have hset : {w | ∃ E u v, K.derived reg (some (.scalar z)) (some (.vec (List.ofFn (cf w)))) bs none = .ok E ∧ E.keys[q]? = some u ∧ u.flat[j]? = some v ∧ v ≤ s} =
      {w | y (cf w) ≤ s} := by
    obtain ⟨E0, _, u0, a1, a2, a3, _⟩ := cell ω0 1 0 one_pos
    have hall := (derived_returns hK reg z _ (by simp) bs).mp ⟨E0, a1⟩
    ext w
    simp only [Set.mem_ofPred_eq]
    constructor
    · rintro ⟨E, u, v, b1, b2, b3, b4⟩
      rw [← hval _ E u v b1 b2 b3]
      exact b4
    · intro hw
      obtain ⟨E, hE⟩ := (derived_returns hK reg z (List.ofFn (cf w)) (by simp) bs).mpr hall
      obtain ⟨u, hu⟩ : ∃ u, E.keys[q]? = some u := ⟨_, List.getElem?_eq_getElem (by simpa [Derived.keys] using hq)⟩
      have hlen : u.flat.length = (if q = 2 then Ao.nrow else 1) := flat_width hK hG reg z _ (by simp) bs E hE q u hu
      obtain ⟨v, hv⟩ : ∃ v, u.flat[j]? = some v := ⟨_, List.getElem?_eq_getElem (by rw [hlen]; exact hj)⟩
      exact ⟨E, u, v, hE, hu, hv, by rw [hval _ E u v hE hu hv]; exact hw⟩
  rw [hset]
  intro mc h0
  refine fraction_finite hW hWl {w | y (cf w) ≤ s} ((hy.comp c1.measurable) measurableSet_Iic) mc h0 _ fun ω k hk => ?_
  obtain ⟨E, x, u, b1, b2, b3, b4, b5⟩ := cell ω mc k hk
  constructor
  · intro h
    exact ⟨x, _, b4, b5, h⟩
  · rintro ⟨x', v', d1, d2, d3⟩
    rw [b4] at d1
    cases d1
    rw [b5] at d2
    cases d2
    exact d3

/-- C224 for the derived quantities of one galaxy. -/
theorem C224_derived_one {Ω : Type} [MeasurableSpace Ω] (P : Measure Ω) (noise : Ω → Nat → Nat → Nat → ℝ) (hdev : Deviates P noise) (nnls : Nnls ℝ) (hok : NNLSOK nnls)
    (K : Kc ℝ) (hr : AbReady K.abCls K.responses.length) (hnb : K.responses.length ≠ 1) (A : AMat ℝ) (hR : Ready K.toFitter A) (z : ℝ) (m iv : List ℝ)
    (hml : m.length = K.responses.length) (hivl : iv.length = K.responses.length) (hip : ∀ v ∈ iv, 0 ≤ v) (out : Ω → Nat → FitOut ℝ)
    (hfit : ∀ ω mc, 0 < mc → K.toFitter.fitCoeffs nnls (some (.scalar z)) (some (.vec m)) (some (.vec iv)) mc (noise ω) = .ok (out ω mc))
    (hz : InRange A.x z) (hind : Indep K.toFitter z iv)
    (t : Tmpl ℝ) (Ao : AMat ℝ) (hK : MassKc K t Ao) (hG : Ao.Good) (hno : Ao.nrow = K.responsesOut.length) (reg : Reg ℝ) (bs : ℝ) (R : Ω → Nat → Derived ℝ)
    (hder : ∀ ω mc cm mm, 0 < mc → (out ω mc).mc = some (cm, mm) → K.derivedMc reg (some (.scalar z)) cm bs none = .ok (some (R ω mc)))
    (q j : Nat) (hq : q < 7) (hj : j < if q = 2 then Ao.nrow else 1) (s : ℝ) :
    ∃ cf : ({l : Fin K.responses.length // 0 < ent iv l} → ℝ) → Fin K.templates.nsed → ℝ,
      (∀ w (d c : List ℝ), d.length = K.responses.length → (∀ l : {l : Fin K.responses.length // 0 < ent iv l}, d[(l.1 : Nat)]? = some (w l)) →
        (Optimal K.toFitter z d (abIv K.abCls iv) c ↔ c = List.ofFn (cf w))) ∧
      ∀ mc, 0 < mc → Accurate P mc (fun ω k => ∃ x v, (R ω mc).keys[q]? = some x ∧ entry x j k = some v ∧ v ≤ s)
        ((fluxLaw K.abCls K.responses.length m iv).real {w | ∃ E y v, K.derived reg (some (.scalar z)) (some (.vec (List.ofFn (cf w)))) bs none = .ok E ∧
          E.keys[q]? = some y ∧ y.flat[j]? = some v ∧ v ≤ s}) := by
  obtain ⟨W, cf, hW, hWl, c1, c2, c3, c4, c5, hc⟩ := sample_fits_one P noise hdev nnls hok K hr hnb A hR z m iv hml hivl hip out hfit hz hind
  refine ⟨cf, fun w d c h1 h2 => ⟨fun h => c5 w d h1 h2 c h, ?_⟩, ?_⟩
  · rintro rfl
    obtain ⟨d', h3, h4, h5⟩ := c4 w
    exact optimal_weighted K z iv hivl hip w d d' _ h1 h2 h3 h4 h5
  obtain ⟨y, hy, hval⟩ := derived_fn hK hG reg z bs q j (fun h => by rw [if_pos h, hno] at hj; exact hj)
  -- the values of one sample
  have cell : ∀ ω mc k, k < mc → ∃ E x u, K.derived reg (some (.scalar z)) (some (.vec (List.ofFn (cf (W k ω))))) bs none = .ok E ∧ E.keys[q]? = some u ∧
      u.flat[j]? = some (y (cf (W k ω))) ∧ (R ω mc).keys[q]? = some x ∧ entry x j k = some (y (cf (W k ω))) := by
    intro ω mc k hk
    obtain ⟨cm, mm, h1, h3, _, _, h2⟩ := hc ω mc (by omega)
    obtain ⟨R', E, e1, e2, e3⟩ := ((C82_one hK.tpl hK.mass hK.out reg z mc cm h3 bs).2 _ (hder ω mc _ _ (by omega) h1)).2 k hk
    cases e1
    rw [← column_ent, (h2 k hk).1] at e2
    obtain ⟨x, hx⟩ : ∃ x, (R ω mc).keys[q]? = some x := ⟨_, List.getElem?_eq_getElem (by simpa [Derived.keys] using hq)⟩
    obtain ⟨u, hu⟩ : ∃ u, E.keys[q]? = some u := ⟨_, List.getElem?_eq_getElem (by simpa [Derived.keys] using hq)⟩
    have e4 := flat_width hK hG reg z _ (by simp) bs E e2 q u hu
    obtain ⟨v, hv⟩ : ∃ v, u.flat[j]? = some v := ⟨_, List.getElem?_eq_getElem (by rw [e4]; exact hj)⟩
    have e6 := hval _ E u v e2 hu hv
    have e7 := (e3 q x u hx hu).2 j v (by rw [← flat_shape hK hG reg z _ (by simp) bs E e2 q u hu, e4]; exact hj) hv
    rw [real_f32] at e7
    rw [e6] at hv e7
    exact ⟨E, x, u, e2, hu, hv, hx, e7⟩
  have hP : IsProbabilityMeasure P := hdev.indep.isProbabilityMeasure
  obtain ⟨ω0⟩ : Nonempty Ω := nonempty_of_isProbabilityMeasure P
  have hset : {w | ∃ E u v, K.derived reg (some (.scalar z)) (some (.vec (List.ofFn (cf w)))) bs none = .ok E ∧ E.keys[q]? = some u ∧ u.flat[j]? = some v ∧ v ≤ s} =
      {w | y (cf w) ≤ s} := by
    obtain ⟨E0, _, u0, a1, a2, a3, _⟩ := cell ω0 1 0 one_pos
    have hall := (derived_returns hK reg z _ (by simp) bs).mp ⟨E0, a1⟩
    ext w
    simp only [Set.mem_ofPred_eq]
    constructor
    · rintro ⟨E, u, v, b1, b2, b3, b4⟩
      rw [← hval _ E u v b1 b2 b3]
      exact b4
    · intro hw
      obtain ⟨E, hE⟩ := (derived_returns hK reg z (List.ofFn (cf w)) (by simp) bs).mpr hall
      obtain ⟨u, hu⟩ : ∃ u, E.keys[q]? = some u := ⟨_, List.getElem?_eq_getElem (by simpa [Derived.keys] using hq)⟩
      have hlen : u.flat.length = (if q = 2 then Ao.nrow else 1) := flat_width hK hG reg z _ (by simp) bs E hE q u hu
      obtain ⟨v, hv⟩ : ∃ v, u.flat[j]? = some v := ⟨_, List.getElem?_eq_getElem (by rw [hlen]; exact hj)⟩
      exact ⟨E, u, v, hE, hu, hv, by rw [hval _ E u v hE hu hv]; exact hw⟩
  rw [hset]
  intro mc h0
  refine fraction_finite hW hWl {w | y (cf w) ≤ s} ((hy.comp c1.measurable) measurableSet_Iic) mc h0 _ fun ω k hk => ?_
  obtain ⟨E, x, u, b1, b2, b3, b4, b5⟩ := cell ω mc k hk
  constructor
  · intro h
    exact ⟨x, _, b4, b5, h⟩
  · rintro ⟨x', v', d1, d2, d3⟩
    rw [b4] at d1
    cases d1
    rw [b5] at d2
    cases d2
    exact d3

/-- C224 for the absolute magnitudes of a table of galaxies; samples without positive flux have -9999. -/
theorem C224_absmag {Ω : Type} [MeasurableSpace Ω] (P : Measure Ω) (noise : Ω → Nat → Nat → Nat → ℝ) (hdev : Deviates P noise) (nnls : Nnls ℝ) (hok : NNLSOK nnls)
    (K : Kc ℝ) (hr : AbReady K.abCls K.responses.length) (hnb : K.responses.length ≠ 1) (A Ao : AMat ℝ) (hR : Ready K.toFitter A) (hAo : K.AmatrixOut = some Ao) (hG : Ao.Good)
    (hn : Ao.nrow = K.responses.length) (him : K.imap.length = Ao.nrow) (hs : 0 < K.templates.nsed) (zs : List ℝ) (ms ivs : List (List ℝ)) (hl : zs.length ≠ 1)
    (hm : ms.length = zs.length) (hiv : ivs.length = zs.length) (hmr : ∀ r ∈ ms, r.length = K.responses.length) (hivr : ∀ r ∈ ivs, r.length = K.responses.length)
    (hpos : ∀ r ∈ ivs, ∀ v ∈ r, 0 ≤ v) (bs : ℝ) (dist : Option (List ℝ)) (hd : ∀ ds ∈ dist, ds.length = zs.length ∧ ∀ d ∈ ds, 0 < d) (out : Ω → Nat → FitOut ℝ)
    (hfit : ∀ ω mc, 0 < mc → K.toFitter.fitCoeffs nnls (some (.vec zs)) (some (.arr [zs.length] K.responses.length ms)) (some (.arr [zs.length] K.responses.length ivs)) mc
      (noise ω) = .ok (out ω mc))
    (x : Ω → Nat → NDA ℝ) (hx : ∀ ω mc cm mm, 0 < mc → (out ω mc).mc = some (cm, mm) →
      K.absmagMc mm (some (.arr [zs.length] K.responses.length ivs)) (some (.vec zs)) cm bs (dist.map .vec) false false = .ok (.one (x ω mc)))
    (g j : Nat) (z : ℝ) (m iv : List ℝ) (hg : zs[g]? = some z) (hgm : ms[g]? = some m) (hgi : ivs[g]? = some iv) (hz : InRange A.x z) (hind : Indep K.toFitter z iv)
    (q : {l : Fin K.responses.length // 0 < ent iv l}) (hj : K.imap[j]? = some (q.1 : Nat))
    (hflux : ∀ t < K.templates.nsed, ∃ a b fa fb, K.reconstruct (some (.scalar z)) (some (.vec (alone K.templates.nsed t))) 0 = .ok a ∧
      K.reconstructOut (some (.scalar 0)) (some (.vec (alone K.templates.nsed t))) bs = .ok b ∧ entry a 0 q.1 = some fa ∧ entry b 0 j = some fb ∧ 0 < fa ∧ 0 < fb) :
    ∃ κ : ({l : Fin K.responses.length // 0 < ent iv l} → ℝ) → ℝ,
      (∀ (w : {l : Fin K.responses.length // 0 < ent iv l} → ℝ) (d c : List ℝ), d.length = K.responses.length → (∀ l : {l : Fin K.responses.length // 0 < ent iv l}, d[(l.1 : Nat)]? = some (w l)) →
        Optimal K.toFitter z d (abIv K.abCls iv) c → ∃ kc, K.kcorrect (some (.scalar z)) (some (.vec c)) bs = .ok kc ∧ entry kc 0 j = some (κ w)) ∧
      (∀ w : {l : Fin K.responses.length // 0 < ent iv l} → ℝ, ∃ d c : List ℝ, d.length = K.responses.length ∧ (∀ l : {l : Fin K.responses.length // 0 < ent iv l}, d[(l.1 : Nat)]? = some (w l)) ∧
        Optimal K.toFitter z d (abIv K.abCls iv) c) ∧
      ∀ B, MeasurableSet B → ∀ mc, 0 < mc → Accurate P mc (fun ω k => ∃ v ∈ B, entry (x ω mc) (g * K.responses.length + j) k = some v)
        ((fluxLaw K.abCls K.responses.length m iv).real {w | (if 0 < w q then mag (w q) - κ w + (abOffset K.abCls q.1 - dmSpec K.distmod z (dist.map (fun ds => ent ds g))) else -9999) ∈ B}) := by
  obtain ⟨W, cf, c, mf, hW, hWl, c1, c2, c3, c4, c5, hc⟩ := sample_fits P noise hdev nnls hok K hr hnb A hR zs ms ivs hl hm hiv hmr hivr hpos out hfit g z m iv hg hgm hgi hz hind
  have hgl : g < zs.length := (List.getElem?_eq_some_iff.mp hg).1
  have hie : iv[(q.1 : Nat)]? = some (ent iv q.1) := by
    have h1 : (q.1 : Nat) < iv.length := by rw [hivr iv (List.mem_of_getElem? hgi)]; exact q.1.2
    rw [List.getElem?_eq_getElem h1, ent_some h1]
  obtain ⟨kf, _, k1, _, _, k4⟩ := kcorrect_fn K A Ao hR hAo z bs hz hs j q.1 hj hflux
  refine ⟨fun w => kf (cf w), ?_, fun w => ?_, fun B hB => ?_⟩
  · intro w d c h1 h2 h3
    rw [c5 w d h1 h2 c h3]
    exact k4 (cf w) (c2 w)
  · obtain ⟨d, h1, h2, h3⟩ := c4 w
    exact ⟨d, _, h1, h2, h3⟩
  have hmm : Measurable mag := by
    unfold mag Real.logb
    fun_prop
  have hκ : Measurable (fun w => kf (cf w)) := k1.comp c1.measurable
  have hM : Measurable (fun w : {l : Fin K.responses.length // 0 < ent iv l} → ℝ =>
      if 0 < w q then mag (w q) - kf (cf w) + (abOffset K.abCls q.1 - dmSpec K.distmod z (dist.map (fun ds => ent ds g))) else -9999) :=
    Measurable.ite (measurableSet_lt measurable_const (measurable_pi_apply q)) (((hmm.comp (measurable_pi_apply q)).sub hκ).add measurable_const) measurable_const
  intro mc h0
  refine fraction_finite hW hWl _ (hM hB) mc h0 _ fun ω k hkm => ?_
  obtain ⟨h1, h2⟩ := hc ω mc (by omega)
  obtain ⟨kc, kv, b1, b2, _, b3⟩ := mc_entries K hr A Ao hR.set hAo hG hn him mc (mf ω mc) (c ω mc) zs (by intro h; rw [h] at hgl; simp at hgl) ivs hiv hivr bs dist hd (x ω mc)
    (hx ω mc _ _ (by omega) h1) g j q.1 z _ iv hg hgi hj hie q.2 k hkm
  obtain ⟨kc', d1, d2⟩ := k4 (cf (W k ω)) (c2 _)
  rw [(h2 k hkm).1, d1] at b1
  cases b1
  rw [d2] at b2
  rw [(h2 k hkm).2 q, ← Option.some.inj b2] at b3
  constructor
  · intro h
    exact ⟨_, h, b3⟩
  · rintro ⟨v, h, e⟩
    rw [b3] at e
    cases e
    exact h

/-- C224 for the absolute magnitudes of one galaxy. -/
theorem C224_absmag_one {Ω : Type} [MeasurableSpace Ω] (P : Measure Ω) (noise : Ω → Nat → Nat → Nat → ℝ) (hdev : Deviates P noise) (nnls : Nnls ℝ) (hok : NNLSOK nnls)
    (K : Kc ℝ) (hr : AbReady K.abCls K.responses.length) (hnb : K.responses.length ≠ 1) (A Ao : AMat ℝ) (hR : Ready K.toFitter A) (hAo : K.AmatrixOut = some Ao) (hG : Ao.Good)
    (hn : Ao.nrow = K.responses.length) (him : K.imap.length = Ao.nrow) (hs : 0 < K.templates.nsed) (z : ℝ) (m iv : List ℝ)
    (hml : m.length = K.responses.length) (hivl : iv.length = K.responses.length) (hip : ∀ v ∈ iv, 0 ≤ v) (out : Ω → Nat → FitOut ℝ)
    (hfit : ∀ ω mc, 0 < mc → K.toFitter.fitCoeffs nnls (some (.scalar z)) (some (.vec m)) (some (.vec iv)) mc (noise ω) = .ok (out ω mc))
    (hz : InRange A.x z) (hind : Indep K.toFitter z iv)
    (bs : ℝ) (dist : Option ℝ) (hd : ∀ d ∈ dist, 0 < d) (x : Ω → Nat → NDA ℝ) (hx : ∀ ω mc cm mm, 0 < mc → (out ω mc).mc = some (cm, mm) →
      K.absmagMc mm (some (.vec iv)) (some (.scalar z)) cm bs (dist.map .scalar) false false = .ok (.one (x ω mc)))
    (j : Nat) (q : {l : Fin K.responses.length // 0 < ent iv l}) (hj : K.imap[j]? = some (q.1 : Nat))
    (hflux : ∀ t < K.templates.nsed, ∃ a b fa fb, K.reconstruct (some (.scalar z)) (some (.vec (alone K.templates.nsed t))) 0 = .ok a ∧
      K.reconstructOut (some (.scalar 0)) (some (.vec (alone K.templates.nsed t))) bs = .ok b ∧ entry a 0 q.1 = some fa ∧ entry b 0 j = some fb ∧ 0 < fa ∧ 0 < fb) :
    ∃ κ : ({l : Fin K.responses.length // 0 < ent iv l} → ℝ) → ℝ,
      (∀ (w : {l : Fin K.responses.length // 0 < ent iv l} → ℝ) (d c : List ℝ), d.length = K.responses.length → (∀ l : {l : Fin K.responses.length // 0 < ent iv l}, d[(l.1 : Nat)]? = some (w l)) →
        Optimal K.toFitter z d (abIv K.abCls iv) c → ∃ kc, K.kcorrect (some (.scalar z)) (some (.vec c)) bs = .ok kc ∧ entry kc 0 j = some (κ w)) ∧
      (∀ w : {l : Fin K.responses.length // 0 < ent iv l} → ℝ, ∃ d c : List ℝ, d.length = K.responses.length ∧ (∀ l : {l : Fin K.responses.length // 0 < ent iv l}, d[(l.1 : Nat)]? = some (w l)) ∧
        Optimal K.toFitter z d (abIv K.abCls iv) c) ∧
      ∀ B, MeasurableSet B → ∀ mc, 0 < mc → Accurate P mc (fun ω k => ∃ v ∈ B, entry (x ω mc) j k = some v)
        ((fluxLaw K.abCls K.responses.length m iv).real {w | (if 0 < w q then mag (w q) - κ w + (abOffset K.abCls q.1 - dmSpec K.distmod z dist) else -9999) ∈ B}) := by
  obtain ⟨W, cf, hW, hWl, c1, c2, c3, c4, c5, hc⟩ := sample_fits_one P noise hdev nnls hok K hr hnb A hR z m iv hml hivl hip out hfit hz hind
  have hie : iv[(q.1 : Nat)]? = some (ent iv q.1) := by
    have h1 : (q.1 : Nat) < iv.length := by rw [hivl]; exact q.1.2
    rw [List.getElem?_eq_getElem h1, ent_some h1]
  obtain ⟨kf, _, k1, _, _, k4⟩ := kcorrect_fn K A Ao hR hAo z bs hz hs j q.1 hj hflux
  refine ⟨fun w => kf (cf w), ?_, fun w => ?_, fun B hB => ?_⟩
  · intro w d c h1 h2 h3
    rw [c5 w d h1 h2 c h3]
    exact k4 (cf w) (c2 w)
  · obtain ⟨d, h1, h2, h3⟩ := c4 w
    exact ⟨d, _, h1, h2, h3⟩
  have hmm : Measurable mag := by
    unfold mag Real.logb
    fun_prop
  have hκ : Measurable (fun w => kf (cf w)) := k1.comp c1.measurable
  have hM : Measurable (fun w : {l : Fin K.responses.length // 0 < ent iv l} → ℝ =>
      if 0 < w q then mag (w q) - kf (cf w) + (abOffset K.abCls q.1 - dmSpec K.distmod z dist) else -9999) :=
    Measurable.ite (measurableSet_lt measurable_const (measurable_pi_apply q)) (((hmm.comp (measurable_pi_apply q)).sub hκ).add measurable_const) measurable_const
  intro mc h0
  refine fraction_finite hW hWl _ (hM hB) mc h0 _ fun ω k hkm => ?_
  obtain ⟨cm, mm, h1, h3, h4, _, h2⟩ := hc ω mc (by omega)
  obtain ⟨kc, kv, b1, b2, b3⟩ := mc_entries_one K hr A Ao hR.set hAo hG hn him mc mm cm h4 h3 z iv hivl bs dist hd (x ω mc) (hx ω mc _ _ (by omega) h1) j q.1 _ hj hie q.2 k hkm _ ((h2 k hkm).2 q)
  obtain ⟨kc', d1, d2⟩ := k4 (cf (W k ω)) (c2 _)
  rw [(h2 k hkm).1, d1] at b1
  cases b1
  rw [d2] at b2
  rw [← Option.some.inj b2] at b3
  constructor
  · intro h
    exact ⟨_, h, b3⟩
  · rintro ⟨v, h, e⟩
    rw [b3] at e
    cases e
    exact h

/-- C224, how many are enough: with at least `log (2 / δ) / (2 ε²)` samples the fraction is off by `ε` or more with probability at most `δ`. -/
theorem C224_enough {Ω : Type} [MeasurableSpace Ω] {P : Measure Ω} {n : Nat} {S : Ω → Nat → Prop} {p : ℝ} (h : Accurate P n S p) (ε δ : ℝ) (hε : 0 < ε) (hδ : 0 < δ)
    (hn : Real.log (2 / δ) / (2 * ε ^ 2) ≤ n) : P.real {ω | ε ≤ |fraction n (S ω) - p|} ≤ δ := by
  refine (h.2 ε hε).trans ?_
  rw [div_le_iff₀ (by positivity)] at hn
  have h1 : Real.exp (-2 * n * ε ^ 2) ≤ Real.exp (-Real.log (2 / δ)) := Real.exp_le_exp.mpr (by linarith)
  rw [Real.exp_neg, Real.exp_log (by positivity), inv_div] at h1
  linarith

/-- Not vacuous: the second galaxy of `demo_both_draws` and the galaxy of `demo_one_draws`, first coefficient and stellar mass above or up to 1. -/
example : ∃ (Ω : Type) (_ : MeasurableSpace Ω) (P : Measure Ω) (out out' : Ω → Nat → FitOut ℝ) (R R' : Ω → Nat → Derived ℝ) (p p' u u' : ℝ), IsProbabilityMeasure P ∧
    Accurate P 10 (fun ω k => ∃ cm mm, (out ω 10).mc = some (cm, mm) ∧ ∃ c ∈ {c : Fin 2 → ℝ | 1 < c 0}, ∀ t : Fin 2, entry cm (1 * 2 + t) k = some (c t)) p ∧
    Accurate P 10 (fun ω k => ∃ cm mm, (out' ω 10).mc = some (cm, mm) ∧ ∃ c ∈ {c : Fin 2 → ℝ | 1 < c 0}, ∀ t : Fin 2, entry cm t k = some (c t)) p' ∧
    Accurate P 10 (fun ω k => ∃ x v, (R ω 10).keys[0]? = some x ∧ entry x (1 * 1 + 0) k = some v ∧ v ≤ 1) u ∧
    Accurate P 10 (fun ω k => ∃ x v, (R' ω 10).keys[0]? = some x ∧ entry x 0 k = some v ∧ v ≤ 1) u' := by
  have hdev := deviates_exist
  generalize (fun (ω : ℕ × ℕ × ℕ → ℝ) i k p => ω (i, k, p)) = noise at hdev
  generalize Measure.infinitePi (fun _ : ℕ × ℕ × ℕ => gaussianReal 0 1) = P at hdev
  have hP : IsProbabilityMeasure P := hdev.indep.isProbabilityMeasure
  have hin : InRange demoAm2.x 2 := by constructor <;> norm_num [demoAm2]
  have hip : ∀ v ∈ [(1 : ℝ), 1 / 2], 0 ≤ v := by simp
  have hB : MeasurableSet {c : Fin 2 → ℝ | 1 < c 0} := measurableSet_lt measurable_const (measurable_pi_apply 0)
  obtain ⟨out, R, hout, hR⟩ := demo_both_draws noise
  obtain ⟨out', R', hout', hR'⟩ := demo_one_draws noise
  obtain ⟨_, _, h1⟩ := C224_coeffs P noise hdev (lhNnls 0) C184_contract demoBoth trivial (by decide) demoAm2 demo_both_ready [2, 2] [[3, 3], [3, 3]] [[1, 1 / 2], [1, 1 / 2]] (by simp) rfl rfl
    demo_ms demo_ivs demo_ivs_pos out hout 1 2 [3, 3] [1, 1 / 2] rfl rfl rfl hin demo_both_indep
  obtain ⟨_, _, h2⟩ := C224_one P noise hdev (lhNnls 0) C184_contract demoBoth trivial (by decide) demoAm2 demo_both_ready 2 [3, 3] [1, 1 / 2] rfl rfl hip out' hout' hin demo_both_indep
  obtain ⟨_, _, h3⟩ := C224_derived P noise hdev (lhNnls 0) C184_contract demoBoth trivial (by decide) demoAm2 demo_both_ready [2, 2] [[3, 3], [3, 3]] [[1, 1 / 2], [1, 1 / 2]] (by simp) rfl rfl
    demo_ms demo_ivs demo_ivs_pos out hout 1 2 [3, 3] [1, 1 / 2] rfl rfl rfl hin demo_both_indep demoTmpl demoAm2 demo_both_mass demo_ready.good rfl demoReg 0 R
    (fun ω mc cm mm a b => hR ω mc cm mm a b) 0 0 (by decide) (by decide) 1
  obtain ⟨_, _, h4⟩ := C224_derived_one P noise hdev (lhNnls 0) C184_contract demoBoth trivial (by decide) demoAm2 demo_both_ready 2 [3, 3] [1, 1 / 2] rfl rfl hip out' hout' hin
    demo_both_indep demoTmpl demoAm2 demo_both_mass demo_ready.good rfl demoReg 0 R' hR' 0 0 (by decide) (by decide) 1
  exact ⟨_, _, P, out, out', R, R', _, _, _, _, hP, h1 _ hB 10 (by norm_num), h2 _ hB 10 (by norm_num), h3 10 (by norm_num), h4 10 (by norm_num)⟩

/-- Not vacuous: absolute magnitudes fainter than 0 in the second band. -/
example : ∃ (Ω : Type) (_ : MeasurableSpace Ω) (P : Measure Ω) (x y : Ω → Nat → NDA ℝ) (p q : ℝ), IsProbabilityMeasure P ∧
    Accurate P 10 (fun ω k => ∃ v ∈ Set.Ioi 0, entry (x ω 10) (1 * 2 + 1) k = some v) p ∧ Accurate P 10 (fun ω k => ∃ v ∈ Set.Ioi 0, entry (y ω 10) 1 k = some v) q := by
  have hdev := deviates_exist
  generalize (fun (ω : ℕ × ℕ × ℕ → ℝ) i k p => ω (i, k, p)) = noise at hdev
  generalize Measure.infinitePi (fun _ : ℕ × ℕ × ℕ => gaussianReal 0 1) = P at hdev
  have hP : IsProbabilityMeasure P := hdev.indep.isProbabilityMeasure
  obtain ⟨_, hrd, hin, hind, _⟩ := demo_used
  obtain ⟨out, x, hout, hx⟩ := demo_draws noise
  obtain ⟨out', y, hout', hy⟩ := demo_one_mags noise
  obtain ⟨_, _, _, h⟩ := C224_absmag P noise hdev (lhNnls 0) C184_contract demoKc2 trivial (by decide) demoAm2 demoAm2 hrd rfl demo_ready.good rfl rfl (by decide) [2, 2] [[3, 3], [3, 3]]
    [[1, 1 / 2], [1, 1 / 2]] (by simp) rfl rfl demo_ms demo_ivs demo_ivs_pos 0 none (by simp) out hout x (fun ω mc cm mm h1 h2 => hx ω mc cm mm h1 h2) 1 1 2 [3, 3] [1, 1 / 2] rfl rfl rfl hin hind
    ⟨⟨1, by decide⟩, by simp [ent]⟩ rfl demo_alone_flux
  obtain ⟨_, _, _, h'⟩ := C224_absmag_one P noise hdev (lhNnls 0) C184_contract demoKc2 trivial (by decide) demoAm2 demoAm2 hrd rfl demo_ready.good rfl rfl (by decide) 2 [3, 3]
    [1, 1 / 2] rfl rfl (by simp) out' hout' hin hind 0 none (by simp) y (fun ω mc cm mm h1 h2 => hy ω mc cm mm h1 h2) 1 ⟨⟨1, by decide⟩, by simp [ent]⟩ rfl demo_alone_flux
  exact ⟨_, _, P, x, y, _, _, hP, h _ measurableSet_Ioi 10 (by norm_num), h' _ measurableSet_Ioi 10 (by norm_num)⟩

end KC
