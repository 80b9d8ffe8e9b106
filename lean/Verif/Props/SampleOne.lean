import Verif.Props.SampleMean

/-!
# The Monte Carlo samples of one galaxy (C221, C222)
-/

namespace KC
open Spec MeasureTheory ProbabilityTheory Filter Topology

/-- the samples of one galaxy for all numbers of samples: independent normal fluxes and the fits to them -/
theorem one_samples {Ω : Type} [MeasurableSpace Ω] (P : Measure Ω) (noise : Ω → Nat → Nat → Nat → ℝ) (hd : Deviates P noise) (nnls : Nnls ℝ)
    (hlen : NnlsLen nnls) (F : Fitter ℝ) (hr : AbReady F.abCls F.responses.length) (hnb : F.responses.length ≠ 1) (Am : AMat ℝ)
    (hA : F.Amatrix = some Am) (z : ℝ) (m iv : List ℝ) (hm : m.length = F.responses.length) (hiv : iv.length = F.responses.length) (hpos : ∀ v ∈ iv, 0 ≤ v) :
    ∃ S : ℕ × ℕ → Ω → ℝ,
      (∀ mc, 0 < mc → ∀ ω out, F.fitCoeffs nnls (some (.scalar z)) (some (.vec m)) (some (.vec iv)) mc (noise ω) = .ok out →
        ∃ cm mm, out.mc = some (.arr [F.templates.nsed] mc cm, .arr [F.responses.length] mc mm) ∧
          cm.length = F.templates.nsed ∧ mm.length = F.responses.length ∧ (∀ r ∈ cm, r.length = mc) ∧ (∀ r ∈ mm, r.length = mc) ∧
          ∀ k < mc, F.plain.fitCoeffs nnls (some (.scalar z)) (some (.vec (column mm k))) (some (.vec (abIv F.abCls iv))) 0 (noise ω) = .ok ⟨.vec (column cm k), none⟩ ∧
            ∀ j < F.responses.length, (column mm k)[j]? = some (S (j, k) ω)) ∧
      (∀ j k x v, m[j]? = some x → iv[j]? = some v → 0 < v →
        HasLaw (S (j, k)) (gaussianReal (x * abFactor F.abCls j) (Real.toNNReal (abFactor F.abCls j ^ 2 / v))) P) ∧ iIndepFun S P := by
  have em : ∀ j x, m[j]? = some x → (m.mapIdx (fun j x => x * abFactor F.abCls j))[j]? = some (x * abFactor F.abCls j) := by
    intro j x hx; rw [List.getElem?_mapIdx, hx]; rfl
  have ei : ∀ j v, iv[j]? = some v → (iv.mapIdx (fun j x => x / abFactor F.abCls j ^ 2))[j]? = some (v / abFactor F.abCls j ^ 2) := by
    intro j x hx; rw [List.getElem?_mapIdx, hx]; rfl
  have hf := abFactor_pos F.abCls
  obtain ⟨p, hpi, hp⟩ := C55_monte_carlo nnls hlen F.plain (Or.inl rfl) hnb Am hA z
    (m.mapIdx (fun j x => x * abFactor F.abCls j)) (iv.mapIdx (fun j x => x / abFactor F.abCls j ^ 2))
    (by rw [List.length_mapIdx]; exact hm) (by rw [List.length_mapIdx]; exact hiv)
    (by
      intro w hw
      obtain ⟨i, hi, rfl⟩ := List.mem_iff_getElem.mp hw
      rw [List.getElem_mapIdx]
      exact div_nonneg (hpos _ (List.getElem_mem _)) (by positivity))
  set m' := m.mapIdx (fun j x => x * abFactor F.abCls j) with hm'
  set iv' := iv.mapIdx (fun j x => x / abFactor F.abCls j ^ 2) with hiv'
  have hind := sampleOf_indep hd (fun _ => p) (fun _ j => ent m' j) (fun i j => if i = 0 then ent iv' j else 0) 1
    (by intro i j h; by_contra hc; rw [if_neg (by omega)] at h; exact lt_irrefl _ h)
    (by
      intro i j j' h h' he
      by_cases hi : i = 0
      · rw [if_pos hi] at h h'
        have key : ∀ j, 0 < ent iv' j → iv'[j]? = some (ent iv' j) := by
          intro j h
          cases e : iv'[j]? with
          | none => simp [ent, e] at h
          | some v => rw [ent_eq e]
        exact hpi j j' _ _ (key j h) (key j' h') h h' he
      · rw [if_neg hi] at h; exact absurd h (lt_irrefl _))
  have hS : ∀ j k x v ω, m[j]? = some x → iv[j]? = some v →
      sampleOf noise (fun _ => p) (fun _ j => ent m' j) (fun i j => if i = 0 then ent iv' j else 0) (0, j, k) ω =
        if 0 < v then x * abFactor F.abCls j + noise ω 0 k (p j) / Real.sqrt (v / abFactor F.abCls j ^ 2) else x * abFactor F.abCls j := by
    intro j k x v ω hx hv
    simp only [sampleOf, if_true, ent_eq (em j x hx), ent_eq (ei j v hv)]
    have : 0 < v / abFactor F.abCls j ^ 2 ↔ 0 < v := by
      have := hf j
      constructor
      · intro h; by_contra hc; push Not at hc
        exact absurd h (not_lt.mpr (div_nonpos_of_nonpos_of_nonneg hc (by positivity)))
      · intro h; positivity
    simp only [this]
  refine ⟨fun t => sampleOf noise (fun _ => p) (fun _ j => ent m' j) (fun i j => if i = 0 then ent iv' j else 0) (0, t.1, t.2), ?_, ?_, ?_⟩
  · intro mc hmc ω out h
    rw [fit_eff nnls F hr z m iv hm hiv] at h
    obtain ⟨_, cm, mm, h1, g1, g2, g3, g4, hcol⟩ := hp mc hmc (noise ω) out h
    refine ⟨cm, mm, h1, g1, g2, g3, g4, fun k hk => ⟨(hcol k hk).1, fun j hj => ?_⟩⟩
    obtain ⟨_, c2, c3⟩ := hcol k hk
    have hjm := List.getElem?_eq_getElem (show j < m.length by omega)
    have hji := List.getElem?_eq_getElem (show j < iv.length by omega)
    simp only
    rw [hS j k _ _ ω hjm hji]
    have hfj := hf j
    rcases (hpos _ (List.getElem_mem (show j < iv.length by omega))).lt_or_eq with h0 | h0
    · rw [if_pos h0]
      exact c3 j _ _ (em j _ hjm) (ei j _ hji) (by positivity)
    · rw [if_neg (by rw [← h0]; exact lt_irrefl _)]
      exact c2 j _ (em j _ hjm) (by rw [ei j _ hji, ← h0, zero_div])
  · intro j k x v hx hv h0
    have hfj := hf j
    have h1 := shifted_law (hd.law 0 k (p j)) (x * abFactor F.abCls j) (v / abFactor F.abCls j ^ 2) (by positivity)
    rw [one_div_div] at h1
    convert h1 using 2 with ω
    simp only
    rw [hS j k x v ω hx hv, if_pos h0]
  · exact hind.precomp (g := fun t : ℕ × ℕ => (0, t.1, t.2)) (by rintro ⟨a, b⟩ ⟨c, d⟩ h; simpa using h)

/-- `sample_fits` for one galaxy -/
theorem sample_fits_one {Ω : Type} [MeasurableSpace Ω] (P : Measure Ω) (noise : Ω → Nat → Nat → Nat → ℝ) (hdev : Deviates P noise) (nnls : Nnls ℝ) (hok : NNLSOK nnls)
    (K : Kc ℝ) (hr : AbReady K.abCls K.responses.length) (hnb : K.responses.length ≠ 1) (A : AMat ℝ) (hR : Ready K.toFitter A) (z : ℝ) (m iv : List ℝ)
    (hml : m.length = K.responses.length) (hivl : iv.length = K.responses.length) (hip : ∀ v ∈ iv, 0 ≤ v) (out : Ω → Nat → FitOut ℝ)
    (hfit : ∀ ω mc, 0 < mc → K.toFitter.fitCoeffs nnls (some (.scalar z)) (some (.vec m)) (some (.vec iv)) mc (noise ω) = .ok (out ω mc))
    (hz : InRange A.x z) (hind : Indep K.toFitter z iv) :
    ∃ (W : ℕ → Ω → ({l : Fin K.responses.length // 0 < ent iv l} → ℝ)) (cf : ({l : Fin K.responses.length // 0 < ent iv l} → ℝ) → Fin K.templates.nsed → ℝ),
      iIndepFun W P ∧ (∀ k, HasLaw (W k) (fluxLaw K.abCls K.responses.length m iv) P) ∧ Continuous cf ∧ (∀ w t, 0 ≤ cf w t) ∧
      (∀ w (s : ℝ), 0 < s → cf (s • w) = fun t => s * cf w t) ∧
      (∀ w, ∃ d : List ℝ, d.length = K.responses.length ∧ (∀ l : {l : Fin K.responses.length // 0 < ent iv l}, d[(l.1 : Nat)]? = some (w l)) ∧
        Optimal K.toFitter z d (abIv K.abCls iv) (List.ofFn (cf w))) ∧
      (∀ w (d : List ℝ), d.length = K.responses.length → (∀ l : {l : Fin K.responses.length // 0 < ent iv l}, d[(l.1 : Nat)]? = some (w l)) → ∀ c,
        Optimal K.toFitter z d (abIv K.abCls iv) c → c = List.ofFn (cf w)) ∧
      ∀ ω mc, 0 < mc → ∃ cm mm, (out ω mc).mc = some (.arr [K.templates.nsed] mc cm, .arr [K.responses.length] mc mm) ∧ cm.length = K.templates.nsed ∧ mm.length = K.responses.length ∧ (∀ r ∈ cm, r.length = mc) ∧
        ∀ k < mc, column cm k = List.ofFn (cf (W k ω)) ∧ ∀ l : {l : Fin K.responses.length // 0 < ent iv l}, (column mm k)[(l.1 : Nat)]? = some (W k ω l) := by
  obtain ⟨S, hS1, hS2, hS4⟩ := one_samples P noise hdev nnls hok.len K.toFitter hr hnb A hR.set z m iv hml hivl hip
  have hie : ∀ l : Fin K.responses.length, iv[(l : Nat)]? = some (ent iv l) := by
    intro l
    have h1 : (l : Nat) < iv.length := by rw [hivl]; exact l.2
    rw [List.getElem?_eq_getElem h1, ent_some h1]
  have hme : ∀ l : Fin K.responses.length, m[(l : Nat)]? = some (ent m l) := by
    intro l
    have h1 : (l : Nat) < m.length := by rw [hml]; exact l.2
    rw [List.getElem?_eq_getElem h1, ent_some h1]
  obtain ⟨cf, c1, c2, c3, c4, c5⟩ := fit_fn K.toFitter.plain (Or.inl rfl) trivial rfl hnb A (ready_plain hR) z hz (abIv K.abCls iv) (by rw [abIv_length]; exact hivl)
    (abIv_nonneg _ _ hip) (by rw [indep_plain]; exact indep_ab _ hind) (fun l => 0 < ent iv l) (by
      intro l v hv hv0
      change (abIv K.abCls iv)[(l : Nat)]? = some v at hv
      rw [abIv_get, hie l] at hv
      rw [← Option.some.inj hv] at hv0
      exact (div_pos_iff_of_pos_right (pow_pos (abFactor_pos _ _) 2)).mp hv0)
  rw [optimal_plain] at c4 c5
  have hlaw : ∀ (l : {l : Fin K.responses.length // 0 < ent iv l}) (k : ℕ), HasLaw (S ((l.1 : Nat), k))
      (gaussianReal (ent m l.1 * abFactor K.abCls l.1) (Real.toNNReal (abFactor K.abCls l.1 ^ 2 / ent iv l.1))) P :=
    fun l k => hS2 l.1 k _ _ (hme l.1) (hie l.1) l.2
  let W : ℕ → Ω → ({l : Fin K.responses.length // 0 < ent iv l} → ℝ) := fun k ω l => S ((l.1 : Nat), k) ω
  have hW : iIndepFun W P := by
    have h1 : iIndepFun (fun r : {l : Fin K.responses.length // 0 < ent iv l} × ℕ => S ((r.1.1 : Nat), r.2)) P :=
      hS4.precomp (g := fun r : {l : Fin K.responses.length // 0 < ent iv l} × ℕ => ((r.1.1 : Nat), r.2)) (by
        rintro ⟨⟨a, _⟩, k⟩ ⟨⟨b, _⟩, k'⟩ h
        simp only [Prod.mk.injEq] at h
        obtain ⟨h1, rfl⟩ := h
        have := Fin.ext h1
        subst this
        rfl)
    exact blocks_indep h1 (fun r => (hlaw r.1 r.2).aemeasurable) (fun _ w => w) (fun _ => measurable_id)
  have hWl : ∀ k, HasLaw (W k) (fluxLaw K.abCls K.responses.length m iv) P := by
    intro k
    refine iIndepFun.hasLaw_pi (fun l => hlaw l k) (hS4.precomp (g := fun l : {l : Fin K.responses.length // 0 < ent iv l} => ((l.1 : Nat), k)) ?_)
    rintro ⟨a, _⟩ ⟨b, _⟩ h
    simp only [Prod.mk.injEq, and_true] at h
    have := Fin.ext h
    subst this
    rfl
  refine ⟨W, cf, hW, hWl, c1, c2, c3, c4, c5, fun ω mc h0 => ?_⟩
  obtain ⟨cm, mm, h1, h2, h3, h4, _, h5⟩ := hS1 mc h0 ω _ (hfit ω mc h0)
  refine ⟨cm, mm, h1, h2, h3, h4, fun k hkm => ⟨?_, fun l => (h5 k hkm).2 _ l.1.2⟩⟩
  have hcl : (column mm k).length = K.responses.length := by simpa [column] using h3
  obtain ⟨c', h6, h7⟩ := C49_optimal nnls hok K.toFitter.plain (Or.inl rfl) A (ready_plain hR) z hz _ _ hcl (by rw [abIv_length]; exact hivl)
    (abIv_nonneg _ _ hip) _ _ (h5 k hkm).1
  rw [optimal_plain] at h7
  have h8 := c5 (W k ω) _ hcl (fun l => (h5 k hkm).2 _ l.1.2) c' h7
  simp only [NDA.vec, FitOut.mk.injEq, NDA.arr.injEq, List.cons.injEq, and_true] at h6
  exact h6.2.2.trans h8

theorem column_ent (cm : List (List ℝ)) (k : Nat) : column cm k = cm.map (fun r => ent r k) := by
  simp [column, ent]

/-- as many values as the shape of a derived quantity tells -/
theorem flat_shape {K : Kc ℝ} {t : Tmpl ℝ} {Ao : AMat ℝ} (h : MassKc K t Ao) (hG : Ao.Good) (reg : Reg ℝ) (z : ℝ) (c : List ℝ) (hc : c.length = K.templates.nsed) (bs : ℝ) (E : Derived ℝ)
    (hE : K.derived reg (some (.scalar z)) (some (.vec c)) bs none = .ok E) (q : Nat) (u : NDA ℝ) (hu : E.keys[q]? = some u) : u.flat.length = u.shape.prod := by
  rw [flat_width h hG reg z c hc bs E hE q u hu]
  obtain ⟨ss, f, _, _, hv⟩ := derived_vals h hG reg z c hc bs E hE
  obtain ⟨row, e1, e2, _⟩ := hv.mtol
  rw [derived_scalar h.tpl h.mass h.out reg z c hc] at hE
  cases hd : derOne K reg t Ao id id bs (K.distmod (f32 z)) (c.map f32) with
  | error e => rw [hd] at hE; cases hE
  | ok d =>
  rw [hd] at hE
  cases hE
  simp only [NDA.arr.injEq, true_and, List.cons.injEq, and_true] at e1
  match q, hu with
  | 0, hu => cases hu; rfl
  | 1, hu => cases hu; rfl
  | 2, hu => cases hu; simp [NDA.shape]
  | 3, hu => cases hu; rfl
  | 4, hu => cases hu; rfl
  | 5, hu => cases hu; rfl
  | 6, hu => cases hu; rfl
  | n + 7, hu => cases hu

/-- the entries of a sample -/
theorem one_entry {n mc k : Nat} {cm : List (List ℝ)} {c : Fin n → ℝ} (h : ∀ r ∈ cm, r.length = mc) (hk : k < mc) (hc : column cm k = List.ofFn c) (t : Fin n) :
    entry (.arr [n] mc cm) t k = some (c t) :=
  column_entry h hk (by rw [hc]; simp)

/-- C221 for one galaxy, as in the documentation: the fraction of samples with coefficients in a set tends, with probability one, to the probability that the best fit to fluxes of
`fluxLaw` is in the set. -/
theorem C221_one {Ω : Type} [MeasurableSpace Ω] (P : Measure Ω) (noise : Ω → Nat → Nat → Nat → ℝ) (hdev : Deviates P noise) (nnls : Nnls ℝ) (hok : NNLSOK nnls)
    (K : Kc ℝ) (hr : AbReady K.abCls K.responses.length) (hnb : K.responses.length ≠ 1) (A : AMat ℝ) (hR : Ready K.toFitter A) (z : ℝ) (m iv : List ℝ)
    (hml : m.length = K.responses.length) (hivl : iv.length = K.responses.length) (hip : ∀ v ∈ iv, 0 ≤ v) (out : Ω → Nat → FitOut ℝ)
    (hfit : ∀ ω mc, 0 < mc → K.toFitter.fitCoeffs nnls (some (.scalar z)) (some (.vec m)) (some (.vec iv)) mc (noise ω) = .ok (out ω mc))
    (hz : InRange A.x z) (hind : Indep K.toFitter z iv) :
    ∃ cf : ({l : Fin K.responses.length // 0 < ent iv l} → ℝ) → Fin K.templates.nsed → ℝ,
      (∀ w (d c : List ℝ), d.length = K.responses.length → (∀ l : {l : Fin K.responses.length // 0 < ent iv l}, d[(l.1 : Nat)]? = some (w l)) →
        (Optimal K.toFitter z d (abIv K.abCls iv) c ↔ c = List.ofFn (cf w))) ∧
      (∀ B, MeasurableSet B → ∀ᵐ ω ∂P, Tendsto (fun mc => fraction mc (fun k => ∃ cm mm, (out ω mc).mc = some (cm, mm) ∧
          ∃ c ∈ B, ∀ t : Fin K.templates.nsed, entry cm t k = some (c t))) atTop
        (𝓝 ((fluxLaw K.abCls K.responses.length m iv).real {w | cf w ∈ B}))) := by
  obtain ⟨W, cf, hW, hWl, c1, c2, c3, c4, c5, hc⟩ := sample_fits_one P noise hdev nnls hok K hr hnb A hR z m iv hml hivl hip out hfit hz hind
  refine ⟨cf, fun w d c h1 h2 => ⟨fun h => c5 w d h1 h2 c h, ?_⟩, fun B hB => ?_⟩
  · rintro rfl
    obtain ⟨d', h3, h4, h5⟩ := c4 w
    exact optimal_weighted K z iv hivl hip w d d' _ h1 h2 h3 h4 h5
  · filter_upwards [fraction_limit hW hWl {w | cf w ∈ B} (c1.measurable hB)] with ω hω
    refine hω.congr' ?_
    filter_upwards [eventually_gt_atTop 0] with mc h0
    refine fraction_congr fun k hk => ?_
    obtain ⟨cm, mm, h1, _, _, h4, h2⟩ := hc ω mc h0
    have hent := one_entry h4 hk (h2 k hk).1
    constructor
    · intro h
      exact ⟨_, _, h1, _, h, hent⟩
    · rintro ⟨cm', mm', e1, c', hB', e2⟩
      rw [h1] at e1
      cases e1
      have : c' = cf (W k ω) := by
        funext t
        have := e2 t
        rw [hent t] at this
        exact (Option.some.inj this).symm
      rw [this] at hB'
      exact hB'

/-- C221 for the derived quantities of one galaxy. -/
theorem C221_derived_one {Ω : Type} [MeasurableSpace Ω] (P : Measure Ω) (noise : Ω → Nat → Nat → Nat → ℝ) (hdev : Deviates P noise) (nnls : Nnls ℝ) (hok : NNLSOK nnls)
    (K : Kc ℝ) (hr : AbReady K.abCls K.responses.length) (hnb : K.responses.length ≠ 1) (A : AMat ℝ) (hR : Ready K.toFitter A) (z : ℝ) (m iv : List ℝ)
    (hml : m.length = K.responses.length) (hivl : iv.length = K.responses.length) (hip : ∀ v ∈ iv, 0 ≤ v) (out : Ω → Nat → FitOut ℝ)
    (hfit : ∀ ω mc, 0 < mc → K.toFitter.fitCoeffs nnls (some (.scalar z)) (some (.vec m)) (some (.vec iv)) mc (noise ω) = .ok (out ω mc))
    (hz : InRange A.x z) (hind : Indep K.toFitter z iv)
    (t : Tmpl ℝ) (Ao : AMat ℝ) (hK : MassKc K t Ao) (hG : Ao.Good) (hno : Ao.nrow = K.responsesOut.length) (reg : Reg ℝ) (bs : ℝ) (R : Ω → Nat → Derived ℝ)
    (hder : ∀ ω mc cm mm, 0 < mc → (out ω mc).mc = some (cm, mm) → K.derivedMc reg (some (.scalar z)) cm bs none = .ok (some (R ω mc)))
    (q j : Nat) (hq : q < 7) (hj : j < if q = 2 then Ao.nrow else 1) (s : ℝ) :
    ∃ cf : ({l : Fin K.responses.length // 0 < ent iv l} → ℝ) → Fin K.templates.nsed → ℝ,
      (∀ w (d c : List ℝ), d.length = K.responses.length → (∀ l : {l : Fin K.responses.length // 0 < ent iv l}, d[(l.1 : Nat)]? = some (w l)) →
        (Optimal K.toFitter z d (abIv K.abCls iv) c ↔ c = List.ofFn (cf w))) ∧
      ∀ᵐ ω ∂P, Tendsto (fun mc => fraction mc (fun k => ∃ x v, (R ω mc).keys[q]? = some x ∧ entry x j k = some v ∧ v ≤ s)) atTop
        (𝓝 ((fluxLaw K.abCls K.responses.length m iv).real {w | ∃ E y v, K.derived reg (some (.scalar z)) (some (.vec (List.ofFn (cf w)))) bs none = .ok E ∧
          E.keys[q]? = some y ∧ y.flat[j]? = some v ∧ v ≤ s})) := by
  obtain ⟨W, cf, hW, hWl, c1, c2, c3, c4, c5, hc⟩ := sample_fits_one P noise hdev nnls hok K hr hnb A hR z m iv hml hivl hip out hfit hz hind
  refine ⟨cf, fun w d c h1 h2 => ⟨fun h => c5 w d h1 h2 c h, ?_⟩, ?_⟩
  · rintro rfl
    obtain ⟨d', h3, h4, h5⟩ := c4 w
    exact optimal_weighted K z iv hivl hip w d d' _ h1 h2 h3 h4 h5
  obtain ⟨y, hy, hval⟩ := derived_fn hK hG reg z bs q j (fun h => by rw [if_pos h, hno] at hj; exact hj)
  -- the values of one sample
  have cell : ∀ ω mc k, k < mc → ∃ E x u, K.derived reg (some (.scalar z)) (some (.vec (List.ofFn (cf (W k ω))))) bs none = .ok E ∧ E.keys[q]? = some u ∧
      u.flat[j]? = some (y (cf (W k ω))) ∧ (R ω mc).keys[q]? = some x ∧ entry x j k = some (y (cf (W k ω))) := by
    intro ω mc k hk
    obtain ⟨cm, mm, h1, h3, _, _, h2⟩ := hc ω mc (by omega)
    obtain ⟨R', E, e1, e2, e3⟩ := ((C82_one hK.tpl hK.mass hK.out reg z mc cm h3 bs).2 _ (hder ω mc _ _ (by omega) h1)).2 k hk
    cases e1
    rw [← column_ent, (h2 k hk).1] at e2
    obtain ⟨x, hx⟩ : ∃ x, (R ω mc).keys[q]? = some x := ⟨_, List.getElem?_eq_getElem (by simpa [Derived.keys] using hq)⟩
    obtain ⟨u, hu⟩ : ∃ u, E.keys[q]? = some u := ⟨_, List.getElem?_eq_getElem (by simpa [Derived.keys] using hq)⟩
    have e4 := flat_width hK hG reg z _ (by simp) bs E e2 q u hu
    obtain ⟨v, hv⟩ : ∃ v, u.flat[j]? = some v := ⟨_, List.getElem?_eq_getElem (by rw [e4]; exact hj)⟩
    have e6 := hval _ E u v e2 hu hv
    have e7 := (e3 q x u hx hu).2 j v (by rw [← flat_shape hK hG reg z _ (by simp) bs E e2 q u hu, e4]; exact hj) hv
    rw [real_f32] at e7
    rw [e6] at hv e7
    exact ⟨E, x, u, e2, hu, hv, hx, e7⟩
  have hP : IsProbabilityMeasure P := hdev.indep.isProbabilityMeasure
  obtain ⟨ω0⟩ : Nonempty Ω := nonempty_of_isProbabilityMeasure P
  have hset : {w | ∃ E u v, K.derived reg (some (.scalar z)) (some (.vec (List.ofFn (cf w)))) bs none = .ok E ∧ E.keys[q]? = some u ∧ u.flat[j]? = some v ∧ v ≤ s} =
      {w | y (cf w) ≤ s} := by
    obtain ⟨E0, _, u0, a1, a2, a3, _⟩ := cell ω0 1 0 one_pos
    have hall := (derived_returns hK reg z _ (by simp) bs).mp ⟨E0, a1⟩
    ext w
    simp only [Set.mem_ofPred_eq]
    constructor
    · rintro ⟨E, u, v, b1, b2, b3, b4⟩
      rw [← hval _ E u v b1 b2 b3]
      exact b4
    · intro hw
      obtain ⟨E, hE⟩ := (derived_returns hK reg z (List.ofFn (cf w)) (by simp) bs).mpr hall
      obtain ⟨u, hu⟩ : ∃ u, E.keys[q]? = some u := ⟨_, List.getElem?_eq_getElem (by simpa [Derived.keys] using hq)⟩
      have hlen : u.flat.length = (if q = 2 then Ao.nrow else 1) := flat_width hK hG reg z _ (by simp) bs E hE q u hu
      obtain ⟨v, hv⟩ : ∃ v, u.flat[j]? = some v := ⟨_, List.getElem?_eq_getElem (by rw [hlen]; exact hj)⟩
      exact ⟨E, u, v, hE, hu, hv, by rw [hval _ E u v hE hu hv]; exact hw⟩
  rw [hset]
  filter_upwards [fraction_limit hW hWl {w | y (cf w) ≤ s} ((hy.comp c1.measurable) measurableSet_Iic)] with ω hω
  refine hω.congr fun mc => ?_
  refine fraction_congr fun k hk => ?_
  obtain ⟨E, x, u, b1, b2, b3, b4, b5⟩ := cell ω mc k hk
  constructor
  · intro h
    exact ⟨x, _, b4, b5, h⟩
  · rintro ⟨x', v', d1, d2, d3⟩
    rw [b4] at d1
    cases d1
    rw [b5] at d2
    cases d2
    exact d3

/-- C222 for one galaxy. -/
theorem C222_one {Ω : Type} [MeasurableSpace Ω] (P : Measure Ω) (noise : Ω → Nat → Nat → Nat → ℝ) (hdev : Deviates P noise) (nnls : Nnls ℝ) (hok : NNLSOK nnls)
    (K : Kc ℝ) (hr : AbReady K.abCls K.responses.length) (hnb : K.responses.length ≠ 1) (A : AMat ℝ) (hR : Ready K.toFitter A) (z : ℝ) (m iv : List ℝ)
    (hml : m.length = K.responses.length) (hivl : iv.length = K.responses.length) (hip : ∀ v ∈ iv, 0 ≤ v) (out : Ω → Nat → FitOut ℝ)
    (hfit : ∀ ω mc, 0 < mc → K.toFitter.fitCoeffs nnls (some (.scalar z)) (some (.vec m)) (some (.vec iv)) mc (noise ω) = .ok (out ω mc))
    (hz : InRange A.x z) (hind : Indep K.toFitter z iv)
    (t : Fin K.templates.nsed) :
    ∃ f : ({l : Fin K.responses.length // 0 < ent iv l} → ℝ) → ℝ,
      (∀ w (d c : List ℝ), d.length = K.responses.length → (∀ l : {l : Fin K.responses.length // 0 < ent iv l}, d[(l.1 : Nat)]? = some (w l)) →
        Optimal K.toFitter z d (abIv K.abCls iv) c → c[(t : Nat)]? = some (f w)) ∧
      (∀ w : {l : Fin K.responses.length // 0 < ent iv l} → ℝ, ∃ d c : List ℝ, d.length = K.responses.length ∧ (∀ l : {l : Fin K.responses.length // 0 < ent iv l}, d[(l.1 : Nat)]? = some (w l)) ∧ Optimal K.toFitter z d (abIv K.abCls iv) c) ∧
      MemLp f 2 (fluxLaw K.abCls K.responses.length m iv) ∧
      (∀ ω mc k, k < mc → 0 ≤ sampled (out ω mc) t k) ∧
      0 < (fluxLaw K.abCls K.responses.length m iv).real {w | 0 < f w} ∧ 0 < ∫ w, f w ∂fluxLaw K.abCls K.responses.length m iv ∧
      ∀ᵐ ω ∂P, Tendsto (fun mc => fraction mc (fun k => 0 < sampled (out ω mc) t k)) atTop (𝓝 ((fluxLaw K.abCls K.responses.length m iv).real {w | 0 < f w})) ∧
        Tendsto (fun mc => (∑ k ∈ Finset.range mc, sampled (out ω mc) t k) / mc) atTop (𝓝 (∫ w, f w ∂fluxLaw K.abCls K.responses.length m iv)) ∧
        Tendsto (fun mc => scatter (Finset.range mc) (sampled (out ω mc) t)) atTop (𝓝 √(Var[f; fluxLaw K.abCls K.responses.length m iv])) := by
  obtain ⟨W, cf, hW, hWl, c1, c2, c3, c4, c5, hc⟩ := sample_fits_one P noise hdev nnls hok K hr hnb A hR z m iv hml hivl hip out hfit hz hind
  have hfc : Continuous (fun w => cf w t) := (continuous_apply t).comp c1
  have hL := homogeneous_memLp K.abCls K.responses.length m iv (fun w => cf w t) hfc (fun w s hs => congrFun (c3 w s hs) t)
  have hint : Integrable (fun w => cf w t) (fluxLaw K.abCls K.responses.length m iv) := hL.integrable (by norm_num)
  -- the fluxes of template `t` alone are fitted by it
  obtain ⟨w0, hw0⟩ : ∃ w0, 0 < cf w0 t := by
    obtain ⟨a, _, am⟩ := hR.model
    have h1 := am ⟨z, hz⟩ (alone K.templates.nsed t) (alone_length _ _)
    generalize (fun j => ∑ i, a j i ⟨z, hz⟩ * ent (alone K.templates.nsed t) i) = r at h1
    refine ⟨fun l => r l.1, ?_⟩
    have h2 : Optimal K.toFitter z (List.ofFn r) (abIv K.abCls iv) (alone K.templates.nsed t) := by
      refine ⟨alone_length _ _, ?_, _, h1, fun y hy _ => ⟨_, am ⟨z, hz⟩ y hy, ?_⟩⟩
      · intro v hv
        obtain ⟨i, _, rfl⟩ := List.mem_map.mp hv
        split_ifs <;> norm_num
      · rw [chi2_self]
        exact chi2_nonneg _ _ _ (abIv_nonneg _ _ hip)
    have h3 := c5 (fun l => r l.1) (List.ofFn r) (by simp) (fun l => by simp) _ h2
    have h4 := congrArg (fun l : List ℝ => l[(t : Nat)]?) h3
    simp only [alone, List.getElem?_map, List.getElem?_ofFn, t.2, dif_pos, List.getElem?_range t.2, Option.map_some, if_true, Option.some.injEq] at h4
    have h5 : cf (fun l => r l.1) t = 1 := h4.symm
    rw [h5]
    exact one_pos
  have hopen := flux_open K.abCls K.responses.length m iv
  have hU : 0 < (fluxLaw K.abCls K.responses.length m iv) {w | 0 < cf w t} := (isOpen_lt continuous_const hfc).measure_pos _ ⟨w0, hw0⟩
  have hsam : ∀ ω mc k, k < mc → sampled (out ω mc) t k = cf (W k ω) t := by
    intro ω mc k hk
    obtain ⟨cm, mm, h1, _, _, h4, h2⟩ := hc ω mc (by omega)
    unfold sampled
    rw [h1]
    simp only
    rw [one_entry h4 hk (h2 k hk).1 t]
    rfl
  refine ⟨fun w => cf w t, fun w d c h1 h2 h3 => ?_, fun w => ?_, hL, fun ω mc k hk => (hsam ω mc k hk).ge.trans' (c2 _ t), ENNReal.toReal_pos hU.ne' (measure_ne_top _ _), ?_, ?_⟩
  · rw [c5 w d h1 h2 c h3]
    simp
  · obtain ⟨d, h1, h2, h3⟩ := c4 w
    exact ⟨d, _, h1, h2, h3⟩
  · rw [integral_pos_iff_support_of_nonneg (fun w => c2 w t) hint]
    exact hU.trans_le (measure_mono fun w hw => ne_of_gt hw)
  filter_upwards [fraction_limit hW hWl {w | 0 < cf w t} (measurableSet_lt measurable_const hfc.measurable),
    moments_limit hW hWl (fun w => cf w t) hfc hL (fun ω mc => sampled (out ω mc) t) hsam] with ω h1 h2
  refine ⟨h1.congr fun mc => fraction_congr fun k hk => ?_, h2⟩
  rw [hsam ω mc k hk]


/-- the fit of one galaxy at redshift 2 with Monte Carlo samples, and the derived quantities of the samples -/
theorem demo_one_draws {Ω : Type} (noise : Ω → Nat → Nat → Nat → ℝ) : ∃ (out : Ω → Nat → FitOut ℝ) (R : Ω → Nat → Derived ℝ),
    (∀ ω mc, 0 < mc → demoBoth.toFitter.fitCoeffs (lhNnls 0) (some (.scalar 2)) (some (.vec [3, 3])) (some (.vec [1, 1 / 2])) mc (noise ω) = .ok (out ω mc)) ∧
    ∀ ω mc cm mm, 0 < mc → (out ω mc).mc = some (cm, mm) → demoBoth.derivedMc demoReg (some (.scalar 2)) cm 0 none = .ok (some (R ω mc)) := by
  have hin : InRange demoAm2.x 2 := by constructor <;> norm_num [demoAm2]
  have hrd := demo_both_ready
  have hK := demo_both_mass
  have hd1 : ∀ c : List ℝ, c.length = 2 → ∃ D, demoBoth.derived demoReg (some (.scalar 2)) (some (.vec c)) 0 none = .ok D := by
    intro c hc
    obtain ⟨D, hD⟩ := demo_table [c, c] rfl
    obtain ⟨E, hE, _⟩ := derived_cells hK demo_ready.good demoReg [2, 2] [c, c] rfl (fun x hx => by
      have : x = c := by simpa using hx
      rw [this]; exact hc) 0 D hD 0 2 c rfl rfl
    exact ⟨E, hE⟩
  have hf : ∀ ω mc, ∃ cm : List (List ℝ), ∃ out : FitOut ℝ, ∃ mm, 0 < mc → cm.length = 2 ∧ out.mc = some (.arr [2] mc cm, mm) ∧
      demoBoth.toFitter.fitCoeffs (lhNnls 0) (some (.scalar 2)) (some (.vec [3, 3])) (some (.vec [1, 1 / 2])) mc (noise ω) = .ok out := by
    intro ω mc
    by_cases h0 : 0 < mc
    · obtain ⟨c, cm, mm, h⟩ := C184_mc demoBoth.toFitter (by show 2 ≤ 9; norm_num) (Or.inl rfl) (by decide) demoAm2 hrd 2 hin [3, 3] [1, 1 / 2] rfl rfl mc h0 (noise ω)
      obtain ⟨p, _, hp⟩ := C55_monte_carlo (lhNnls 0) C184_contract.len demoBoth.toFitter (Or.inl rfl) (by decide) demoAm2 rfl 2 [3, 3] [1, 1 / 2] rfl rfl (by simp)
      obtain ⟨_, cm', mm', h1, g1, _⟩ := hp mc h0 (noise ω) _ h
      exact ⟨cm', _, _, fun _ => ⟨g1, h1, h⟩⟩
    · exact ⟨[], ⟨.scalar 0, none⟩, .scalar 0, fun h => absurd h h0⟩
  choose cm out mm hout using hf
  have hx : ∀ ω mc, ∃ x, 0 < mc → demoBoth.derivedMc demoReg (some (.scalar 2)) (.arr [2] mc (cm ω mc)) 0 none = .ok (some x) := by
    intro ω mc
    by_cases h0 : 0 < mc
    · have hl := (hout ω mc h0).1
      obtain ⟨ret, hret⟩ := (C82_one hK.tpl hK.mass hK.out demoReg 2 mc (cm ω mc) hl 0).1.mpr (fun k _ => hd1 _ (by simpa using hl))
      cases hr : ret with
      | none => exact absurd (((C82_one hK.tpl hK.mass hK.out demoReg 2 mc (cm ω mc) hl 0).2 _ hret).1.mp hr) (by omega)
      | some x => exact ⟨x, fun _ => by rw [← hr]; exact hret⟩
    · obtain ⟨D, _⟩ := hd1 [1, 1] rfl
      exact ⟨D, fun h => absurd h h0⟩
  choose R hR using hx
  refine ⟨out, R, fun ω mc h0 => (hout ω mc h0).2.2, fun ω mc c m h0 h => ?_⟩
  rw [(hout ω mc h0).2.1] at h
  cases h
  exact hR ω mc h0

/-- Not vacuous: coefficients and mass-to-light ratio in the second band of one galaxy at redshift 2, between the nodes 1 and 3 of the grid. -/
example (t : Fin 2) : ∃ (Ω : Type) (_ : MeasurableSpace Ω) (P : Measure Ω) (out : Ω → Nat → FitOut ℝ) (R : Ω → Nat → Derived ℝ) (μ σ φ ψ : ℝ), IsProbabilityMeasure P ∧ 0 < μ ∧
    (∀ᵐ ω ∂P, Tendsto (fun mc => fraction mc (fun k => ∃ cm mm, (out ω mc).mc = some (cm, mm) ∧ ∃ c ∈ {c : Fin 2 → ℝ | 0 < c 0}, ∀ t : Fin 2, entry cm t k = some (c t))) atTop (𝓝 φ)) ∧
    (∀ᵐ ω ∂P, Tendsto (fun mc => fraction mc (fun k => ∃ x v, (R ω mc).keys[2]? = some x ∧ entry x 1 k = some v ∧ v ≤ 1)) atTop (𝓝 ψ)) ∧
    ∀ᵐ ω ∂P, Tendsto (fun mc => (∑ k ∈ Finset.range mc, sampled (out ω mc) t k) / mc) atTop (𝓝 μ) ∧ Tendsto (fun mc => scatter (Finset.range mc) (sampled (out ω mc) t)) atTop (𝓝 σ) := by
  have hdev := deviates_exist
  generalize (fun (ω : ℕ × ℕ × ℕ → ℝ) i k p => ω (i, k, p)) = noise at hdev
  generalize Measure.infinitePi (fun _ : ℕ × ℕ × ℕ => gaussianReal 0 1) = P at hdev
  have hP : IsProbabilityMeasure P := hdev.indep.isProbabilityMeasure
  have hin : InRange demoAm2.x 2 := by constructor <;> norm_num [demoAm2]
  have hip : ∀ v ∈ [(1 : ℝ), 1 / 2], 0 ≤ v := by simp
  obtain ⟨out, R, hout, hR⟩ := demo_one_draws noise
  obtain ⟨_, -, h1⟩ := C221_one P noise hdev (lhNnls 0) C184_contract demoBoth trivial (by decide) demoAm2 demo_both_ready 2 [3, 3] [1, 1 / 2] rfl rfl hip out hout hin demo_both_indep
  obtain ⟨_, -, h2⟩ := C221_derived_one P noise hdev (lhNnls 0) C184_contract demoBoth trivial (by decide) demoAm2 demo_both_ready 2 [3, 3] [1, 1 / 2] rfl rfl hip out hout hin demo_both_indep
    demoTmpl demoAm2 demo_both_mass demo_ready.good rfl demoReg 0 R hR 2 1 (by norm_num) (by show 1 < 2; norm_num) 1
  obtain ⟨_, _, _, _, _, _, h3, h4⟩ := C222_one P noise hdev (lhNnls 0) C184_contract demoBoth trivial (by decide) demoAm2 demo_both_ready 2 [3, 3] [1, 1 / 2] rfl rfl hip out hout hin demo_both_indep t
  exact ⟨_, _, P, out, R, _, _, _, _, hP, h3, h1 {c : Fin 2 → ℝ | 0 < c 0} (measurableSet_lt measurable_const (measurable_pi_apply _)), h2, h4.mono fun ω h => h.2⟩

end KC
