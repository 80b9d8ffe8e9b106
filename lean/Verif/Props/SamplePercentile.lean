import Verif.Props.SampleCount

/-!
# Percentiles of the Monte Carlo samples (C225)
-/

namespace KC
open Spec MeasureTheory ProbabilityTheory Filter Topology

/-- `v` is number `i` of the first `n` values of `x` in ascending order, counted from 0: at most `i` are smaller, and more than `i` are not larger. -/
def Spec.InOrder (n : Nat) (x : Nat → ℝ) (i : Nat) (v : ℝ) : Prop :=
  open Classical in ((Finset.range n).filter (fun k => x k < v)).card ≤ i ∧ i < ((Finset.range n).filter (fun k => x k ≤ v)).card

/-- The `100 p` percentile as numpy takes it by default: linear between the values number `⌊p (n - 1)⌋` and the next in ascending order. -/
def Spec.Percentile (n : Nat) (x : Nat → ℝ) (p v : ℝ) : Prop :=
  ∃ lo hi, InOrder n x ⌊p * (n - 1)⌋₊ lo ∧ InOrder n x (min (⌊p * (n - 1)⌋₊ + 1) (n - 1)) hi ∧ v = lo + (p * (n - 1) - ⌊p * (n - 1)⌋₊) * (hi - lo)

/-- the values in order exist -/
theorem inOrder_exists (n : Nat) (x : Nat → ℝ) (i : Nat) (hi : i < n) : ∃ v, InOrder n x i v := by
  classical
  have hne : ((Finset.range n).image x).Nonempty := ⟨x i, Finset.mem_image_of_mem _ (Finset.mem_range.mpr hi)⟩
  have hG : (((Finset.range n).image x).filter fun v => i < ((Finset.range n).filter (fun k => x k ≤ v)).card).Nonempty := by
    refine ⟨((Finset.range n).image x).max' hne, Finset.mem_filter.mpr ⟨Finset.max'_mem _ _, ?_⟩⟩
    rw [Finset.filter_true_of_mem fun k hk => Finset.le_max' _ _ (Finset.mem_image_of_mem _ hk), Finset.card_range]
    exact hi
  have hm := Finset.min'_mem _ hG
  refine ⟨Finset.min' _ hG, ?_, (Finset.mem_filter.mp hm).2⟩
  generalize hv : Finset.min' _ hG = v at hm ⊢
  by_contra hc
  have hc' : i < ((Finset.range n).filter (fun k => x k < v)).card := not_le.mp hc
  have hne2 : (((Finset.range n).filter (fun k => x k < v)).image x).Nonempty := (Finset.card_pos.mp (by omega)).image x
  obtain ⟨k, hk, hku⟩ := Finset.mem_image.mp (Finset.max'_mem _ hne2)
  generalize hu : Finset.max' _ hne2 = u at hku
  have hk' := Finset.mem_filter.mp hk
  have h1 : (Finset.range n).filter (fun k => x k < v) ⊆ (Finset.range n).filter (fun k => x k ≤ u) := by
    intro l hl
    refine Finset.mem_filter.mpr ⟨(Finset.mem_filter.mp hl).1, ?_⟩
    rw [← hu]
    exact Finset.le_max' _ _ (Finset.mem_image_of_mem _ hl)
  have h3 : u ∈ (Finset.range n).image x := by
    rw [← hku]
    exact Finset.mem_image_of_mem x hk'.1
  have h2 : v ≤ u := by
    have h4 := Finset.min'_le (((Finset.range n).image x).filter fun v => i < ((Finset.range n).filter (fun k => x k ≤ v)).card) u
      (Finset.mem_filter.mpr ⟨h3, lt_of_lt_of_le hc' (Finset.card_le_card h1)⟩)
    rw [hv] at h4
    exact h4
  rw [← hku] at h2
  exact absurd hk'.2 (not_lt.mpr h2)

/-- the percentiles exist -/
theorem percentile_exists (n : Nat) (x : Nat → ℝ) (p : ℝ) (h0 : 0 < n) (hp0 : 0 ≤ p) (hp1 : p ≤ 1) : ∃ v, Percentile n x p v := by
  have hn : (1 : ℝ) ≤ n := by exact_mod_cast h0
  have h1 : ⌊p * ((n : ℝ) - 1)⌋₊ < n := by
    rw [Nat.floor_lt (mul_nonneg hp0 (by linarith))]
    nlinarith
  obtain ⟨lo, hlo⟩ := inOrder_exists n x _ h1
  obtain ⟨hi, hhi⟩ := inOrder_exists n x (min (⌊p * ((n : ℝ) - 1)⌋₊ + 1) (n - 1)) (by omega)
  exact ⟨_, lo, hi, hlo, hhi, rfl⟩

/-- where few samples are up to `a` and many up to `b`, the percentile is between them -/
theorem percentile_between {n : Nat} {x : Nat → ℝ} {p v : ℝ} (h0 : 0 < n) (hp0 : 0 ≤ p) (h : Percentile n x p v) (a b : ℝ)
    (ha : fraction n (fun k => x k ≤ a) ≤ p - p / n) (hb : p + (1 - p) / n < fraction n (fun k => x k ≤ b)) : a < v ∧ v ≤ b := by
  classical
  obtain ⟨lo, hi, ⟨l1, l2⟩, ⟨u1, u2⟩, rfl⟩ := h
  have hn : (1 : ℝ) ≤ n := by exact_mod_cast h0
  have hh : 0 ≤ p * ((n : ℝ) - 1) := mul_nonneg hp0 (by linarith)
  have f1 := Nat.floor_le hh
  have f2 := Nat.lt_floor_add_one (p * ((n : ℝ) - 1))
  generalize hi' : ⌊p * ((n : ℝ) - 1)⌋₊ = i at *
  have hcount : ∀ s, fraction n (fun k => x k ≤ s) * n = (((Finset.range n).filter (fun k => x k ≤ s)).card : ℝ) := fun s => by
    unfold fraction
    rw [div_mul_cancel₀ _ (by positivity)]
  have sub1 : ∀ s t, s ≤ t → ((Finset.range n).filter (fun k => x k ≤ s)).card ≤ ((Finset.range n).filter (fun k => x k ≤ t)).card := fun s t hst =>
    Finset.card_le_card (Finset.monotone_filter_right _ fun k _ hk => le_trans hk hst)
  have sub2 : ∀ s t, s < t → ((Finset.range n).filter (fun k => x k ≤ s)).card ≤ ((Finset.range n).filter (fun k => x k < t)).card := fun s t hst =>
    Finset.card_le_card (Finset.monotone_filter_right _ fun k _ hk => lt_of_le_of_lt hk hst)
  have htot : ((Finset.range n).filter (fun k => x k ≤ lo)).card ≤ n := (Finset.card_filter_le _ _).trans (by simp)
  have hlh : lo ≤ hi := by
    by_contra hc
    have := sub2 hi lo (not_le.mp hc)
    omega
  have e1 : (p - p / n) * n = p * (n - 1) := by field_simp
  have e2 : (p + (1 - p) / n) * n = p * (n - 1) + 1 := by field_simp; ring
  constructor
  · by_contra hc
    have hla : lo ≤ a := by nlinarith
    have c1 : i + 1 ≤ ((Finset.range n).filter (fun k => x k ≤ a)).card := le_trans l2 (sub1 _ _ hla)
    have c2 : ((i : ℝ) + 1) ≤ fraction n (fun k => x k ≤ a) * n := by rw [hcount]; exact_mod_cast c1
    have c3 := mul_le_mul_of_nonneg_right ha (by linarith : (0 : ℝ) ≤ n)
    linarith
  · by_contra hc
    have hbh : b < hi := by nlinarith
    have c1 : ((Finset.range n).filter (fun k => x k ≤ b)).card ≤ i + 1 := le_trans (sub2 _ _ hbh) (le_trans u1 (min_le_left _ _))
    have c2 : fraction n (fun k => x k ≤ b) * n ≤ (i : ℝ) + 1 := by rw [hcount]; exact_mod_cast c1
    have c3 := mul_lt_mul_of_pos_right hb (by linarith : (0 : ℝ) < n)
    linarith

/-- The percentiles of `n` samples `X`, of a quantity with distribution function `F`: where `F a` is below `p` and `F b` above it by `ε` and one sample or more, every percentile is
between `a` and `b` except with probability at most `4 exp (-2 n ε²)`. -/
def Spec.PercentilesNear {Ω : Type} [MeasurableSpace Ω] (P : Measure Ω) (n : Nat) (X : Ω → Nat → ℝ) (F : ℝ → ℝ) : Prop :=
  ∀ p a b ε : ℝ, 0 ≤ p → p ≤ 1 → 0 < ε → F a + ε ≤ p - p / n → p + (1 - p) / n + ε ≤ F b → ∀ v : Ω → ℝ, (∀ ω, Percentile n (X ω) p (v ω)) →
    P.real {ω | ¬ (a < v ω ∧ v ω ≤ b)} ≤ 4 * Real.exp (-2 * n * ε ^ 2)

theorem percentiles_near {Ω : Type} [MeasurableSpace Ω] {P : Measure Ω} [IsProbabilityMeasure P] {n : Nat} (h0 : 0 < n) {X : Ω → Nat → ℝ} {F : ℝ → ℝ}
    (h : ∀ s, Accurate P n (fun ω k => X ω k ≤ s) (F s)) : PercentilesNear P n X F := by
  intro p a b ε hp0 hp1 hε ha hb v hv
  have h1 := (h a).2 ε hε
  have h2 := (h b).2 ε hε
  have e : 4 * Real.exp (-2 * n * ε ^ 2) = 2 * Real.exp (-2 * n * ε ^ 2) + 2 * Real.exp (-2 * n * ε ^ 2) := by ring
  rw [e]
  refine le_trans (le_trans (measureReal_mono ?_) (measureReal_union_le _ _)) (add_le_add h1 h2)
  intro ω hω
  by_contra hc
  have hc' : ¬ (ε ≤ |fraction n (fun k => X ω k ≤ a) - F a| ∨ ε ≤ |fraction n (fun k => X ω k ≤ b) - F b|) := hc
  push Not at hc'
  have d1 := (abs_lt.mp hc'.1).2
  have d2 := (abs_lt.mp hc'.2).1
  exact hω (percentile_between h0 hp0 (hv ω) a b (by linarith) (by linarith))

/-- C225: percentiles of the samples of a derived quantity of a galaxy of a table. -/
theorem C225_derived {Ω : Type} [MeasurableSpace Ω] (P : Measure Ω) (noise : Ω → Nat → Nat → Nat → ℝ) (hdev : Deviates P noise) (nnls : Nnls ℝ) (hok : NNLSOK nnls)
    (K : Kc ℝ) (hr : AbReady K.abCls K.responses.length) (hnb : K.responses.length ≠ 1) (A : AMat ℝ) (hR : Ready K.toFitter A)
    (zs : List ℝ) (ms ivs : List (List ℝ)) (hl : zs.length ≠ 1)
    (hm : ms.length = zs.length) (hiv : ivs.length = zs.length) (hmr : ∀ r ∈ ms, r.length = K.responses.length) (hivr : ∀ r ∈ ivs, r.length = K.responses.length)
    (hpos : ∀ r ∈ ivs, ∀ v ∈ r, 0 ≤ v) (out : Ω → Nat → FitOut ℝ)
    (hfit : ∀ ω mc, 0 < mc → K.toFitter.fitCoeffs nnls (some (.vec zs)) (some (.arr [zs.length] K.responses.length ms)) (some (.arr [zs.length] K.responses.length ivs)) mc
      (noise ω) = .ok (out ω mc))
    (g : Nat) (z : ℝ) (m iv : List ℝ) (hg : zs[g]? = some z) (hgm : ms[g]? = some m) (hgi : ivs[g]? = some iv) (hz : InRange A.x z) (hind : Indep K.toFitter z iv)
    (t : Tmpl ℝ) (Ao : AMat ℝ) (hK : MassKc K t Ao) (hG : Ao.Good) (hno : Ao.nrow = K.responsesOut.length) (reg : Reg ℝ) (bs : ℝ) (R : Ω → Nat → Derived ℝ)
    (hder : ∀ ω mc cm mm, 0 < mc → (out ω mc).mc = some (cm, mm) → K.derivedMc reg (some (.vec zs)) cm bs none = .ok (some (R ω mc)))
    (q j : Nat) (hq : q < 7) (hj : j < if q = 2 then Ao.nrow else 1) :
    ∃ cf : ({l : Fin K.responses.length // 0 < ent iv l} → ℝ) → Fin K.templates.nsed → ℝ,
      (∀ w (d c : List ℝ), d.length = K.responses.length → (∀ l : {l : Fin K.responses.length // 0 < ent iv l}, d[(l.1 : Nat)]? = some (w l)) →
        (Optimal K.toFitter z d (abIv K.abCls iv) c ↔ c = List.ofFn (cf w))) ∧
      ∀ mc, 0 < mc → ∃ X : Ω → Nat → ℝ, (∀ ω, ∀ k < mc, ∃ x, (R ω mc).keys[q]? = some x ∧ entry x (g * (if q = 2 then Ao.nrow else 1) + j) k = some (X ω k)) ∧
        PercentilesNear P mc X (fun s => (fluxLaw K.abCls K.responses.length m iv).real {w | ∃ E y v, K.derived reg (some (.scalar z)) (some (.vec (List.ofFn (cf w)))) bs none = .ok E ∧
          E.keys[q]? = some y ∧ y.flat[j]? = some v ∧ v ≤ s}) := by
  obtain ⟨W, cf, c, mf, hW, hWl, c1, c2, c3, c4, c5, hc⟩ := sample_fits P noise hdev nnls hok K hr hnb A hR zs ms ivs hl hm hiv hmr hivr hpos out hfit g z m iv hg hgm hgi hz hind
  have hip : ∀ v ∈ iv, 0 ≤ v := hpos iv (List.mem_of_getElem? hgi)
  refine ⟨cf, fun w d c h1 h2 => ⟨fun h => c5 w d h1 h2 c h, ?_⟩, ?_⟩
  · rintro rfl
    obtain ⟨d', h3, h4, h5⟩ := c4 w
    exact optimal_weighted K z iv (hivr iv (List.mem_of_getElem? hgi)) hip w d d' _ h1 h2 h3 h4 h5
  obtain ⟨y, hy, hval⟩ := derived_fn hK hG reg z bs q j (fun h => by rw [if_pos h, hno] at hj; exact hj)
  -- the values of one sample
  have cell : ∀ ω mc k, k < mc → ∃ E x u, K.derived reg (some (.scalar z)) (some (.vec (List.ofFn (cf (W k ω))))) bs none = .ok E ∧ E.keys[q]? = some u ∧
      u.flat[j]? = some (y (cf (W k ω))) ∧ (R ω mc).keys[q]? = some x ∧ entry x (g * (if q = 2 then Ao.nrow else 1) + j) k = some (y (cf (W k ω))) := by
    intro ω mc k hk
    obtain ⟨h1, h2⟩ := hc ω mc (by omega)
    obtain ⟨R', E, e1, e2, e3⟩ := C82_table hK hG reg zs mc (c ω mc) bs _ (hder ω mc _ _ (by omega) h1) g k z hg hk
    cases e1
    rw [(h2 k hk).1] at e2
    obtain ⟨x, hx⟩ : ∃ x, (R ω mc).keys[q]? = some x := ⟨_, List.getElem?_eq_getElem (by simpa [Derived.keys] using hq)⟩
    obtain ⟨u, hu⟩ : ∃ u, E.keys[q]? = some u := ⟨_, List.getElem?_eq_getElem (by simpa [Derived.keys] using hq)⟩
    obtain ⟨e4, e5⟩ := e3 q x u hx hu
    obtain ⟨v, hv⟩ : ∃ v, u.flat[j]? = some v := ⟨_, List.getElem?_eq_getElem (by rw [e4]; exact hj)⟩
    have e6 := hval _ E u v e2 hu hv
    have e7 := e5 j v hv
    rw [e4] at e7
    rw [e6] at hv e7
    exact ⟨E, x, u, e2, hu, hv, hx, e7⟩
  have hP : IsProbabilityMeasure P := hdev.indep.isProbabilityMeasure
  obtain ⟨ω0⟩ : Nonempty Ω := nonempty_of_isProbabilityMeasure P
  have hset : ∀ s : ℝ, {w | ∃ E u v, K.derived reg (some (.scalar z)) (some (.vec (List.ofFn (cf w)))) bs none = .ok E ∧ E.keys[q]? = some u ∧ u.flat[j]? = some v ∧ v ≤ s} =
      {w | y (cf w) ≤ s} := by
    intro s
    obtain ⟨E0, _, u0, a1, a2, a3, _⟩ := cell ω0 1 0 one_pos
    have hall := (derived_returns hK reg z _ (by simp) bs).mp ⟨E0, a1⟩
    ext w
    simp only [Set.mem_ofPred_eq]
    constructor
    · rintro ⟨E, u, v, b1, b2, b3, b4⟩
      rw [← hval _ E u v b1 b2 b3]
      exact b4
    · intro hw
      obtain ⟨E, hE⟩ := (derived_returns hK reg z (List.ofFn (cf w)) (by simp) bs).mpr hall
      obtain ⟨u, hu⟩ : ∃ u, E.keys[q]? = some u := ⟨_, List.getElem?_eq_getElem (by simpa [Derived.keys] using hq)⟩
      have hlen : u.flat.length = (if q = 2 then Ao.nrow else 1) := flat_width hK hG reg z _ (by simp) bs E hE q u hu
      obtain ⟨v, hv⟩ : ∃ v, u.flat[j]? = some v := ⟨_, List.getElem?_eq_getElem (by rw [hlen]; exact hj)⟩
      exact ⟨E, u, v, hE, hu, hv, by rw [hval _ E u v hE hu hv]; exact hw⟩
  intro mc h0
  refine ⟨fun ω k => y (cf (W k ω)), fun ω k hk => ?_, percentiles_near h0 fun s => ?_⟩
  · obtain ⟨E, x, u, b1, b2, b3, b4, b5⟩ := cell ω mc k hk
    exact ⟨x, b4, b5⟩
  · rw [hset]
    exact fraction_finite hW hWl {w | y (cf w) ≤ s} ((hy.comp c1.measurable) measurableSet_Iic) mc h0 _ fun ω k hk => Iff.rfl

/-- C225 for the derived quantities of one galaxy. -/
theorem C225_derived_one {Ω : Type} [MeasurableSpace Ω] (P : Measure Ω) (noise : Ω → Nat → Nat → Nat → ℝ) (hdev : Deviates P noise) (nnls : Nnls ℝ) (hok : NNLSOK nnls)
    (K : Kc ℝ) (hr : AbReady K.abCls K.responses.length) (hnb : K.responses.length ≠ 1) (A : AMat ℝ) (hR : Ready K.toFitter A) (z : ℝ) (m iv : List ℝ)
    (hml : m.length = K.responses.length) (hivl : iv.length = K.responses.length) (hip : ∀ v ∈ iv, 0 ≤ v) (out : Ω → Nat → FitOut ℝ)
    (hfit : ∀ ω mc, 0 < mc → K.toFitter.fitCoeffs nnls (some (.scalar z)) (some (.vec m)) (some (.vec iv)) mc (noise ω) = .ok (out ω mc))
    (hz : InRange A.x z) (hind : Indep K.toFitter z iv)
    (t : Tmpl ℝ) (Ao : AMat ℝ) (hK : MassKc K t Ao) (hG : Ao.Good) (hno : Ao.nrow = K.responsesOut.length) (reg : Reg ℝ) (bs : ℝ) (R : Ω → Nat → Derived ℝ)
    (hder : ∀ ω mc cm mm, 0 < mc → (out ω mc).mc = some (cm, mm) → K.derivedMc reg (some (.scalar z)) cm bs none = .ok (some (R ω mc)))
    (q j : Nat) (hq : q < 7) (hj : j < if q = 2 then Ao.nrow else 1) :
    ∃ cf : ({l : Fin K.responses.length // 0 < ent iv l} → ℝ) → Fin K.templates.nsed → ℝ,
      (∀ w (d c : List ℝ), d.length = K.responses.length → (∀ l : {l : Fin K.responses.length // 0 < ent iv l}, d[(l.1 : Nat)]? = some (w l)) →
        (Optimal K.toFitter z d (abIv K.abCls iv) c ↔ c = List.ofFn (cf w))) ∧
      ∀ mc, 0 < mc → ∃ X : Ω → Nat → ℝ, (∀ ω, ∀ k < mc, ∃ x, (R ω mc).keys[q]? = some x ∧ entry x j k = some (X ω k)) ∧
        PercentilesNear P mc X (fun s => (fluxLaw K.abCls K.responses.length m iv).real {w | ∃ E y v, K.derived reg (some (.scalar z)) (some (.vec (List.ofFn (cf w)))) bs none = .ok E ∧
          E.keys[q]? = some y ∧ y.flat[j]? = some v ∧ v ≤ s}) := by
  obtain ⟨W, cf, hW, hWl, c1, c2, c3, c4, c5, hc⟩ := sample_fits_one P noise hdev nnls hok K hr hnb A hR z m iv hml hivl hip out hfit hz hind
  refine ⟨cf, fun w d c h1 h2 => ⟨fun h => c5 w d h1 h2 c h, ?_⟩, ?_⟩
  · rintro rfl
    obtain ⟨d', h3, h4, h5⟩ := c4 w
    exact optimal_weighted K z iv hivl hip w d d' _ h1 h2 h3 h4 h5
  obtain ⟨y, hy, hval⟩ := derived_fn hK hG reg z bs q j (fun h => by rw [if_pos h, hno] at hj; exact hj)
  -- the values of one sample
  have cell : ∀ ω mc k, k < mc → ∃ E x u, K.derived reg (some (.scalar z)) (some (.vec (List.ofFn (cf (W k ω))))) bs none = .ok E ∧ E.keys[q]? = some u ∧
      u.flat[j]? = some (y (cf (W k ω))) ∧ (R ω mc).keys[q]? = some x ∧ entry x j k = some (y (cf (W k ω))) := by
    intro ω mc k hk
    obtain ⟨cm, mm, h1, h3, _, _, h2⟩ := hc ω mc (by omega)
    obtain ⟨R', E, e1, e2, e3⟩ := ((C82_one hK.tpl hK.mass hK.out reg z mc cm h3 bs).2 _ (hder ω mc _ _ (by omega) h1)).2 k hk
    cases e1
    rw [← column_ent, (h2 k hk).1] at e2
    obtain ⟨x, hx⟩ : ∃ x, (R ω mc).keys[q]? = some x := ⟨_, List.getElem?_eq_getElem (by simpa [Derived.keys] using hq)⟩
    obtain ⟨u, hu⟩ : ∃ u, E.keys[q]? = some u := ⟨_, List.getElem?_eq_getElem (by simpa [Derived.keys] using hq)⟩
    have e4 := flat_width hK hG reg z _ (by simp) bs E e2 q u hu
    obtain ⟨v, hv⟩ : ∃ v, u.flat[j]? = some v := ⟨_, List.getElem?_eq_getElem (by rw [e4]; exact hj)⟩
    have e6 := hval _ E u v e2 hu hv
    have e7 := (e3 q x u hx hu).2 j v (by rw [← flat_shape hK hG reg z _ (by simp) bs E e2 q u hu, e4]; exact hj) hv
    rw [real_f32] at e7
    rw [e6] at hv e7
    exact ⟨E, x, u, e2, hu, hv, hx, e7⟩
  have hP : IsProbabilityMeasure P := hdev.indep.isProbabilityMeasure
  obtain ⟨ω0⟩ : Nonempty Ω := nonempty_of_isProbabilityMeasure P
  have hset : ∀ s : ℝ, {w | ∃ E u v, K.derived reg (some (.scalar z)) (some (.vec (List.ofFn (cf w)))) bs none = .ok E ∧ E.keys[q]? = some u ∧ u.flat[j]? = some v ∧ v ≤ s} =
      {w | y (cf w) ≤ s} := by
    intro s
    obtain ⟨E0, _, u0, a1, a2, a3, _⟩ := cell ω0 1 0 one_pos
    have hall := (derived_returns hK reg z _ (by simp) bs).mp ⟨E0, a1⟩
    ext w
    simp only [Set.mem_ofPred_eq]
    constructor
    · rintro ⟨E, u, v, b1, b2, b3, b4⟩
      rw [← hval _ E u v b1 b2 b3]
      exact b4
    · intro hw
      obtain ⟨E, hE⟩ := (derived_returns hK reg z (List.ofFn (cf w)) (by simp) bs).mpr hall
      obtain ⟨u, hu⟩ : ∃ u, E.keys[q]? = some u := ⟨_, List.getElem?_eq_getElem (by simpa [Derived.keys] using hq)⟩
      have hlen : u.flat.length = (if q = 2 then Ao.nrow else 1) := flat_width hK hG reg z _ (by simp) bs E hE q u hu
      obtain ⟨v, hv⟩ : ∃ v, u.flat[j]? = some v := ⟨_, List.getElem?_eq_getElem (by rw [hlen]; exact hj)⟩
      exact ⟨E, u, v, hE, hu, hv, by rw [hval _ E u v hE hu hv]; exact hw⟩
  intro mc h0
  refine ⟨fun ω k => y (cf (W k ω)), fun ω k hk => ?_, percentiles_near h0 fun s => ?_⟩
  · obtain ⟨E, x, u, b1, b2, b3, b4, b5⟩ := cell ω mc k hk
    exact ⟨x, b4, b5⟩
  · rw [hset]
    exact fraction_finite hW hWl {w | y (cf w) ≤ s} ((hy.comp c1.measurable) measurableSet_Iic) mc h0 _ fun ω k hk => Iff.rfl

/-- C225 for the absolute magnitudes of a table of galaxies; samples without positive flux have -9999. -/
theorem C225_absmag {Ω : Type} [MeasurableSpace Ω] (P : Measure Ω) (noise : Ω → Nat → Nat → Nat → ℝ) (hdev : Deviates P noise) (nnls : Nnls ℝ) (hok : NNLSOK nnls)
    (K : Kc ℝ) (hr : AbReady K.abCls K.responses.length) (hnb : K.responses.length ≠ 1) (A Ao : AMat ℝ) (hR : Ready K.toFitter A) (hAo : K.AmatrixOut = some Ao) (hG : Ao.Good)
    (hn : Ao.nrow = K.responses.length) (him : K.imap.length = Ao.nrow) (hs : 0 < K.templates.nsed) (zs : List ℝ) (ms ivs : List (List ℝ)) (hl : zs.length ≠ 1)
    (hm : ms.length = zs.length) (hiv : ivs.length = zs.length) (hmr : ∀ r ∈ ms, r.length = K.responses.length) (hivr : ∀ r ∈ ivs, r.length = K.responses.length)
    (hpos : ∀ r ∈ ivs, ∀ v ∈ r, 0 ≤ v) (bs : ℝ) (dist : Option (List ℝ)) (hd : ∀ ds ∈ dist, ds.length = zs.length ∧ ∀ d ∈ ds, 0 < d) (out : Ω → Nat → FitOut ℝ)
    (hfit : ∀ ω mc, 0 < mc → K.toFitter.fitCoeffs nnls (some (.vec zs)) (some (.arr [zs.length] K.responses.length ms)) (some (.arr [zs.length] K.responses.length ivs)) mc
      (noise ω) = .ok (out ω mc))
    (x : Ω → Nat → NDA ℝ) (hx : ∀ ω mc cm mm, 0 < mc → (out ω mc).mc = some (cm, mm) →
      K.absmagMc mm (some (.arr [zs.length] K.responses.length ivs)) (some (.vec zs)) cm bs (dist.map .vec) false false = .ok (.one (x ω mc)))
    (g j : Nat) (z : ℝ) (m iv : List ℝ) (hg : zs[g]? = some z) (hgm : ms[g]? = some m) (hgi : ivs[g]? = some iv) (hz : InRange A.x z) (hind : Indep K.toFitter z iv)
    (q : {l : Fin K.responses.length // 0 < ent iv l}) (hj : K.imap[j]? = some (q.1 : Nat))
    (hflux : ∀ t < K.templates.nsed, ∃ a b fa fb, K.reconstruct (some (.scalar z)) (some (.vec (alone K.templates.nsed t))) 0 = .ok a ∧
      K.reconstructOut (some (.scalar 0)) (some (.vec (alone K.templates.nsed t))) bs = .ok b ∧ entry a 0 q.1 = some fa ∧ entry b 0 j = some fb ∧ 0 < fa ∧ 0 < fb) :
    ∃ κ : ({l : Fin K.responses.length // 0 < ent iv l} → ℝ) → ℝ,
      (∀ (w : {l : Fin K.responses.length // 0 < ent iv l} → ℝ) (d c : List ℝ), d.length = K.responses.length → (∀ l : {l : Fin K.responses.length // 0 < ent iv l}, d[(l.1 : Nat)]? = some (w l)) →
        Optimal K.toFitter z d (abIv K.abCls iv) c → ∃ kc, K.kcorrect (some (.scalar z)) (some (.vec c)) bs = .ok kc ∧ entry kc 0 j = some (κ w)) ∧
      (∀ w : {l : Fin K.responses.length // 0 < ent iv l} → ℝ, ∃ d c : List ℝ, d.length = K.responses.length ∧ (∀ l : {l : Fin K.responses.length // 0 < ent iv l}, d[(l.1 : Nat)]? = some (w l)) ∧
        Optimal K.toFitter z d (abIv K.abCls iv) c) ∧
      ∀ mc, 0 < mc → ∃ X : Ω → Nat → ℝ, (∀ ω, ∀ k < mc, entry (x ω mc) (g * K.responses.length + j) k = some (X ω k)) ∧
        PercentilesNear P mc X (fun s => (fluxLaw K.abCls K.responses.length m iv).real {w | (if 0 < w q then mag (w q) - κ w + (abOffset K.abCls q.1 - dmSpec K.distmod z (dist.map (fun ds => ent ds g))) else -9999) ≤ s}) := by
  obtain ⟨W, cf, c, mf, hW, hWl, c1, c2, c3, c4, c5, hc⟩ := sample_fits P noise hdev nnls hok K hr hnb A hR zs ms ivs hl hm hiv hmr hivr hpos out hfit g z m iv hg hgm hgi hz hind
  have hgl : g < zs.length := (List.getElem?_eq_some_iff.mp hg).1
  have hie : iv[(q.1 : Nat)]? = some (ent iv q.1) := by
    have h1 : (q.1 : Nat) < iv.length := by rw [hivr iv (List.mem_of_getElem? hgi)]; exact q.1.2
    rw [List.getElem?_eq_getElem h1, ent_some h1]
  obtain ⟨kf, _, k1, _, _, k4⟩ := kcorrect_fn K A Ao hR hAo z bs hz hs j q.1 hj hflux
  refine ⟨fun w => kf (cf w), ?_, fun w => ?_, fun mc h0 => ?_⟩
  · intro w d c h1 h2 h3
    rw [c5 w d h1 h2 c h3]
    exact k4 (cf w) (c2 w)
  · obtain ⟨d, h1, h2, h3⟩ := c4 w
    exact ⟨d, _, h1, h2, h3⟩
  have hmm : Measurable mag := by
    unfold mag Real.logb
    fun_prop
  have hκ : Measurable (fun w => kf (cf w)) := k1.comp c1.measurable
  have hM : Measurable (fun w : {l : Fin K.responses.length // 0 < ent iv l} → ℝ =>
      if 0 < w q then mag (w q) - kf (cf w) + (abOffset K.abCls q.1 - dmSpec K.distmod z (dist.map (fun ds => ent ds g))) else -9999) :=
    Measurable.ite (measurableSet_lt measurable_const (measurable_pi_apply q)) (((hmm.comp (measurable_pi_apply q)).sub hκ).add measurable_const) measurable_const
  have hP : IsProbabilityMeasure P := hdev.indep.isProbabilityMeasure
  refine ⟨fun ω k => (if 0 < (W k ω) q then mag ((W k ω) q) - kf (cf (W k ω)) + (abOffset K.abCls q.1 - dmSpec K.distmod z (dist.map (fun ds => ent ds g))) else -9999), fun ω k hkm => ?_, percentiles_near h0 fun s => ?_⟩
  · obtain ⟨h1, h2⟩ := hc ω mc (by omega)
    obtain ⟨kc, kv, b1, b2, _, b3⟩ := mc_entries K hr A Ao hR.set hAo hG hn him mc (mf ω mc) (c ω mc) zs (by intro h; rw [h] at hgl; simp at hgl) ivs hiv hivr bs dist hd (x ω mc)
      (hx ω mc _ _ (by omega) h1) g j q.1 z _ iv hg hgi hj hie q.2 k hkm
    obtain ⟨kc', d1, d2⟩ := k4 (cf (W k ω)) (c2 _)
    rw [(h2 k hkm).1, d1] at b1
    cases b1
    rw [d2] at b2
    rw [(h2 k hkm).2 q, ← Option.some.inj b2] at b3
    exact b3
  · exact fraction_finite hW hWl _ (hM measurableSet_Iic) mc h0 _ fun ω k hk => Iff.rfl

/-- C225 for the absolute magnitudes of one galaxy. -/
theorem C225_absmag_one {Ω : Type} [MeasurableSpace Ω] (P : Measure Ω) (noise : Ω → Nat → Nat → Nat → ℝ) (hdev : Deviates P noise) (nnls : Nnls ℝ) (hok : NNLSOK nnls)
    (K : Kc ℝ) (hr : AbReady K.abCls K.responses.length) (hnb : K.responses.length ≠ 1) (A Ao : AMat ℝ) (hR : Ready K.toFitter A) (hAo : K.AmatrixOut = some Ao) (hG : Ao.Good)
    (hn : Ao.nrow = K.responses.length) (him : K.imap.length = Ao.nrow) (hs : 0 < K.templates.nsed) (z : ℝ) (m iv : List ℝ)
    (hml : m.length = K.responses.length) (hivl : iv.length = K.responses.length) (hip : ∀ v ∈ iv, 0 ≤ v) (out : Ω → Nat → FitOut ℝ)
    (hfit : ∀ ω mc, 0 < mc → K.toFitter.fitCoeffs nnls (some (.scalar z)) (some (.vec m)) (some (.vec iv)) mc (noise ω) = .ok (out ω mc))
    (hz : InRange A.x z) (hind : Indep K.toFitter z iv)
    (bs : ℝ) (dist : Option ℝ) (hd : ∀ d ∈ dist, 0 < d) (x : Ω → Nat → NDA ℝ) (hx : ∀ ω mc cm mm, 0 < mc → (out ω mc).mc = some (cm, mm) →
      K.absmagMc mm (some (.vec iv)) (some (.scalar z)) cm bs (dist.map .scalar) false false = .ok (.one (x ω mc)))
    (j : Nat) (q : {l : Fin K.responses.length // 0 < ent iv l}) (hj : K.imap[j]? = some (q.1 : Nat))
    (hflux : ∀ t < K.templates.nsed, ∃ a b fa fb, K.reconstruct (some (.scalar z)) (some (.vec (alone K.templates.nsed t))) 0 = .ok a ∧
      K.reconstructOut (some (.scalar 0)) (some (.vec (alone K.templates.nsed t))) bs = .ok b ∧ entry a 0 q.1 = some fa ∧ entry b 0 j = some fb ∧ 0 < fa ∧ 0 < fb) :
    ∃ κ : ({l : Fin K.responses.length // 0 < ent iv l} → ℝ) → ℝ,
      (∀ (w : {l : Fin K.responses.length // 0 < ent iv l} → ℝ) (d c : List ℝ), d.length = K.responses.length → (∀ l : {l : Fin K.responses.length // 0 < ent iv l}, d[(l.1 : Nat)]? = some (w l)) →
        Optimal K.toFitter z d (abIv K.abCls iv) c → ∃ kc, K.kcorrect (some (.scalar z)) (some (.vec c)) bs = .ok kc ∧ entry kc 0 j = some (κ w)) ∧
      (∀ w : {l : Fin K.responses.length // 0 < ent iv l} → ℝ, ∃ d c : List ℝ, d.length = K.responses.length ∧ (∀ l : {l : Fin K.responses.length // 0 < ent iv l}, d[(l.1 : Nat)]? = some (w l)) ∧
        Optimal K.toFitter z d (abIv K.abCls iv) c) ∧
      ∀ mc, 0 < mc → ∃ X : Ω → Nat → ℝ, (∀ ω, ∀ k < mc, entry (x ω mc) j k = some (X ω k)) ∧
        PercentilesNear P mc X (fun s => (fluxLaw K.abCls K.responses.length m iv).real {w | (if 0 < w q then mag (w q) - κ w + (abOffset K.abCls q.1 - dmSpec K.distmod z dist) else -9999) ≤ s}) := by
  obtain ⟨W, cf, hW, hWl, c1, c2, c3, c4, c5, hc⟩ := sample_fits_one P noise hdev nnls hok K hr hnb A hR z m iv hml hivl hip out hfit hz hind
  have hie : iv[(q.1 : Nat)]? = some (ent iv q.1) := by
    have h1 : (q.1 : Nat) < iv.length := by rw [hivl]; exact q.1.2
    rw [List.getElem?_eq_getElem h1, ent_some h1]
  obtain ⟨kf, _, k1, _, _, k4⟩ := kcorrect_fn K A Ao hR hAo z bs hz hs j q.1 hj hflux
  refine ⟨fun w => kf (cf w), ?_, fun w => ?_, fun mc h0 => ?_⟩
  · intro w d c h1 h2 h3
    rw [c5 w d h1 h2 c h3]
    exact k4 (cf w) (c2 w)
  · obtain ⟨d, h1, h2, h3⟩ := c4 w
    exact ⟨d, _, h1, h2, h3⟩
  have hmm : Measurable mag := by
    unfold mag Real.logb
    fun_prop
  have hκ : Measurable (fun w => kf (cf w)) := k1.comp c1.measurable
  have hM : Measurable (fun w : {l : Fin K.responses.length // 0 < ent iv l} → ℝ =>
      if 0 < w q then mag (w q) - kf (cf w) + (abOffset K.abCls q.1 - dmSpec K.distmod z dist) else -9999) :=
    Measurable.ite (measurableSet_lt measurable_const (measurable_pi_apply q)) (((hmm.comp (measurable_pi_apply q)).sub hκ).add measurable_const) measurable_const
  have hP : IsProbabilityMeasure P := hdev.indep.isProbabilityMeasure
  refine ⟨fun ω k => (if 0 < (W k ω) q then mag ((W k ω) q) - kf (cf (W k ω)) + (abOffset K.abCls q.1 - dmSpec K.distmod z dist) else -9999), fun ω k hkm => ?_, percentiles_near h0 fun s => ?_⟩
  · obtain ⟨cm, mm, h1, h3, h4, _, h2⟩ := hc ω mc (by omega)
    obtain ⟨kc, kv, b1, b2, b3⟩ := mc_entries_one K hr A Ao hR.set hAo hG hn him mc mm cm h4 h3 z iv hivl bs dist hd (x ω mc) (hx ω mc _ _ (by omega) h1) j q.1 _ hj hie q.2 k hkm _ ((h2 k hkm).2 q)
    obtain ⟨kc', d1, d2⟩ := k4 (cf (W k ω)) (c2 _)
    rw [(h2 k hkm).1, d1] at b1
    cases b1
    rw [d2] at b2
    rw [← Option.some.inj b2] at b3
    exact b3
  · exact fraction_finite hW hWl _ (hM measurableSet_Iic) mc h0 _ fun ω k hk => Iff.rfl

/-- C225 for the coefficients of a galaxy of a table. -/
theorem C225_coeffs {Ω : Type} [MeasurableSpace Ω] (P : Measure Ω) (noise : Ω → Nat → Nat → Nat → ℝ) (hdev : Deviates P noise) (nnls : Nnls ℝ) (hok : NNLSOK nnls)
    (K : Kc ℝ) (hr : AbReady K.abCls K.responses.length) (hnb : K.responses.length ≠ 1) (A : AMat ℝ) (hR : Ready K.toFitter A)
    (zs : List ℝ) (ms ivs : List (List ℝ)) (hl : zs.length ≠ 1)
    (hm : ms.length = zs.length) (hiv : ivs.length = zs.length) (hmr : ∀ r ∈ ms, r.length = K.responses.length) (hivr : ∀ r ∈ ivs, r.length = K.responses.length)
    (hpos : ∀ r ∈ ivs, ∀ v ∈ r, 0 ≤ v) (out : Ω → Nat → FitOut ℝ)
    (hfit : ∀ ω mc, 0 < mc → K.toFitter.fitCoeffs nnls (some (.vec zs)) (some (.arr [zs.length] K.responses.length ms)) (some (.arr [zs.length] K.responses.length ivs)) mc
      (noise ω) = .ok (out ω mc))
    (g : Nat) (z : ℝ) (m iv : List ℝ) (hg : zs[g]? = some z) (hgm : ms[g]? = some m) (hgi : ivs[g]? = some iv) (hz : InRange A.x z) (hind : Indep K.toFitter z iv) :
    ∃ cf : ({l : Fin K.responses.length // 0 < ent iv l} → ℝ) → Fin K.templates.nsed → ℝ,
      (∀ w (d c : List ℝ), d.length = K.responses.length → (∀ l : {l : Fin K.responses.length // 0 < ent iv l}, d[(l.1 : Nat)]? = some (w l)) →
        (Optimal K.toFitter z d (abIv K.abCls iv) c ↔ c = List.ofFn (cf w))) ∧
      ∀ (t : Fin K.templates.nsed) (mc : Nat), 0 < mc → ∃ X : Ω → Nat → ℝ, (∀ ω, ∀ k < mc, ∃ cm mm, (out ω mc).mc = some (cm, mm) ∧ entry cm (g * K.templates.nsed + t) k = some (X ω k)) ∧
        PercentilesNear P mc X (fun s => (fluxLaw K.abCls K.responses.length m iv).real {w | cf w t ≤ s}) := by
  obtain ⟨W, cf, c, mf, hW, hWl, c1, c2, c3, c4, c5, hc⟩ := sample_fits P noise hdev nnls hok K hr hnb A hR zs ms ivs hl hm hiv hmr hivr hpos out hfit g z m iv hg hgm hgi hz hind
  have hgl : g < zs.length := (List.getElem?_eq_some_iff.mp hg).1
  have hip : ∀ v ∈ iv, 0 ≤ v := hpos iv (List.mem_of_getElem? hgi)
  refine ⟨cf, fun w d c h1 h2 => ⟨fun h => c5 w d h1 h2 c h, ?_⟩, fun t mc h0 => ?_⟩
  · rintro rfl
    obtain ⟨d', h3, h4, h5⟩ := c4 w
    exact optimal_weighted K z iv (hivr iv (List.mem_of_getElem? hgi)) hip w d d' _ h1 h2 h3 h4 h5
  · have hP : IsProbabilityMeasure P := hdev.indep.isProbabilityMeasure
    refine ⟨fun ω k => cf (W k ω) t, fun ω k hk => ?_, percentiles_near h0 fun s => ?_⟩
    · obtain ⟨h1, h2⟩ := hc ω mc h0
      have h3 := (h2 k hk).1
      have he : ∀ t : Fin K.templates.nsed, c ω mc g t k = cf (W k ω) t := by
        intro t
        have := congrArg (fun l : List ℝ => l[(t : Nat)]?) h3
        simpa using this
      have hent : ∀ t : Fin K.templates.nsed, entry (cubeOf zs.length K.templates.nsed mc (c ω mc)) (g * K.templates.nsed + t) k = some (cf (W k ω) t) :=
        fun t => by rw [cube_entry _ _ _ _ _ _ _ hgl t.2 hk, he]
      exact ⟨_, _, h1, hent t⟩
    · exact fraction_finite hW hWl {w | cf w t ≤ s} (((measurable_pi_apply t).comp c1.measurable) measurableSet_Iic) mc h0 _ fun ω k hk => Iff.rfl

/-- C225 for the coefficients of one galaxy. -/
theorem C225_one {Ω : Type} [MeasurableSpace Ω] (P : Measure Ω) (noise : Ω → Nat → Nat → Nat → ℝ) (hdev : Deviates P noise) (nnls : Nnls ℝ) (hok : NNLSOK nnls)
    (K : Kc ℝ) (hr : AbReady K.abCls K.responses.length) (hnb : K.responses.length ≠ 1) (A : AMat ℝ) (hR : Ready K.toFitter A) (z : ℝ) (m iv : List ℝ)
    (hml : m.length = K.responses.length) (hivl : iv.length = K.responses.length) (hip : ∀ v ∈ iv, 0 ≤ v) (out : Ω → Nat → FitOut ℝ)
    (hfit : ∀ ω mc, 0 < mc → K.toFitter.fitCoeffs nnls (some (.scalar z)) (some (.vec m)) (some (.vec iv)) mc (noise ω) = .ok (out ω mc))
    (hz : InRange A.x z) (hind : Indep K.toFitter z iv) :
    ∃ cf : ({l : Fin K.responses.length // 0 < ent iv l} → ℝ) → Fin K.templates.nsed → ℝ,
      (∀ w (d c : List ℝ), d.length = K.responses.length → (∀ l : {l : Fin K.responses.length // 0 < ent iv l}, d[(l.1 : Nat)]? = some (w l)) →
        (Optimal K.toFitter z d (abIv K.abCls iv) c ↔ c = List.ofFn (cf w))) ∧
      ∀ (t : Fin K.templates.nsed) (mc : Nat), 0 < mc → ∃ X : Ω → Nat → ℝ, (∀ ω, ∀ k < mc, ∃ cm mm, (out ω mc).mc = some (cm, mm) ∧ entry cm t k = some (X ω k)) ∧
        PercentilesNear P mc X (fun s => (fluxLaw K.abCls K.responses.length m iv).real {w | cf w t ≤ s}) := by
  obtain ⟨W, cf, hW, hWl, c1, c2, c3, c4, c5, hc⟩ := sample_fits_one P noise hdev nnls hok K hr hnb A hR z m iv hml hivl hip out hfit hz hind
  refine ⟨cf, fun w d c h1 h2 => ⟨fun h => c5 w d h1 h2 c h, ?_⟩, fun t mc h0 => ?_⟩
  · rintro rfl
    obtain ⟨d', h3, h4, h5⟩ := c4 w
    exact optimal_weighted K z iv hivl hip w d d' _ h1 h2 h3 h4 h5
  · have hP : IsProbabilityMeasure P := hdev.indep.isProbabilityMeasure
    refine ⟨fun ω k => cf (W k ω) t, fun ω k hk => ?_, percentiles_near h0 fun s => ?_⟩
    · obtain ⟨cm, mm, h1, _, _, h4, h2⟩ := hc ω mc h0
      have hent := one_entry h4 hk (h2 k hk).1
      exact ⟨_, _, h1, hent t⟩
    · exact fraction_finite hW hWl {w | cf w t ≤ s} (((measurable_pi_apply t).comp c1.measurable) measurableSet_Iic) mc h0 _ fun ω k hk => Iff.rfl

/-- any quantity is up to some value with probability 3/4 -/
theorem tail_value {E : Type} [MeasurableSpace E] (ν : Measure E) [IsProbabilityMeasure ν] (f : E → ℝ) : ∃ b, 3 / 4 ≤ ν.real {w | f w ≤ b} := by
  have hm : Monotone fun n : ℕ => {w | f w ≤ (n : ℝ)} := fun i j hij w (hw : f w ≤ i) => le_trans hw (by exact_mod_cast hij)
  have h := tendsto_measure_iUnion_atTop (μ := ν) hm
  have hu : ⋃ n : ℕ, {w | f w ≤ (n : ℝ)} = Set.univ := Set.eq_univ_of_forall fun w => Set.mem_iUnion.mpr (exists_nat_ge (f w))
  rw [hu, measure_univ] at h
  have h' := (ENNReal.tendsto_toReal ENNReal.one_ne_top).comp h
  obtain ⟨n, hn⟩ := (h'.eventually (lt_mem_nhds (show (3 / 4 : ℝ) < ENNReal.toReal 1 by norm_num))).exists
  exact ⟨n, hn.le⟩

/-- Not vacuous: the median of ten samples of a coefficient is between -1 and some `b` but for a probability of `4 exp (-2 / 10)`, for the second galaxy of `demo_both_draws` and for the galaxy
of `demo_one_draws`; and the samples of the stellar mass. -/
example (t : Fin 2) : ∃ (Ω : Type) (_ : MeasurableSpace Ω) (P : Measure Ω) (out out' : Ω → Nat → FitOut ℝ) (R R' : Ω → Nat → Derived ℝ) (X X' Y Y' : Ω → Nat → ℝ) (v v' : Ω → ℝ)
    (b b' : ℝ) (F F' : ℝ → ℝ), IsProbabilityMeasure P ∧
    (∀ ω, ∀ k < 10, ∃ cm mm, (out ω 10).mc = some (cm, mm) ∧ entry cm (1 * 2 + t) k = some (X ω k)) ∧ (∀ ω, Percentile 10 (X ω) (1 / 2) (v ω)) ∧
    P.real {ω | ¬ (-1 < v ω ∧ v ω ≤ b)} ≤ 4 * Real.exp (-2 * (10 : ℕ) * (1 / 10) ^ 2) ∧
    (∀ ω, ∀ k < 10, ∃ cm mm, (out' ω 10).mc = some (cm, mm) ∧ entry cm t k = some (X' ω k)) ∧ (∀ ω, Percentile 10 (X' ω) (1 / 2) (v' ω)) ∧
    P.real {ω | ¬ (-1 < v' ω ∧ v' ω ≤ b')} ≤ 4 * Real.exp (-2 * (10 : ℕ) * (1 / 10) ^ 2) ∧
    (∀ ω, ∀ k < 10, ∃ x, (R ω 10).keys[0]? = some x ∧ entry x (1 * 1 + 0) k = some (Y ω k)) ∧ PercentilesNear P 10 Y F ∧
    (∀ ω, ∀ k < 10, ∃ x, (R' ω 10).keys[0]? = some x ∧ entry x 0 k = some (Y' ω k)) ∧ PercentilesNear P 10 Y' F' := by
  have hdev := deviates_exist
  generalize (fun (ω : ℕ × ℕ × ℕ → ℝ) i k p => ω (i, k, p)) = noise at hdev
  generalize Measure.infinitePi (fun _ : ℕ × ℕ × ℕ => gaussianReal 0 1) = P at hdev
  have hP : IsProbabilityMeasure P := hdev.indep.isProbabilityMeasure
  have hin : InRange demoAm2.x 2 := by constructor <;> norm_num [demoAm2]
  have hip : ∀ v ∈ [(1 : ℝ), 1 / 2], 0 ≤ v := by simp
  obtain ⟨out, R, hout, hR⟩ := demo_both_draws noise
  obtain ⟨out', R', hout', hR'⟩ := demo_one_draws noise
  obtain ⟨cf, h1a, h1⟩ := C225_coeffs P noise hdev (lhNnls 0) C184_contract demoBoth trivial (by decide) demoAm2 demo_both_ready [2, 2] [[3, 3], [3, 3]] [[1, 1 / 2], [1, 1 / 2]] (by simp) rfl rfl
    demo_ms demo_ivs demo_ivs_pos out hout 1 2 [3, 3] [1, 1 / 2] rfl rfl rfl hin demo_both_indep
  obtain ⟨cf', h2a, h2⟩ := C225_one P noise hdev (lhNnls 0) C184_contract demoBoth trivial (by decide) demoAm2 demo_both_ready 2 [3, 3] [1, 1 / 2] rfl rfl hip out' hout' hin demo_both_indep
  obtain ⟨_, _, h3⟩ := C225_derived P noise hdev (lhNnls 0) C184_contract demoBoth trivial (by decide) demoAm2 demo_both_ready [2, 2] [[3, 3], [3, 3]] [[1, 1 / 2], [1, 1 / 2]] (by simp) rfl rfl
    demo_ms demo_ivs demo_ivs_pos out hout 1 2 [3, 3] [1, 1 / 2] rfl rfl rfl hin demo_both_indep demoTmpl demoAm2 demo_both_mass demo_ready.good rfl demoReg 0 R
    (fun ω mc cm mm a b => hR ω mc cm mm a b) 0 0 (by decide) (by decide)
  obtain ⟨_, _, h4⟩ := C225_derived_one P noise hdev (lhNnls 0) C184_contract demoBoth trivial (by decide) demoAm2 demo_both_ready 2 [3, 3] [1, 1 / 2] rfl rfl hip out' hout' hin
    demo_both_indep demoTmpl demoAm2 demo_both_mass demo_ready.good rfl demoReg 0 R' hR' 0 0 (by decide) (by decide)
  obtain ⟨Y, hY, hY2⟩ := h3 10 (by norm_num)
  obtain ⟨Y', hY', hY2'⟩ := h4 10 (by norm_num)
  -- coefficients are not negative
  have pos : ∀ cf : ({l : Fin demoBoth.responses.length // 0 < ent [(1 : ℝ), 1 / 2] l} → ℝ) → Fin demoBoth.templates.nsed → ℝ,
      (∀ w (d c : List ℝ), d.length = demoBoth.responses.length → (∀ l : {l : Fin demoBoth.responses.length // 0 < ent [(1 : ℝ), 1 / 2] l}, d[(l.1 : Nat)]? = some (w l)) →
        (Optimal demoBoth.toFitter 2 d (abIv demoBoth.abCls [1, 1 / 2]) c ↔ c = List.ofFn (cf w))) →
      ∀ t : Fin demoBoth.templates.nsed, (fluxLaw demoBoth.abCls demoBoth.responses.length [3, 3] [1, 1 / 2]).real {w | cf w t ≤ -1} = 0 := by
    intro cf h t
    have he : {w | cf w t ≤ -1} = ∅ := by
      refine Set.eq_empty_of_forall_notMem fun w hw => ?_
      have ho := (h w (List.ofFn fun l => if hl : 0 < ent [(1 : ℝ), 1 / 2] l then w ⟨l, hl⟩ else 0) _ (by simp) (fun l => by
        rw [List.getElem?_ofFn, dif_pos l.1.2, dif_pos l.2])).mpr rfl
      have h5 : 0 ≤ cf w t := ho.2.1 _ (List.mem_ofFn.mpr ⟨t, rfl⟩)
      have hw' : cf w t ≤ -1 := hw
      linarith
    rw [he, measureReal_empty]
  obtain ⟨X, hX, hX2⟩ := h1 t 10 (by norm_num)
  obtain ⟨X', hX', hX2'⟩ := h2 t 10 (by norm_num)
  obtain ⟨b, hb⟩ := tail_value (fluxLaw demoBoth.abCls demoBoth.responses.length [3, 3] [1, 1 / 2]) (fun w => cf w t)
  obtain ⟨b', hb'⟩ := tail_value (fluxLaw demoBoth.abCls demoBoth.responses.length [3, 3] [1, 1 / 2]) (fun w => cf' w t)
  choose v hv using fun ω => percentile_exists 10 (X ω) (1 / 2) (by norm_num) (by norm_num) (by norm_num)
  choose v' hv' using fun ω => percentile_exists 10 (X' ω) (1 / 2) (by norm_num) (by norm_num) (by norm_num)
  refine ⟨_, _, P, out, out', R, R', X, X', Y, Y', v, v', b, b', _, _, hP, hX, hv, hX2 (1 / 2) (-1) b (1 / 10) (by norm_num) (by norm_num) (by norm_num) ?_ ?_ v hv,
    hX', hv', hX2' (1 / 2) (-1) b' (1 / 10) (by norm_num) (by norm_num) (by norm_num) ?_ ?_ v' hv', hY, hY2, hY', hY2'⟩
  · refine le_trans (add_le_add_left (pos cf h1a t).le _) ?_; norm_num
  · refine le_trans ?_ hb; norm_num
  · refine le_trans (add_le_add_left (pos cf' h2a t).le _) ?_; norm_num
  · refine le_trans ?_ hb'; norm_num

/-- Not vacuous: absolute magnitudes in the second band. -/
example : ∃ (Ω : Type) (_ : MeasurableSpace Ω) (P : Measure Ω) (x y : Ω → Nat → NDA ℝ) (X Y : Ω → Nat → ℝ) (F G : ℝ → ℝ), IsProbabilityMeasure P ∧
    (∀ ω, ∀ k < 10, entry (x ω 10) (1 * 2 + 1) k = some (X ω k)) ∧ PercentilesNear P 10 X F ∧ (∀ ω, ∀ k < 10, entry (y ω 10) 1 k = some (Y ω k)) ∧ PercentilesNear P 10 Y G := by
  have hdev := deviates_exist
  generalize (fun (ω : ℕ × ℕ × ℕ → ℝ) i k p => ω (i, k, p)) = noise at hdev
  generalize Measure.infinitePi (fun _ : ℕ × ℕ × ℕ => gaussianReal 0 1) = P at hdev
  have hP : IsProbabilityMeasure P := hdev.indep.isProbabilityMeasure
  obtain ⟨_, hrd, hin, hind, _⟩ := demo_used
  obtain ⟨out, x, hout, hx⟩ := demo_draws noise
  obtain ⟨out', y, hout', hy⟩ := demo_one_mags noise
  obtain ⟨_, _, _, h⟩ := C225_absmag P noise hdev (lhNnls 0) C184_contract demoKc2 trivial (by decide) demoAm2 demoAm2 hrd rfl demo_ready.good rfl rfl (by decide) [2, 2] [[3, 3], [3, 3]]
    [[1, 1 / 2], [1, 1 / 2]] (by simp) rfl rfl demo_ms demo_ivs demo_ivs_pos 0 none (by simp) out hout x (fun ω mc cm mm h1 h2 => hx ω mc cm mm h1 h2) 1 1 2 [3, 3] [1, 1 / 2] rfl rfl rfl hin hind
    ⟨⟨1, by decide⟩, by simp [ent]⟩ rfl demo_alone_flux
  obtain ⟨_, _, _, h'⟩ := C225_absmag_one P noise hdev (lhNnls 0) C184_contract demoKc2 trivial (by decide) demoAm2 demoAm2 hrd rfl demo_ready.good rfl rfl (by decide) 2 [3, 3]
    [1, 1 / 2] rfl rfl (by simp) out' hout' hin hind 0 none (by simp) y (fun ω mc cm mm h1 h2 => hy ω mc cm mm h1 h2) 1 ⟨⟨1, by decide⟩, by simp [ent]⟩ rfl demo_alone_flux
  obtain ⟨X, hX, hX2⟩ := h 10 (by norm_num)
  obtain ⟨Y, hY, hY2⟩ := h' 10 (by norm_num)
  exact ⟨_, _, P, x, y, X, Y, _, _, hP, hX, hX2, hY, hY2⟩

end KC
