import Verif.Props.SampleLimit
import Verif.Props.Tables
import Verif.Props.CoeffMass

/-!
# The distribution of the Monte Carlo samples (C221)
-/

namespace KC
open Spec MeasureTheory ProbabilityTheory Filter Topology

/-- The fraction of the first `n` samples of which `S` is true. -/
noncomputable def Spec.fraction (n : Nat) (S : Nat → Prop) : ℝ := open Classical in (((Finset.range n).filter S).card : ℝ) / n

theorem fraction_congr {n : Nat} {S T : Nat → Prop} (h : ∀ k < n, S k ↔ T k) : fraction n S = fraction n T := by
  classical
  unfold fraction
  rw [Finset.filter_congr fun k hk => h k (Finset.mem_range.mp hk)]

/-- the fraction of draws in a measurable set tends to its probability -/
theorem fraction_limit {Ω E : Type} [MeasurableSpace Ω] [MeasurableSpace E] {P : Measure Ω} {ν : Measure E} [IsProbabilityMeasure ν] {W : ℕ → Ω → E} (hi : iIndepFun W P)
    (hl : ∀ k, HasLaw (W k) ν P) (B : Set E) (hB : MeasurableSet B) :
    ∀ᵐ ω ∂P, Tendsto (fun n => fraction n (fun k => W k ω ∈ B)) atTop (𝓝 (ν.real B)) := by
  classical
  have h := means_limit hi hl (B.indicator fun _ => (1 : ℝ)) (measurable_const.indicator hB) ((integrable_const 1).indicator hB)
  rw [integral_indicator hB, setIntegral_const, smul_eq_mul, mul_one] at h
  filter_upwards [h] with ω hω
  refine hω.congr fun n => ?_
  unfold fraction
  congr 1
  simp only [Set.indicator_apply]
  rw [Finset.sum_boole]

/-- what is optimal for some photometry is optimal for all with the same fluxes in the bands that enter the fit -/
theorem optimal_weighted (K : Kc ℝ) (z : ℝ) (iv : List ℝ) (hivl : iv.length = K.responses.length) (hip : ∀ v ∈ iv, 0 ≤ v) (w : {l : Fin K.responses.length // 0 < ent iv l} → ℝ)
    (d d' c : List ℝ) (h1 : d.length = K.responses.length) (h2 : ∀ l : {l : Fin K.responses.length // 0 < ent iv l}, d[(l.1 : Nat)]? = some (w l))
    (h3 : d'.length = K.responses.length) (h4 : ∀ l : {l : Fin K.responses.length // 0 < ent iv l}, d'[(l.1 : Nat)]? = some (w l))
    (h5 : Optimal K.toFitter z d' (abIv K.abCls iv) c) : Optimal K.toFitter z d (abIv K.abCls iv) c := by
  have hag : Agree iv d' d := by
    refine ⟨by rw [h3, h1], fun j v hj hv => ?_⟩
    have hjl : j < K.responses.length := by rw [← hivl]; exact (List.getElem?_eq_some_iff.mp hj).1
    have hp : 0 < ent iv j := by rw [ent_eq hj]; exact hv
    exact (h4 ⟨⟨j, hjl⟩, hp⟩).trans (h2 ⟨⟨j, hjl⟩, hp⟩).symm
  have hag' : Agree (abIv K.abCls iv) d' d := by
    refine ⟨hag.1, fun j v hj hv => ?_⟩
    rw [abIv_get] at hj
    obtain ⟨u, hu, e⟩ := Option.map_eq_some_iff.mp hj
    refine hag.2 j u hu ?_
    rw [← e] at hv
    exact (div_pos_iff_of_pos_right (pow_pos (abFactor_pos _ _) 2)).mp hv
  have h := agree_optimal hag' (abIv_nonneg _ _ hip) K.toFitter.plain z c
  rw [show K.toFitter.plain.abCls = .base from rfl, abM_base, abM_base, abIv_base, optimal_plain] at h
  exact h.mp h5

/-- C221: fit a table of galaxies with Monte Carlo samples drawn from independent standard normal deviates.  Where the bands that enter the fit of a galaxy tell the templates apart, the best fit
to fluxes `w` in these bands is `cf w`, and the fraction of samples with coefficients in a set tends, with probability one, to the probability that the best fit to fluxes of
`fluxLaw` is in the set. -/
theorem C221_coeffs {Ω : Type} [MeasurableSpace Ω] (P : Measure Ω) (noise : Ω → Nat → Nat → Nat → ℝ) (hdev : Deviates P noise) (nnls : Nnls ℝ) (hok : NNLSOK nnls)
    (K : Kc ℝ) (hr : AbReady K.abCls K.responses.length) (hnb : K.responses.length ≠ 1) (A : AMat ℝ) (hR : Ready K.toFitter A)
    (zs : List ℝ) (ms ivs : List (List ℝ)) (hl : zs.length ≠ 1)
    (hm : ms.length = zs.length) (hiv : ivs.length = zs.length) (hmr : ∀ r ∈ ms, r.length = K.responses.length) (hivr : ∀ r ∈ ivs, r.length = K.responses.length)
    (hpos : ∀ r ∈ ivs, ∀ v ∈ r, 0 ≤ v) (out : Ω → Nat → FitOut ℝ)
    (hfit : ∀ ω mc, 0 < mc → K.toFitter.fitCoeffs nnls (some (.vec zs)) (some (.arr [zs.length] K.responses.length ms)) (some (.arr [zs.length] K.responses.length ivs)) mc
      (noise ω) = .ok (out ω mc))
    (g : Nat) (z : ℝ) (m iv : List ℝ) (hg : zs[g]? = some z) (hgm : ms[g]? = some m) (hgi : ivs[g]? = some iv) (hz : InRange A.x z) (hind : Indep K.toFitter z iv) :
    ∃ cf : ({l : Fin K.responses.length // 0 < ent iv l} → ℝ) → Fin K.templates.nsed → ℝ,
      (∀ w (d c : List ℝ), d.length = K.responses.length → (∀ l : {l : Fin K.responses.length // 0 < ent iv l}, d[(l.1 : Nat)]? = some (w l)) →
        (Optimal K.toFitter z d (abIv K.abCls iv) c ↔ c = List.ofFn (cf w))) ∧
      (∀ B, MeasurableSet B → ∀ᵐ ω ∂P, Tendsto (fun mc => fraction mc (fun k => ∃ cm mm, (out ω mc).mc = some (cm, mm) ∧
          ∃ c ∈ B, ∀ t : Fin K.templates.nsed, entry cm (g * K.templates.nsed + t) k = some (c t))) atTop
        (𝓝 ((fluxLaw K.abCls K.responses.length m iv).real {w | cf w ∈ B}))) := by
  obtain ⟨W, cf, c, mf, hW, hWl, c1, c2, c3, c4, c5, hc⟩ := sample_fits P noise hdev nnls hok K hr hnb A hR zs ms ivs hl hm hiv hmr hivr hpos out hfit g z m iv hg hgm hgi hz hind
  have hgl : g < zs.length := (List.getElem?_eq_some_iff.mp hg).1
  have hip : ∀ v ∈ iv, 0 ≤ v := hpos iv (List.mem_of_getElem? hgi)
  refine ⟨cf, fun w d c h1 h2 => ⟨fun h => c5 w d h1 h2 c h, ?_⟩, fun B hB => ?_⟩
  · rintro rfl
    obtain ⟨d', h3, h4, h5⟩ := c4 w
    exact optimal_weighted K z iv (hivr iv (List.mem_of_getElem? hgi)) hip w d d' _ h1 h2 h3 h4 h5
  · filter_upwards [fraction_limit hW hWl {w | cf w ∈ B} (c1.measurable hB)] with ω hω
    refine hω.congr' ?_
    filter_upwards [eventually_gt_atTop 0] with mc h0
    refine fraction_congr fun k hk => ?_
    obtain ⟨h1, h2⟩ := hc ω mc h0
    have h3 := (h2 k hk).1
    have he : ∀ t : Fin K.templates.nsed, c ω mc g t k = cf (W k ω) t := by
      intro t
      have := congrArg (fun l : List ℝ => l[(t : Nat)]?) h3
      simpa using this
    have hent : ∀ t : Fin K.templates.nsed, entry (cubeOf zs.length K.templates.nsed mc (c ω mc)) (g * K.templates.nsed + t) k = some (cf (W k ω) t) :=
      fun t => by rw [cube_entry _ _ _ _ _ _ _ hgl t.2 hk, he]
    constructor
    · intro h
      exact ⟨_, _, h1, _, h, hent⟩
    · rintro ⟨cm, mm, e1, c', hB', e2⟩
      rw [h1] at e1
      cases e1
      have : c' = cf (W k ω) := by
        funext t
        have := e2 t
        rw [hent t] at this
        exact (Option.some.inj this).symm
      rw [this] at hB'
      exact hB'

/-- the entries of a table of derived quantities, galaxy by galaxy -/
theorem derived_cells {K : Kc ℝ} {t : Tmpl ℝ} {Ao : AMat ℝ} (h : MassKc K t Ao) (hG : Ao.Good) (reg : Reg ℝ) (zs : List ℝ) (cs : List (List ℝ)) (hcs : cs.length = zs.length)
    (hc : ∀ c ∈ cs, c.length = K.templates.nsed) (bs : ℝ) (D : Derived ℝ)
    (hD : K.derived reg (some (.vec zs)) (some (.arr [zs.length] K.templates.nsed cs)) bs none = .ok D) (i : Nat) (z : ℝ) (c : List ℝ)
    (hz : zs[i]? = some z) (hci : cs[i]? = some c) :
    ∃ E, K.derived reg (some (.scalar z)) (some (.vec c)) bs none = .ok E ∧ ∀ (q : Nat) x y, D.keys[q]? = some x → E.keys[q]? = some y →
      y.flat.length = (if q = 2 then Ao.nrow else 1) ∧ ∀ (j : Nat) v, y.flat[j]? = some v → i * y.flat.length + j < x.shape.prod ∧ x.flat[i * y.flat.length + j]? = some v := by
  obtain ⟨_, _, ds, hds, rfl⟩ := (derived_array h.tpl h.mass h.out reg zs cs hcs bs D).mp hD
  have hlen : ds.length = zs.length := by rw [← hds.length_eq, List.length_zip, hcs, min_self]
  have hrow : ∀ d ∈ ds, d.mtol.length = Ao.nrow := by
    intro d hd
    obtain ⟨n, hn, rfl⟩ := List.mem_iff_getElem.mp hd
    have hn' : n < (List.zip zs cs).length := by rw [hds.length_eq]; exact hn
    have hone := (List.forall₂_iff_get.mp hds).2 n hn' hn
    simp only [List.get_eq_getElem, List.getElem_zip] at hone
    rw [derOne_real] at hone
    have hn2 : n < cs.length := by rw [hcs, ← hlen]; exact hn
    have hE := derived_scalar h.tpl h.mass h.out reg zs[n] cs[n] (hc _ (List.getElem_mem _)) bs
    rw [hone] at hE
    obtain ⟨ss, f, _, _, hv⟩ := derived_vals h hG reg _ _ (hc _ (List.getElem_mem hn2)) bs _ hE
    obtain ⟨row, e1, e2, _⟩ := hv.mtol
    simp only [NDA.arr.injEq, true_and, List.cons.injEq, and_true] at e1
    rw [e1.2, e2, e1.1]
  have hzip : (List.zip zs cs)[i]? = some (z, c) := by rw [List.getElem?_zip_eq_some]; exact ⟨hz, hci⟩
  obtain ⟨hi, hie⟩ := List.getElem?_eq_some_iff.mp hzip
  have hi' : i < ds.length := by rw [← hds.length_eq]; exact hi
  have hone := (List.forall₂_iff_get.mp hds).2 i hi hi'
  simp only [List.get_eq_getElem, hie] at hone
  rw [derOne_real] at hone
  refine ⟨_, by rw [derived_scalar h.tpl h.mass h.out reg z c (hc c (List.mem_of_getElem? hci)), hone]; rfl, ?_⟩
  have sc : ∀ (f : Der1 ℝ → ℝ), (NDA.scalar (f ds[i])).flat.length = 1 ∧ ∀ (j : Nat) v, (NDA.scalar (f ds[i])).flat[j]? = some v →
      i * (NDA.scalar (f ds[i])).flat.length + j < (NDA.vec (ds.map f)).shape.prod ∧ (NDA.vec (ds.map f)).flat[i * (NDA.scalar (f ds[i])).flat.length + j]? = some v := by
    intro f
    refine ⟨rfl, fun j v hv => ?_⟩
    match j, hv with
    | 0, hv => 
      simp only [NDA.flat, List.getElem?_cons_zero, Option.some.injEq] at hv
      simp [NDA.flat, NDA.shape, NDA.vec, hi', hv]
    | n + 1, hv => simp [NDA.flat] at hv
  intro q x y hx hy
  match q, hx, hy with
  | 0, hx, hy => cases hx; cases hy; exact sc (·.mremain)
  | 1, hx, hy => cases hx; cases hy; exact sc (·.intsfh)
  | 2, hx, hy =>
    cases hx; cases hy
    have hl : ds[i].mtol.length = Ao.nrow := hrow _ (List.getElem_mem _)
    refine ⟨by simp [NDA.flat, hl], fun j v hv => ?_⟩
    simp only [NDA.flat, List.flatten_cons, List.flatten_nil, List.append_nil] at hv ⊢
    have hj : j < Ao.nrow := by rw [← hl]; exact (List.getElem?_eq_some_iff.mp hv).1
    rw [hl]
    constructor
    · simp only [NDA.shape, List.cons_append, List.nil_append, List.prod_cons, List.prod_nil, mul_one]
      calc i * Ao.nrow + j < i * Ao.nrow + Ao.nrow := by omega
        _ = (i + 1) * Ao.nrow := by ring
        _ ≤ zs.length * Ao.nrow := Nat.mul_le_mul_right _ (by omega)
    · rw [flatten_row Ao.nrow _ i j (by
        intro r hr
        obtain ⟨d, hd, rfl⟩ := List.mem_map.mp hr
        exact hrow d hd) hj]
      simp [hi', hv]
  | 3, hx, hy => cases hx; cases hy; exact sc (·.b50)
  | 4, hx, hy => cases hx; cases hy; exact sc (·.b300)
  | 5, hx, hy => cases hx; cases hy; exact sc (·.b1000)
  | 6, hx, hy => cases hx; cases hy; exact sc (·.metallicity)
  | n + 7, hx, hy => cases hx

/-- C82, tables galaxy by galaxy: sample `k` of galaxy `g` holds the values `derived` gives for this galaxy alone with the coefficients of the sample. -/
theorem C82_table {K : Kc ℝ} {t : Tmpl ℝ} {Ao : AMat ℝ} (h : MassKc K t Ao) (hG : Ao.Good) (reg : Reg ℝ) (zs : List ℝ) (mc : Nat) (coeffs : Nat → Nat → Nat → ℝ) (bs : ℝ)
    (R : Option (Derived ℝ)) (hR : K.derivedMc reg (some (.vec zs)) (cubeOf zs.length K.templates.nsed mc coeffs) bs none = .ok R)
    (g k : Nat) (z : ℝ) (hg : zs[g]? = some z) (hk : k < mc) :
    ∃ R' E, R = some R' ∧ K.derived reg (some (.scalar z)) (some (.vec ((List.range K.templates.nsed).map (fun t => coeffs g t k)))) bs none = .ok E ∧
      ∀ (q : Nat) x y, R'.keys[q]? = some x → E.keys[q]? = some y →
        y.flat.length = (if q = 2 then Ao.nrow else 1) ∧ ∀ (j : Nat) v, y.flat[j]? = some v → entry x (g * y.flat.length + j) k = some v := by
  obtain ⟨R', D, e1, e2, e3⟩ := ((C82_batch h.tpl h.mass h.out reg zs mc _ bs).2 R hR).2 k hk
  rw [cube_sample _ _ _ _ _ hk] at e2
  obtain ⟨E, d1, d2⟩ := derived_cells h hG reg zs _ (tableOf_length _ _ _) (tableOf_row _ _ _) bs D e2 g z _ hg (tableOf_get _ _ _ g (List.getElem?_eq_some_iff.mp hg).1)
  refine ⟨R', E, e1, d1, fun q x y hx hy => ?_⟩
  obtain ⟨w, hw⟩ : ∃ w, D.keys[q]? = some w := by
    have : q < E.keys.length := (List.getElem?_eq_some_iff.mp hy).1
    exact ⟨_, List.getElem?_eq_getElem (by simpa [Derived.keys] using this)⟩
  refine ⟨(d2 q w y hw hy).1, fun j v hv => ?_⟩
  obtain ⟨f1, f2⟩ := (d2 q w y hw hy).2 j v hv
  have := (e3 q x w hx hw).2 _ v f1 f2
  rwa [real_f32] at this

theorem total_ofFn : ∀ (n : Nat) (c : Fin n → ℝ) (v : List ℝ), total (List.ofFn c) v = ∑ t, c t * ent v t
  | 0, _, _ => by simp [total]
  | n + 1, c, [] => by simp [total, ent]
  | n + 1, c, a :: v => by
    have := total_ofFn n (fun t => c t.succ) v
    rw [Fin.sum_univ_succ, List.ofFn_succ]
    simp only [total] at this ⊢
    rw [List.zipWith_cons_cons, List.sum_cons, this]
    rfl

theorem total_measurable (n : Nat) (v : List ℝ) : Measurable (fun c : Fin n → ℝ => total (List.ofFn c) v) := by
  simp only [total_ofFn]
  fun_prop

/-- every derived quantity is a measurable function of the coefficients -/
theorem derived_fn {K : Kc ℝ} {t : Tmpl ℝ} {Ao : AMat ℝ} (h : MassKc K t Ao) (hG : Ao.Good) (reg : Reg ℝ) (z bs : ℝ) (q j : Nat) (hj : q = 2 → j < K.responsesOut.length) :
    ∃ y : (Fin K.templates.nsed → ℝ) → ℝ, Measurable y ∧ ∀ c E x v, K.derived reg (some (.scalar z)) (some (.vec (List.ofFn c))) bs none = .ok E → E.keys[q]? = some x →
      x.flat[j]? = some v → v = y c := by
  have hT := total_measurable K.templates.nsed
  have one : ∀ (y : (Fin K.templates.nsed → ℝ) → ℝ) (f : Derived ℝ → NDA ℝ), Measurable y → (∀ E : Derived ℝ, E.keys[q]? = some (f E)) →
      (∀ c E, (∃ ss fl, Vals t (K.distmod z) ss fl (List.ofFn c) E) → f E = .scalar (y c)) →
      ∃ y : (Fin K.templates.nsed → ℝ) → ℝ, Measurable y ∧ ∀ c E x v, K.derived reg (some (.scalar z)) (some (.vec (List.ofFn c))) bs none = .ok E → E.keys[q]? = some x →
        x.flat[j]? = some v → v = y c := by
    intro y f hy hf hv
    refine ⟨y, hy, fun c E x v hE hx hxv => ?_⟩
    obtain ⟨ss, fl, _, _, hV⟩ := derived_vals h hG reg z _ (by simp) bs E hE
    rw [hf E, hv c E ⟨ss, fl, hV⟩] at hx
    cases hx
    match j, hxv with
    | 0, hxv => simpa [NDA.flat] using hxv.symm
    | n + 1, hxv => simp [NDA.flat] at hxv
  have rat : ∀ a b : List ℝ, Measurable (fun c : Fin K.templates.nsed → ℝ => if 0 < total (List.ofFn c) t.mremain then total (List.ofFn c) a / total (List.ofFn c) b else 0) :=
    fun a b => Measurable.ite (measurableSet_lt measurable_const (hT _)) ((hT a).div (hT b)) measurable_const
  match q, hj with
  | 0, _ => exact one (fun c => total (List.ofFn c) t.mremain * lumFactor (K.distmod z)) (·.mremain) ((hT _).mul_const _) (fun _ => rfl) (fun c E ⟨_, _, hV⟩ => hV.mremain)
  | 1, _ => exact one (fun c => total (List.ofFn c) t.intsfh * lumFactor (K.distmod z)) (·.intsfh) ((hT _).mul_const _) (fun _ => rfl) (fun c E ⟨_, _, hV⟩ => hV.intsfh)
  | 2, hj =>
    by_cases hex : ∃ (c : Fin K.templates.nsed → ℝ) (E : Derived ℝ) (v : ℝ), K.derived reg (some (.scalar z)) (some (.vec (List.ofFn c))) bs none = .ok E ∧ E.mtol.flat[j]? = some v
    · obtain ⟨c0, E0, v0, hE0, hv0⟩ := hex
      obtain ⟨ss, f0, hs, hb0, hV0⟩ := derived_vals h hG reg z _ (by simp) bs E0 hE0
      obtain ⟨row0, r1, r2, _⟩ := hV0.mtol
      have hjf : j < f0.length := by
        rw [r1] at hv0
        simp only [NDA.flat, List.flatten_cons, List.flatten_nil, List.append_nil] at hv0
        rw [← r2]
        exact (List.getElem?_eq_some_iff.mp hv0).1
      obtain ⟨β, hβ⟩ := out_linear K Ao h.out bs (List.ofFn c0) (by simp) _ hb0 j f0[j] (by simp [entry, hjf])
      have hL : Measurable (fun c : Fin K.templates.nsed → ℝ => ∑ t, β t * c t) := by fun_prop
      refine ⟨fun c => if 0 < ∑ t, β t * c t then total (List.ofFn c) t.mremain / ((∑ t, β t * c t) * lumFactor (ent ss j)) else 0,
        Measurable.ite (measurableSet_lt measurable_const hL) ((hT _).div (hL.mul_const _)) measurable_const, fun c E x v hE hx hxv => ?_⟩
      obtain ⟨ss', f, hs', hb, hV⟩ := derived_vals h hG reg z _ (by simp) bs E hE
      have hss : ss' = ss := by
        have e1 := (solarMags_iff K reg _).mpr hs
        have e2 := (solarMags_iff K reg _).mpr hs'
        rw [e1] at e2
        exact (Except.ok.inj e2).symm
      subst hss
      obtain ⟨row, s1, s2, s3⟩ := hV.mtol
      change some E.mtol = some x at hx
      cases hx
      rw [s1] at hxv
      simp only [NDA.flat, List.flatten_cons, List.flatten_nil, List.append_nil] at hxv
      obtain ⟨b, hb1, hb2⟩ := hβ (List.ofFn c) (by simp)
      rw [hb] at hb1
      cases hb1
      simp only [entry, List.getElem?_cons_zero, Option.bind_some] at hb2
      have hjs : j < ss'.length := by rw [← List.Forall₂.length_eq hs]; exact hj rfl
      have h3 := s3 j (ent ss' j) _ (by rw [ent_some hjs]; exact List.getElem?_eq_getElem hjs) hb2
      rw [hxv] at h3
      have e : ∑ t, β t * ent (List.ofFn c) t = ∑ t, β t * c t := Finset.sum_congr rfl (fun t _ => by simp [ent])
      rw [e] at h3
      exact Option.some.inj h3
    · refine ⟨fun _ => 0, measurable_const, fun c E x v hE hx hxv => ?_⟩
      change some E.mtol = some x at hx
      cases hx
      exact absurd ⟨c, E, v, hE, hxv⟩ hex
  | 3, _ => exact one _ (·.b50) (rat t.m50 t.intsfh) (fun _ => rfl) (fun c E ⟨_, _, hV⟩ => hV.b50)
  | 4, _ => exact one _ (·.b300) (rat t.m300 t.intsfh) (fun _ => rfl) (fun c E ⟨_, _, hV⟩ => hV.b300)
  | 5, _ => exact one _ (·.b1000) (rat t.m1000 t.intsfh) (fun _ => rfl) (fun c E ⟨_, _, hV⟩ => hV.b1000)
  | 6, _ => exact one _ (·.metallicity) (rat _ t.mremain) (fun _ => rfl) (fun c E ⟨_, _, hV⟩ => hV.metallicity)
  | n + 7, _ =>
    refine ⟨fun _ => 0, measurable_const, fun c E x v hE hx hxv => ?_⟩
    cases hx

/-- the number of values of a derived quantity of one galaxy -/
theorem flat_width {K : Kc ℝ} {t : Tmpl ℝ} {Ao : AMat ℝ} (h : MassKc K t Ao) (hG : Ao.Good) (reg : Reg ℝ) (z : ℝ) (c : List ℝ) (hc : c.length = K.templates.nsed) (bs : ℝ) (E : Derived ℝ)
    (hE : K.derived reg (some (.scalar z)) (some (.vec c)) bs none = .ok E) (q : Nat) (u : NDA ℝ) (hu : E.keys[q]? = some u) : u.flat.length = if q = 2 then Ao.nrow else 1 := by
  obtain ⟨ss, f, _, _, hv⟩ := derived_vals h hG reg z c hc bs E hE
  obtain ⟨row, e1, e2, _⟩ := hv.mtol
  rw [derived_scalar h.tpl h.mass h.out reg z c hc] at hE
  cases hd : derOne K reg t Ao id id bs (K.distmod (f32 z)) (c.map f32) with
  | error e => rw [hd] at hE; cases hE
  | ok d =>
  rw [hd] at hE
  cases hE
  simp only [NDA.arr.injEq, true_and, List.cons.injEq, and_true] at e1
  match q, hu with
  | 0, hu => cases hu; rfl
  | 1, hu => cases hu; rfl
  | 2, hu =>
    cases hu
    simp only [NDA.flat, List.flatten_cons, List.flatten_nil, List.append_nil, if_true]
    rw [e1.2, e2, e1.1]
  | 3, hu => cases hu; rfl
  | 4, hu => cases hu; rfl
  | 5, hu => cases hu; rfl
  | 6, hu => cases hu; rfl
  | n + 7, hu => cases hu

/-- C221 for the derived quantities: stellar mass (key 0), integrated star formation (1), mass-to-light ratios (2), star-formation fractions (3, 4, 5) and metallicity (6).  The
fraction of samples in which a quantity is at most `s` tends, with probability one, to the probability that it is for the best fit to fluxes of `fluxLaw`. -/
theorem C221_derived {Ω : Type} [MeasurableSpace Ω] (P : Measure Ω) (noise : Ω → Nat → Nat → Nat → ℝ) (hdev : Deviates P noise) (nnls : Nnls ℝ) (hok : NNLSOK nnls)
    (K : Kc ℝ) (hr : AbReady K.abCls K.responses.length) (hnb : K.responses.length ≠ 1) (A : AMat ℝ) (hR : Ready K.toFitter A)
    (zs : List ℝ) (ms ivs : List (List ℝ)) (hl : zs.length ≠ 1)
    (hm : ms.length = zs.length) (hiv : ivs.length = zs.length) (hmr : ∀ r ∈ ms, r.length = K.responses.length) (hivr : ∀ r ∈ ivs, r.length = K.responses.length)
    (hpos : ∀ r ∈ ivs, ∀ v ∈ r, 0 ≤ v) (out : Ω → Nat → FitOut ℝ)
    (hfit : ∀ ω mc, 0 < mc → K.toFitter.fitCoeffs nnls (some (.vec zs)) (some (.arr [zs.length] K.responses.length ms)) (some (.arr [zs.length] K.responses.length ivs)) mc
      (noise ω) = .ok (out ω mc))
    (g : Nat) (z : ℝ) (m iv : List ℝ) (hg : zs[g]? = some z) (hgm : ms[g]? = some m) (hgi : ivs[g]? = some iv) (hz : InRange A.x z) (hind : Indep K.toFitter z iv)
    (t : Tmpl ℝ) (Ao : AMat ℝ) (hK : MassKc K t Ao) (hG : Ao.Good) (hno : Ao.nrow = K.responsesOut.length) (reg : Reg ℝ) (bs : ℝ) (R : Ω → Nat → Derived ℝ)
    (hder : ∀ ω mc cm mm, 0 < mc → (out ω mc).mc = some (cm, mm) → K.derivedMc reg (some (.vec zs)) cm bs none = .ok (some (R ω mc)))
    (q j : Nat) (hq : q < 7) (hj : j < if q = 2 then Ao.nrow else 1) (s : ℝ) :
    ∃ cf : ({l : Fin K.responses.length // 0 < ent iv l} → ℝ) → Fin K.templates.nsed → ℝ,
      (∀ w (d c : List ℝ), d.length = K.responses.length → (∀ l : {l : Fin K.responses.length // 0 < ent iv l}, d[(l.1 : Nat)]? = some (w l)) →
        (Optimal K.toFitter z d (abIv K.abCls iv) c ↔ c = List.ofFn (cf w))) ∧
      ∀ᵐ ω ∂P, Tendsto (fun mc => fraction mc (fun k => ∃ x v, (R ω mc).keys[q]? = some x ∧ entry x (g * (if q = 2 then Ao.nrow else 1) + j) k = some v ∧ v ≤ s)) atTop
        (𝓝 ((fluxLaw K.abCls K.responses.length m iv).real {w | ∃ E y v, K.derived reg (some (.scalar z)) (some (.vec (List.ofFn (cf w)))) bs none = .ok E ∧
          E.keys[q]? = some y ∧ y.flat[j]? = some v ∧ v ≤ s})) := by
  obtain ⟨W, cf, c, mf, hW, hWl, c1, c2, c3, c4, c5, hc⟩ := sample_fits P noise hdev nnls hok K hr hnb A hR zs ms ivs hl hm hiv hmr hivr hpos out hfit g z m iv hg hgm hgi hz hind
  have hip : ∀ v ∈ iv, 0 ≤ v := hpos iv (List.mem_of_getElem? hgi)
  refine ⟨cf, fun w d c h1 h2 => ⟨fun h => c5 w d h1 h2 c h, ?_⟩, ?_⟩
  · rintro rfl
    obtain ⟨d', h3, h4, h5⟩ := c4 w
    exact optimal_weighted K z iv (hivr iv (List.mem_of_getElem? hgi)) hip w d d' _ h1 h2 h3 h4 h5
  obtain ⟨y, hy, hval⟩ := derived_fn hK hG reg z bs q j (fun h => by rw [if_pos h, hno] at hj; exact hj)
  -- the values of one sample
  have cell : ∀ ω mc k, k < mc → ∃ E x u, K.derived reg (some (.scalar z)) (some (.vec (List.ofFn (cf (W k ω))))) bs none = .ok E ∧ E.keys[q]? = some u ∧
      u.flat[j]? = some (y (cf (W k ω))) ∧ (R ω mc).keys[q]? = some x ∧ entry x (g * (if q = 2 then Ao.nrow else 1) + j) k = some (y (cf (W k ω))) := by
    intro ω mc k hk
    obtain ⟨h1, h2⟩ := hc ω mc (by omega)
    obtain ⟨R', E, e1, e2, e3⟩ := C82_table hK hG reg zs mc (c ω mc) bs _ (hder ω mc _ _ (by omega) h1) g k z hg hk
    cases e1
    rw [(h2 k hk).1] at e2
    obtain ⟨x, hx⟩ : ∃ x, (R ω mc).keys[q]? = some x := ⟨_, List.getElem?_eq_getElem (by simpa [Derived.keys] using hq)⟩
    obtain ⟨u, hu⟩ : ∃ u, E.keys[q]? = some u := ⟨_, List.getElem?_eq_getElem (by simpa [Derived.keys] using hq)⟩
    obtain ⟨e4, e5⟩ := e3 q x u hx hu
    obtain ⟨v, hv⟩ : ∃ v, u.flat[j]? = some v := ⟨_, List.getElem?_eq_getElem (by rw [e4]; exact hj)⟩
    have e6 := hval _ E u v e2 hu hv
    have e7 := e5 j v hv
    rw [e4] at e7
    rw [e6] at hv e7
    exact ⟨E, x, u, e2, hu, hv, hx, e7⟩
  have hP : IsProbabilityMeasure P := hdev.indep.isProbabilityMeasure
  obtain ⟨ω0⟩ : Nonempty Ω := nonempty_of_isProbabilityMeasure P
  have hset : {w | ∃ E u v, K.derived reg (some (.scalar z)) (some (.vec (List.ofFn (cf w)))) bs none = .ok E ∧ E.keys[q]? = some u ∧ u.flat[j]? = some v ∧ v ≤ s} =
      {w | y (cf w) ≤ s} := by
    obtain ⟨E0, _, u0, a1, a2, a3, _⟩ := cell ω0 1 0 one_pos
    have hall := (derived_returns hK reg z _ (by simp) bs).mp ⟨E0, a1⟩
    ext w
    simp only [Set.mem_ofPred_eq]
    constructor
    · rintro ⟨E, u, v, b1, b2, b3, b4⟩
      rw [← hval _ E u v b1 b2 b3]
      exact b4
    · intro hw
      obtain ⟨E, hE⟩ := (derived_returns hK reg z (List.ofFn (cf w)) (by simp) bs).mpr hall
      obtain ⟨u, hu⟩ : ∃ u, E.keys[q]? = some u := ⟨_, List.getElem?_eq_getElem (by simpa [Derived.keys] using hq)⟩
      have hlen : u.flat.length = (if q = 2 then Ao.nrow else 1) := flat_width hK hG reg z _ (by simp) bs E hE q u hu
      obtain ⟨v, hv⟩ : ∃ v, u.flat[j]? = some v := ⟨_, List.getElem?_eq_getElem (by rw [hlen]; exact hj)⟩
      exact ⟨E, u, v, hE, hu, hv, by rw [hval _ E u v hE hu hv]; exact hw⟩
  rw [hset]
  filter_upwards [fraction_limit hW hWl {w | y (cf w) ≤ s} ((hy.comp c1.measurable) measurableSet_Iic)] with ω hω
  refine hω.congr fun mc => ?_
  refine fraction_congr fun k hk => ?_
  obtain ⟨E, x, u, b1, b2, b3, b4, b5⟩ := cell ω mc k hk
  constructor
  · intro h
    exact ⟨x, _, b4, b5, h⟩
  · rintro ⟨x', v', d1, d2, d3⟩
    rw [b4] at d1
    cases d1
    rw [b5] at d2
    cases d2
    exact d3

/-- C221 for the absolute magnitudes: the fraction of samples whose absolute magnitude is in a set tends, with probability one, to the probability that the absolute magnitude of fluxes of
`fluxLaw` is, K-corrected with their best fit; samples without positive flux have -9999. -/
theorem C221_absmag {Ω : Type} [MeasurableSpace Ω] (P : Measure Ω) (noise : Ω → Nat → Nat → Nat → ℝ) (hdev : Deviates P noise) (nnls : Nnls ℝ) (hok : NNLSOK nnls)
    (K : Kc ℝ) (hr : AbReady K.abCls K.responses.length) (hnb : K.responses.length ≠ 1) (A Ao : AMat ℝ) (hR : Ready K.toFitter A) (hAo : K.AmatrixOut = some Ao) (hG : Ao.Good)
    (hn : Ao.nrow = K.responses.length) (him : K.imap.length = Ao.nrow) (hs : 0 < K.templates.nsed) (zs : List ℝ) (ms ivs : List (List ℝ)) (hl : zs.length ≠ 1)
    (hm : ms.length = zs.length) (hiv : ivs.length = zs.length) (hmr : ∀ r ∈ ms, r.length = K.responses.length) (hivr : ∀ r ∈ ivs, r.length = K.responses.length)
    (hpos : ∀ r ∈ ivs, ∀ v ∈ r, 0 ≤ v) (bs : ℝ) (dist : Option (List ℝ)) (hd : ∀ ds ∈ dist, ds.length = zs.length ∧ ∀ d ∈ ds, 0 < d) (out : Ω → Nat → FitOut ℝ)
    (hfit : ∀ ω mc, 0 < mc → K.toFitter.fitCoeffs nnls (some (.vec zs)) (some (.arr [zs.length] K.responses.length ms)) (some (.arr [zs.length] K.responses.length ivs)) mc
      (noise ω) = .ok (out ω mc))
    (x : Ω → Nat → NDA ℝ) (hx : ∀ ω mc cm mm, 0 < mc → (out ω mc).mc = some (cm, mm) →
      K.absmagMc mm (some (.arr [zs.length] K.responses.length ivs)) (some (.vec zs)) cm bs (dist.map .vec) false false = .ok (.one (x ω mc)))
    (g j : Nat) (z : ℝ) (m iv : List ℝ) (hg : zs[g]? = some z) (hgm : ms[g]? = some m) (hgi : ivs[g]? = some iv) (hz : InRange A.x z) (hind : Indep K.toFitter z iv)
    (q : {l : Fin K.responses.length // 0 < ent iv l}) (hj : K.imap[j]? = some (q.1 : Nat))
    (hflux : ∀ t < K.templates.nsed, ∃ a b fa fb, K.reconstruct (some (.scalar z)) (some (.vec (alone K.templates.nsed t))) 0 = .ok a ∧
      K.reconstructOut (some (.scalar 0)) (some (.vec (alone K.templates.nsed t))) bs = .ok b ∧ entry a 0 q.1 = some fa ∧ entry b 0 j = some fb ∧ 0 < fa ∧ 0 < fb) :
    ∃ κ : ({l : Fin K.responses.length // 0 < ent iv l} → ℝ) → ℝ,
      (∀ (w : {l : Fin K.responses.length // 0 < ent iv l} → ℝ) (d c : List ℝ), d.length = K.responses.length → (∀ l : {l : Fin K.responses.length // 0 < ent iv l}, d[(l.1 : Nat)]? = some (w l)) →
        Optimal K.toFitter z d (abIv K.abCls iv) c → ∃ kc, K.kcorrect (some (.scalar z)) (some (.vec c)) bs = .ok kc ∧ entry kc 0 j = some (κ w)) ∧
      (∀ w : {l : Fin K.responses.length // 0 < ent iv l} → ℝ, ∃ d c : List ℝ, d.length = K.responses.length ∧ (∀ l : {l : Fin K.responses.length // 0 < ent iv l}, d[(l.1 : Nat)]? = some (w l)) ∧
        Optimal K.toFitter z d (abIv K.abCls iv) c) ∧
      ∀ B, MeasurableSet B → ∀ᵐ ω ∂P, Tendsto (fun mc => fraction mc (fun k => ∃ v ∈ B, entry (x ω mc) (g * K.responses.length + j) k = some v)) atTop
        (𝓝 ((fluxLaw K.abCls K.responses.length m iv).real {w | (if 0 < w q then mag (w q) - κ w + (abOffset K.abCls q.1 - dmSpec K.distmod z (dist.map (fun ds => ent ds g))) else -9999) ∈ B})) := by
  obtain ⟨W, cf, c, mf, hW, hWl, c1, c2, c3, c4, c5, hc⟩ := sample_fits P noise hdev nnls hok K hr hnb A hR zs ms ivs hl hm hiv hmr hivr hpos out hfit g z m iv hg hgm hgi hz hind
  have hgl : g < zs.length := (List.getElem?_eq_some_iff.mp hg).1
  have hie : iv[(q.1 : Nat)]? = some (ent iv q.1) := by
    have h1 : (q.1 : Nat) < iv.length := by rw [hivr iv (List.mem_of_getElem? hgi)]; exact q.1.2
    rw [List.getElem?_eq_getElem h1, ent_some h1]
  obtain ⟨kf, _, k1, _, _, k4⟩ := kcorrect_fn K A Ao hR hAo z bs hz hs j q.1 hj hflux
  refine ⟨fun w => kf (cf w), ?_, fun w => ?_, fun B hB => ?_⟩
  · intro w d c h1 h2 h3
    rw [c5 w d h1 h2 c h3]
    exact k4 (cf w) (c2 w)
  · obtain ⟨d, h1, h2, h3⟩ := c4 w
    exact ⟨d, _, h1, h2, h3⟩
  have hmm : Measurable mag := by
    unfold mag Real.logb
    fun_prop
  have hκ : Measurable (fun w => kf (cf w)) := k1.comp c1.measurable
  have hM : Measurable (fun w : {l : Fin K.responses.length // 0 < ent iv l} → ℝ =>
      if 0 < w q then mag (w q) - kf (cf w) + (abOffset K.abCls q.1 - dmSpec K.distmod z (dist.map (fun ds => ent ds g))) else -9999) :=
    Measurable.ite (measurableSet_lt measurable_const (measurable_pi_apply q)) (((hmm.comp (measurable_pi_apply q)).sub hκ).add measurable_const) measurable_const
  filter_upwards [fraction_limit hW hWl _ (hM hB)] with ω hω
  refine hω.congr fun mc => ?_
  refine fraction_congr fun k hkm => ?_
  obtain ⟨h1, h2⟩ := hc ω mc (by omega)
  obtain ⟨kc, kv, b1, b2, _, b3⟩ := mc_entries K hr A Ao hR.set hAo hG hn him mc (mf ω mc) (c ω mc) zs (by intro h; rw [h] at hgl; simp at hgl) ivs hiv hivr bs dist hd (x ω mc)
    (hx ω mc _ _ (by omega) h1) g j q.1 z _ iv hg hgi hj hie q.2 k hkm
  obtain ⟨kc', d1, d2⟩ := k4 (cf (W k ω)) (c2 _)
  rw [(h2 k hkm).1, d1] at b1
  cases b1
  rw [d2] at b2
  rw [(h2 k hkm).2 q, ← Option.some.inj b2] at b3
  constructor
  · intro h
    exact ⟨_, h, b3⟩
  · rintro ⟨v, h, e⟩
    rw [b3] at e
    cases e
    exact h

/-- Not vacuous: the second galaxy of `demo_draws` in the second band, fainter than absolute magnitude 0. -/
example : ∃ (Ω : Type) (_ : MeasurableSpace Ω) (P : Measure Ω) (x : Ω → Nat → NDA ℝ) (L : ℝ), IsProbabilityMeasure P ∧
    ∀ᵐ ω ∂P, Tendsto (fun mc => fraction mc (fun k => ∃ v ∈ Set.Ioi 0, entry (x ω mc) (1 * 2 + 1) k = some v)) atTop (𝓝 L) := by
  have hdev := deviates_exist
  generalize (fun (ω : ℕ × ℕ × ℕ → ℝ) i k p => ω (i, k, p)) = noise at hdev
  generalize Measure.infinitePi (fun _ : ℕ × ℕ × ℕ => gaussianReal 0 1) = P at hdev
  have hP : IsProbabilityMeasure P := hdev.indep.isProbabilityMeasure
  obtain ⟨_, hrd, hin, hind, _⟩ := demo_used
  obtain ⟨out, x, hout, hx⟩ := demo_draws noise
  obtain ⟨κ, _, _, h⟩ := C221_absmag P noise hdev (lhNnls 0) C184_contract demoKc2 trivial (by decide) demoAm2 demoAm2 hrd rfl demo_ready.good rfl rfl (by decide) [2, 2] [[3, 3], [3, 3]]
    [[1, 1 / 2], [1, 1 / 2]] (by simp) rfl rfl demo_ms demo_ivs demo_ivs_pos 0 none (by simp) out hout x (fun ω mc cm mm h1 h2 => hx ω mc cm mm h1 h2) 1 1 2 [3, 3] [1, 1 / 2] rfl rfl rfl hin hind
    ⟨⟨1, by decide⟩, by simp [ent]⟩ rfl demo_alone_flux
  exact ⟨_, _, P, x, _, hP, h _ measurableSet_Ioi⟩

/-- the derived quantities of two galaxies at redshift 2 -/
theorem demo_table (cs : List (List ℝ)) (hcs : cs.length = 2) : ∃ D, demoBoth.derived demoReg (some (.vec [2, 2])) (some (.arr [2] 2 cs)) 0 none = .ok D := by
  have hK : MassKc demoBoth demoTmpl demoAm2 := ⟨rfl, ⟨rfl, rfl, rfl, rfl, rfl, rfl⟩, rfl⟩
  have h0 : demoAm2.at 0 = .ok [[1, 2], [3, 1]] := at_node (k := 0) demo_ready.good (by simp [demoAm2])
  have hs : SolarMags demoBoth demoReg [4, 4] := .cons ⟨⟨none, none, none, none, some 4, none, none⟩, by simp [demoReg], rfl⟩
    (.cons ⟨⟨none, none, none, none, some 4, none, none⟩, by simp [demoReg], rfl⟩ .nil)
  have hs' := (solarMags_iff demoBoth demoReg _).mpr hs
  have e : shiftOf (f32 (lit 0)) (0 : ℝ) = 0 := by simp [shiftOf_real]
  refine ⟨_, (derived_array hK.tpl hK.mass hK.out demoReg [2, 2] cs hcs 0 _).mpr ⟨rfl, ⟨_, hs'⟩, (List.zip [2, 2] cs).map (fun p =>
    derVals demoTmpl f32 (fun x => x * lit 1) 0 (demoBoth.distmod (f32 p.1)) [[1, 2], [3, 1]] [4, 4] (p.2.map f32)), ?_, rfl⟩⟩
  rw [List.forall₂_map_right_iff, List.forall₂_same]
  intro p _
  unfold derOne
  rw [e, h0, hs']
  rfl

theorem demo_both_indep : Spec.Indep demoBoth.toFitter 2 [1, 1 / 2] := by
  intro x r hl hr hz
  obtain ⟨p, q, rfl⟩ : ∃ p q, x = [p, q] := by
    match x, hl with
    | [p, q], _ => exact ⟨p, q, rfl⟩
  have hr' : demoBoth.reconstruct (some (.scalar 2)) (some (.vec [p, q])) 0 = .ok (.vec (reconRow 0 [[1, 2], [3 / 2, 3 / 2]] [p, q])) := by
    refine (recon_real demoBoth.toFitter demoAm2 2 [p, q] 0 rfl).trans ?_
    rw [show ((1 : ℝ) + 2) * (1 + 0) - 1 = 2 by norm_num, demoAm2_at2]
    rfl
  rw [hr] at hr'
  simp only [Except.ok.injEq, NDA.vec, NDA.arr.injEq, List.cons.injEq, and_true] at hr'
  obtain rfl := hr'.2.2
  have z1 := hz 0 1 rfl (by norm_num)
  have z2 := hz 1 (1 / 2) rfl (by norm_num)
  simp [reconRow, dot, sumL_real] at z1 z2
  have e1 : p = 0 := by linarith
  have e2 : q = 0 := by linarith
  simp [e1, e2]

theorem demo_both_ready : Ready demoBoth.toFitter demoAm2 := ⟨rfl, demo_ready.good, rfl, rfl⟩

theorem demo_both_mass : MassKc demoBoth demoTmpl demoAm2 := ⟨rfl, ⟨rfl, rfl, rfl, rfl, rfl, rfl⟩, rfl⟩

/-- fits of two galaxies at redshift 2 with Monte Carlo samples, and the derived quantities of the samples -/
theorem demo_both_draws {Ω : Type} (noise : Ω → Nat → Nat → Nat → ℝ) : ∃ (out : Ω → Nat → FitOut ℝ) (R : Ω → Nat → Derived ℝ),
    (∀ ω mc, 0 < mc → demoBoth.toFitter.fitCoeffs (lhNnls 0) (some (.vec [2, 2])) (some (.arr [2] 2 [[3, 3], [3, 3]])) (some (.arr [2] 2 [[1, 1 / 2], [1, 1 / 2]])) mc
      (noise ω) = .ok (out ω mc)) ∧
    ∀ ω mc cm mm, 0 < mc → (out ω mc).mc = some (cm, mm) → demoBoth.derivedMc demoReg (some (.vec [2, 2])) cm 0 none = .ok (some (R ω mc)) := by
  have hlen : NnlsLen (lhNnls 0) := C184_contract.len
  have hin : InRange demoAm2.x 2 := by constructor <;> norm_num [demoAm2]
  have hrd := demo_both_ready
  have hK := demo_both_mass
  have hmr : ∀ r ∈ [[(3 : ℝ), 3], [3, 3]], r.length = demoBoth.responses.length := demo_ms
  have hivr : ∀ r ∈ [[(1 : ℝ), 1 / 2], [1, 1 / 2]], r.length = demoBoth.responses.length := demo_ivs
  have hpos := demo_ivs_pos
  have hf : ∀ ω mc, ∃ out, 0 < mc → demoBoth.toFitter.fitCoeffs (lhNnls 0) (some (.vec [2, 2])) (some (.arr [2] 2 [[3, 3], [3, 3]])) (some (.arr [2] 2 [[1, 1 / 2], [1, 1 / 2]])) mc
      (noise ω) = .ok out := by
    intro ω mc
    by_cases h0 : 0 < mc
    · obtain ⟨out, h⟩ := (C52_batch_partial (lhNnls 0) hlen demoBoth.toFitter (Or.inl rfl) (by decide) [2, 2] [[3, 3], [3, 3]] [[1, 1 / 2], [1, 1 / 2]] (by simp) rfl rfl hmr hivr mc (noise ω)).1.mpr (by
        intro k hk
        have hz : InRange demoAm2.x (ent [(2 : ℝ), 2] k) := by
          have : ent [(2 : ℝ), 2] k = 2 := by
            have hk2 : k < 2 := hk
            interval_cases k <;> rfl
          rw [this]
          exact hin
        obtain ⟨c, cm, mm, h⟩ := C184_mc demoBoth.toFitter (by show 2 ≤ 9; norm_num) (Or.inl rfl) (by decide) demoAm2 hrd (ent [2, 2] k) hz ([[3, 3], [3, 3]].getD k []) ([[1, 1 / 2], [1, 1 / 2]].getD k [])
          (by rw [getD_lt (by simpa using hk)]; exact hmr _ (List.getElem_mem _)) (by rw [getD_lt (by simpa using hk)]; exact hivr _ (List.getElem_mem _)) mc h0 (fun _ => noise ω k)
        exact ⟨_, h⟩)
      exact ⟨out, fun _ => h⟩
    · exact ⟨⟨.scalar 0, none⟩, fun h => absurd h h0⟩
  choose out hout using hf
  have hx : ∀ ω mc, ∃ x, ∀ cm mm, 0 < mc → (out ω mc).mc = some (cm, mm) → demoBoth.derivedMc demoReg (some (.vec [2, 2])) cm 0 none = .ok (some x) := by
    intro ω mc
    by_cases h0 : 0 < mc
    · obtain ⟨c, m, hcm, _⟩ := fit_cubes (lhNnls 0) hlen demoBoth.toFitter trivial (by decide) demoAm2 rfl [2, 2] [[3, 3], [3, 3]] [[1, 1 / 2], [1, 1 / 2]] (by simp) rfl rfl hmr hivr hpos mc h0 (noise ω) _ (hout ω mc h0)
      obtain ⟨ret, hret⟩ := (C82_batch hK.tpl hK.mass hK.out demoReg [2, 2] mc _ 0).1.mpr (fun k hk => by
        have := demo_table (tableOf 2 2 (fun g t => c g t k)) (tableOf_length _ _ _)
        rw [← cube_sample 2 2 mc c k hk] at this
        exact this)
      cases hr : ret with
      | none => exact absurd (((C82_batch hK.tpl hK.mass hK.out demoReg [2, 2] mc _ 0).2 _ hret).1.mp hr) (by omega)
      | some x =>
        refine ⟨x, fun cm mm _ h => ?_⟩
        rw [hcm] at h
        cases h
        rw [← hr]
        exact hret
    · obtain ⟨D, _⟩ := demo_table [[1, 1], [1, 1]] rfl
      exact ⟨D, fun _ _ h => absurd h h0⟩
  choose R hR using hx
  exact ⟨out, R, hout, hR⟩

/-- Not vacuous, for the coefficients and the mass-to-light ratio in the second band: two galaxies at redshift 2, between the nodes 1 and 3 of the grid, with inverse variances 1 and 1/2. -/
example : ∃ (Ω : Type) (_ : MeasurableSpace Ω) (P : Measure Ω) (out : Ω → Nat → FitOut ℝ) (R : Ω → Nat → Derived ℝ) (cf cf' : ({l : Fin demoBoth.responses.length // 0 < ent [1, 1 / 2] l} → ℝ) → Fin 2 → ℝ),
    IsProbabilityMeasure P ∧
    (∀ᵐ ω ∂P, Tendsto (fun mc => fraction mc (fun k => ∃ cm mm, (out ω mc).mc = some (cm, mm) ∧ ∃ c ∈ {c : Fin 2 → ℝ | 0 < c 0}, ∀ t : Fin 2, entry cm (1 * 2 + t) k = some (c t))) atTop
      (𝓝 ((fluxLaw demoBoth.abCls demoBoth.responses.length [3, 3] [1, 1 / 2]).real {w | 0 < cf w 0}))) ∧
    ∀ᵐ ω ∂P, Tendsto (fun mc => fraction mc (fun k => ∃ x v, (R ω mc).keys[2]? = some x ∧ entry x (1 * 2 + 1) k = some v ∧ v ≤ 1)) atTop
      (𝓝 ((fluxLaw demoBoth.abCls demoBoth.responses.length [3, 3] [1, 1 / 2]).real {w | ∃ E y v, demoBoth.derived demoReg (some (.scalar 2)) (some (.vec (List.ofFn (cf' w)))) 0 none = .ok E ∧
        E.keys[2]? = some y ∧ y.flat[1]? = some v ∧ v ≤ 1})) := by
  have hdev := deviates_exist
  generalize (fun (ω : ℕ × ℕ × ℕ → ℝ) i k p => ω (i, k, p)) = noise at hdev
  generalize Measure.infinitePi (fun _ : ℕ × ℕ × ℕ => gaussianReal 0 1) = P at hdev
  have hP : IsProbabilityMeasure P := hdev.indep.isProbabilityMeasure
  have hin : InRange demoAm2.x 2 := by constructor <;> norm_num [demoAm2]
  obtain ⟨out, R, hout, hR⟩ := demo_both_draws noise
  obtain ⟨cf, -, h1⟩ := C221_coeffs P noise hdev (lhNnls 0) C184_contract demoBoth trivial (by decide) demoAm2 demo_both_ready [2, 2] [[3, 3], [3, 3]] [[1, 1 / 2], [1, 1 / 2]] (by simp) rfl rfl demo_ms demo_ivs demo_ivs_pos
    out hout 1 2 [3, 3] [1, 1 / 2] rfl rfl rfl hin demo_both_indep
  obtain ⟨cf', -, h2⟩ := C221_derived P noise hdev (lhNnls 0) C184_contract demoBoth trivial (by decide) demoAm2 demo_both_ready [2, 2] [[3, 3], [3, 3]] [[1, 1 / 2], [1, 1 / 2]] (by simp) rfl rfl demo_ms demo_ivs demo_ivs_pos
    out hout 1 2 [3, 3] [1, 1 / 2] rfl rfl rfl hin demo_both_indep demoTmpl demoAm2 demo_both_mass demo_ready.good rfl demoReg 0 R (fun ω mc cm mm a b => hR ω mc cm mm a b) 2 1 (by norm_num) (by show 1 < 2; norm_num) 1
  exact ⟨_, _, P, out, R, cf, cf', hP, h1 {c : Fin 2 → ℝ | 0 < c 0} (measurableSet_lt measurable_const (measurable_pi_apply _)), h2⟩

end KC
