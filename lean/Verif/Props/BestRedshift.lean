import Verif.Props.ChiRedshift
import Verif.Props.BestFitAb

/-!
# Searching for the redshift of the best fit (C203)
-/

namespace KC

/-- `q` is chi-squared of the fit that `fit_coeffs` returns for this photometry with redshift `z`. -/
def Spec.Quality (nnls : Nnls ℝ) (F : Fitter ℝ) (m iv : List ℝ) (z q : ℝ) : Prop :=
  ∃ noise out r, F.fitCoeffs nnls (some (.scalar z)) (some (.vec m)) (some (.vec iv)) 0 noise = .ok out ∧
    F.reconstruct (some (.scalar z)) (some out.coeffs) 0 = .ok (.vec r) ∧ q = chi2 (abM F.abCls m) (abIv F.abCls iv) r

open Spec

theorem quality_eq {nnls : Nnls ℝ} (hn : NNLSOK nnls) {F : Fitter ℝ} {A : AMat ℝ} (hR : Ready F A) (hr : AbReady F.abCls F.responses.length) {m iv : List ℝ}
    (hm : m.length = F.responses.length) (hiv : iv.length = F.responses.length) (hpos : ∀ v ∈ iv, 0 ≤ v) {z q q' : ℝ} (hz : InRange A.x z)
    (h : Quality nnls F m iv z q) (h' : Quality nnls F m iv z q') : q = q' := by
  obtain ⟨n, out, r, h1, h2, rfl⟩ := h
  obtain ⟨n', out', r', h1', h2', rfl⟩ := h'
  obtain ⟨c, rfl, lc, c0, rc, hrc, ho⟩ := C49_ab nnls hn F hr A hR z hz m iv hm hiv hpos n out h1
  obtain ⟨c', rfl, lc', c0', rc', hrc', ho'⟩ := C49_ab nnls hn F hr A hR z hz m iv hm hiv hpos n' out' h1'
  have vinj : ∀ a b : List ℝ, (Except.ok (NDA.vec a) : Py (NDA ℝ)) = .ok (.vec b) → a = b := by
    intro a b h
    simp only [Except.ok.injEq, NDA.vec, NDA.arr.injEq, List.cons.injEq, and_true] at h
    exact h.2.2
  obtain rfl := vinj _ _ (hrc.symm.trans h2)
  obtain rfl := vinj _ _ (hrc'.symm.trans h2')
  obtain ⟨y, hy, le⟩ := ho c' lc' c0'
  obtain ⟨y', hy', le'⟩ := ho' c lc c0
  obtain rfl := vinj _ _ (hy.symm.trans hrc')
  obtain rfl := vinj _ _ (hy'.symm.trans hrc)
  exact le_antisymm le le'

theorem quality_exists {nnls : Nnls ℝ} (hn : NNLSOK nnls) {F : Fitter ℝ} (hret : ∀ A b, ∃ x, solve nnls F.templates.nsed A b = .ok x) {A : AMat ℝ} (hR : Ready F A)
    (hr : AbReady F.abCls F.responses.length) (hnb : F.responses.length ≠ 1) {m iv : List ℝ}
    (hm : m.length = F.responses.length) (hiv : iv.length = F.responses.length) (hpos : ∀ v ∈ iv, 0 ≤ v) {z : ℝ} (hz : InRange A.x z) :
    ∃ q, 0 ≤ q ∧ Quality nnls F m iv z q := by
  obtain ⟨c, hc, _, _, r, hr', _⟩ := C161_ab nnls hn F hret hr hnb A hR z hz m iv hm hiv hpos (fun _ _ _ => 0)
  exact ⟨_, chi2_nonneg _ _ _ (abIv_nonneg _ _ hpos), _, _, r, hc, hr', rfl⟩

/-- C203: a search over trial redshifts that are close enough together comes as near to the smallest possible chi-squared as one likes: for every `ε` there is a spacing such
that among the trial redshifts of every grid at least as fine is one with chi-squared within `ε` of that of every redshift in the range. -/
theorem C203_grid (nnls : Nnls ℝ) (hn : NNLSOK nnls) (F : Fitter ℝ) (hret : ∀ A b, ∃ x, solve nnls F.templates.nsed A b = .ok x) (A : AMat ℝ) (hR : Ready F A)
    (hr : AbReady F.abCls F.responses.length) (hnb : F.responses.length ≠ 1) (m iv : List ℝ)
    (hm : m.length = F.responses.length) (hiv : iv.length = F.responses.length) (hpos : ∀ v ∈ iv, 0 ≤ v) (hne : ∃ z, InRange A.x z) (ε : ℝ) (hε : 0 < ε) :
    ∃ δ > 0, ∀ zs : List ℝ, (∀ z ∈ zs, InRange A.x z) → (∀ z, InRange A.x z → ∃ z' ∈ zs, |z' - z| < δ) →
      ∃ z ∈ zs, ∃ q, Quality nnls F m iv z q ∧ ∀ z' q', InRange A.x z' → Quality nnls F m iv z' q' → q ≤ q' + ε := by
  let S : Set ℝ := {q | ∃ z, InRange A.x z ∧ Quality nnls F m iv z q}
  have hS0 : ∀ q ∈ S, 0 ≤ q := by
    rintro q ⟨z, hz, _, _, r, _, _, rfl⟩
    exact chi2_nonneg _ _ _ (abIv_nonneg _ _ hpos)
  have hSne : S.Nonempty := by
    obtain ⟨z, hz⟩ := hne
    obtain ⟨q, _, hq⟩ := quality_exists hn hret hR hr hnb hm hiv hpos hz
    exact ⟨q, z, hz, hq⟩
  obtain ⟨q1, ⟨z1, hz1, hq1⟩, hlt⟩ := exists_lt_of_csInf_lt hSne (show sInf S < sInf S + ε / 2 by linarith)
  obtain ⟨n1, out1, r1, f1, g1, rfl⟩ := hq1
  obtain ⟨δ, hδ, hd⟩ := C199_no_jump_up nnls hn F A hR hr m iv hm hiv hpos z1 hz1 n1 out1 f1 (ε / 2) (by linarith)
  refine ⟨δ, hδ, fun zs hin hclose => ?_⟩
  obtain ⟨z, hzs, hzd⟩ := hclose z1 hz1
  obtain ⟨q, _, hq⟩ := quality_exists hn hret hR hr hnb hm hiv hpos (hin z hzs)
  refine ⟨z, hzs, q, hq, fun z' q' hz' hq' => ?_⟩
  obtain ⟨n, out, r, f, g, rfl⟩ := hq
  obtain ⟨r1', r', e1, e2, lt⟩ := hd z n out (hin z hzs) hzd f
  have vinj : ∀ a b : List ℝ, (Except.ok (NDA.vec a) : Py (NDA ℝ)) = .ok (.vec b) → a = b := by
    intro a b h
    simp only [Except.ok.injEq, NDA.vec, NDA.arr.injEq, List.cons.injEq, and_true] at h
    exact h.2.2
  obtain rfl := vinj _ _ (e1.symm.trans g1)
  obtain rfl := vinj _ _ (e2.symm.trans g)
  have : sInf S ≤ q' := csInf_le ⟨0, hS0⟩ ⟨z', hz', hq'⟩
  linarith

/-- Chi-squared of the fit as a continuous function of the redshift. -/
theorem quality_continuous (nnls : Nnls ℝ) (hn : NNLSOK nnls) (F : Fitter ℝ) (hret : ∀ A b, ∃ x, solve nnls F.templates.nsed A b = .ok x) (A : AMat ℝ) (hR : Ready F A)
    (hr : AbReady F.abCls F.responses.length) (hnb : F.responses.length ≠ 1) (m iv : List ℝ)
    (hm : m.length = F.responses.length) (hiv : iv.length = F.responses.length) (hpos : ∀ v ∈ iv, 0 ≤ v)
    (hnn : ∀ t < F.templates.nsed, ∀ z a, InRange A.x z → F.reconstruct (some (.scalar z)) (some (.vec (alone F.templates.nsed t))) 0 = .ok (.vec a) →
      ∀ x ∈ a, 0 ≤ x)
    (hfl : ∀ z, InRange A.x z → ∀ t < F.templates.nsed, ∃ (a : List ℝ) (j : Nat) (v x : ℝ),
      F.reconstruct (some (.scalar z)) (some (.vec (alone F.templates.nsed t))) 0 = .ok (.vec a) ∧ iv[j]? = some v ∧ a[j]? = some x ∧ 0 < v ∧ 0 < x) :
    ∃ f : ℝ → ℝ, (∀ z, InRange A.x z → Quality nnls F m iv z (f z)) ∧ ContinuousOn f (Set.Icc (A.x.headD 0) (A.x.getLastD 0)) := by
  have hex : ∀ z : ℝ, ∃ q, InRange A.x z → Quality nnls F m iv z q := by
    intro z
    by_cases hz : InRange A.x z
    · obtain ⟨q, _, hq⟩ := quality_exists hn hret hR hr hnb hm hiv hpos hz
      exact ⟨q, fun _ => hq⟩
    · exact ⟨0, fun h => absurd h hz⟩
  choose f hf using hex
  have vinj : ∀ a b : List ℝ, (Except.ok (NDA.vec a) : Py (NDA ℝ)) = .ok (.vec b) → a = b := by
    intro a b h
    simp only [Except.ok.injEq, NDA.vec, NDA.arr.injEq, List.cons.injEq, and_true] at h
    exact h.2.2
  have hcont : ContinuousOn f (Set.Icc (A.x.headD 0) (A.x.getLastD 0)) := by
    rw [Metric.continuousOn_iff]
    intro z0 hz0 ε hε
    obtain ⟨n0, out0, r0, f0, g0, e0⟩ := hf z0 hz0
    obtain ⟨δ, hδ, hd⟩ := C199_continuous nnls hn F A hR hr m iv hm hiv hpos z0 hz0 hnn (hfl z0 hz0) n0 out0 f0 ε hε
    refine ⟨δ, hδ, fun z hz hzd => ?_⟩
    obtain ⟨n, out, r, f1, g1, e1⟩ := hf z hz
    obtain ⟨r0', r', x0, x1, lt⟩ := hd z n out hz hzd f1
    obtain rfl := vinj _ _ (x0.symm.trans g0)
    obtain rfl := vinj _ _ (x1.symm.trans g1)
    rw [e0, e1]
    exact lt
  exact ⟨f, hf, hcont⟩

/-- C203: where no template has negative flux and each has flux in a band of positive inverse variance at every redshift, some redshift in the range has the smallest
chi-squared of all. -/
theorem C203_best (nnls : Nnls ℝ) (hn : NNLSOK nnls) (F : Fitter ℝ) (hret : ∀ A b, ∃ x, solve nnls F.templates.nsed A b = .ok x) (A : AMat ℝ) (hR : Ready F A)
    (hr : AbReady F.abCls F.responses.length) (hnb : F.responses.length ≠ 1) (m iv : List ℝ)
    (hm : m.length = F.responses.length) (hiv : iv.length = F.responses.length) (hpos : ∀ v ∈ iv, 0 ≤ v) (hne : ∃ z, InRange A.x z)
    (hnn : ∀ t < F.templates.nsed, ∀ z a, InRange A.x z → F.reconstruct (some (.scalar z)) (some (.vec (alone F.templates.nsed t))) 0 = .ok (.vec a) →
      ∀ x ∈ a, 0 ≤ x)
    (hfl : ∀ z, InRange A.x z → ∀ t < F.templates.nsed, ∃ (a : List ℝ) (j : Nat) (v x : ℝ),
      F.reconstruct (some (.scalar z)) (some (.vec (alone F.templates.nsed t))) 0 = .ok (.vec a) ∧ iv[j]? = some v ∧ a[j]? = some x ∧ 0 < v ∧ 0 < x) :
    ∃ z q, InRange A.x z ∧ Quality nnls F m iv z q ∧ ∀ z' q', InRange A.x z' → Quality nnls F m iv z' q' → q ≤ q' := by
  obtain ⟨f, hf, hcont⟩ := quality_continuous nnls hn F hret A hR hr hnb m iv hm hiv hpos hnn hfl
  obtain ⟨z, hz, hmin⟩ := isCompact_Icc.exists_isMinOn (s := Set.Icc (A.x.headD 0) (A.x.getLastD 0)) hne hcont
  refine ⟨z, f z, hz, hf z hz, fun z' q' hz' hq' => ?_⟩
  rw [quality_eq hn hR hr hm hiv hpos hz' hq' (hf z' hz')]
  exact hmin hz'

/-- Two templates without negative flux and with flux in the second of two bands at every redshift from 0 to 3. -/
theorem demo_two_flux : (∀ t < demoFitter2.templates.nsed, ∀ z a, InRange demoAm2.x z → demoFitter2.reconstruct (some (.scalar z)) (some (.vec (alone demoFitter2.templates.nsed t))) 0 = .ok (.vec a) →
      ∀ x ∈ a, 0 ≤ x) ∧
    ∀ z, InRange demoAm2.x z → ∀ t < demoFitter2.templates.nsed, ∃ (a : List ℝ) (j : Nat) (v x : ℝ),
      demoFitter2.reconstruct (some (.scalar z)) (some (.vec (alone demoFitter2.templates.nsed t))) 0 = .ok (.vec a) ∧ ([1, 1] : List ℝ)[j]? = some v ∧ a[j]? = some x ∧ 0 < v ∧ 0 < x := by
  refine ⟨?_, ?_⟩
  · intro t ht z a hz hr x hx
    refine C60_nonneg demoFitter2 demoAm2 demo_ready.good ?_ z 0 (by norm_num) _ (alone_length _ _) ?_ _ hr x (by simpa [NDA.flat, NDA.vec] using hx)
    · simp [demoAm2]
    · intro v hv
      simp only [alone, List.mem_map] at hv
      obtain ⟨i, _, rfl⟩ := hv
      split <;> norm_num
  · intro z hz t ht
    have ht2 : t < 2 := ht
    obtain ⟨p, q, u, v, hM, hu, hv⟩ : ∃ p q u v : ℝ, demoAm2.at z = .ok [[p, q], [u, v]] ∧ 0 < u ∧ 0 < v := by
      have h1 : (0 : ℝ) ≤ z := by simpa [InRange, demoAm2] using hz.1
      have h2 : z ≤ 3 := by simpa [InRange, demoAm2] using hz.2
      by_cases h : z ≤ 1
      · refine ⟨_, _, _, _, (at_cell (k := 0) demo_ready.good (by simp [demoAm2]) (q := z) (by simpa [demoAm2, ent] using h1) (by simpa [demoAm2, ent] using h)).trans rfl, ?_, ?_⟩ <;>
          norm_num [linEntry, demoAm2, ent] <;> linarith
      · have h' : 1 ≤ z := (not_le.mp h).le
        refine ⟨_, _, _, _, (at_cell (k := 1) demo_ready.good (by simp [demoAm2]) (q := z) (by simpa [demoAm2, ent] using h') (by simpa [demoAm2, ent] using h2)).trans rfl, ?_, ?_⟩ <;>
          norm_num [linEntry, demoAm2, ent] <;> linarith
    have hx := recon_ready demo_ready hM (alone_length demoFitter2.templates.nsed t)
    refine ⟨_, 1, 1, _, hx, rfl, rfl, by norm_num, ?_⟩
    simp only [dot_alone ht]
    interval_cases t <;> simp [ent, hu, hv]

/-- Not vacuous: two bands, two templates without negative flux and with flux in the second band at every redshift from 0 to 3; a search finds the best redshift. -/
example : ∃ z q, InRange demoAm2.x z ∧ Quality (lhNnls 0) demoFitter2 [1, 2] [1, 1] z q ∧
    ∀ z' q', InRange demoAm2.x z' → Quality (lhNnls 0) demoFitter2 [1, 2] [1, 1] z' q' → q ≤ q' :=
  C203_best (lhNnls 0) C184_contract demoFitter2 (C184_retry _ (by show 2 ≤ 9; norm_num)) demoAm2 demo_ready trivial (by show 2 ≠ 1; norm_num) [1, 2] [1, 1] rfl rfl
    (by simp) ⟨2, by constructor <;> norm_num [demoAm2]⟩ demo_two_flux.1 demo_two_flux.2

end KC
