import Verif.Props.Repeated
import Verif.Props.Order
import Verif.Props.Optimum
import Verif.Props.SolverChoice
import Verif.Props.LinearFit

/-!
# What the properties of best fits say of the coefficients that `fit_coeffs` returns (C104, C105, C112, C113, C114, C178)
-/

namespace KC
open Spec

namespace Spec

/-- `fit_coeffs` returns the coefficients `c` for one object. -/
def Fits (nnls : Nnls ℝ) (G : Fitter ℝ) (z : ℝ) (m iv c : List ℝ) : Prop :=
  ∃ noise : Nat → Nat → Nat → ℝ, G.fitCoeffs nnls (some (.scalar z)) (some (.vec m)) (some (.vec iv)) 0 noise = .ok ⟨.vec c, none⟩

/-- The model photometry is defined at the redshift. -/
def Defined (G : Fitter ℝ) (z : ℝ) : Prop := ∃ v, G.reconstruct (some (.scalar z)) (some (.vec (List.replicate G.templates.nsed 0))) 0 = .ok v

end Spec

theorem Ready.inRange {G : Fitter ℝ} {A : AMat ℝ} (hR : Ready G A) {z : ℝ} (hz : Defined G z) : InRange A.x z := by
  by_contra hin
  obtain ⟨v, hv⟩ := hz
  unfold Fitter.reconstruct at hv
  rw [hR.set, recon_scalar G A z _ 0 (by simp)] at hv
  have e : shiftOf (f32 z) 0 = z := by rw [real_f32, shiftOf_real]; ring
  rw [e, at_out hR.good.ne hin] at hv
  cases hv

theorem Ready.defined {G : Fitter ℝ} {A : AMat ℝ} (hR : Ready G A) {z : ℝ} (hz : InRange A.x z) {c : List ℝ} (hc : c.length = G.templates.nsed) :
    ∃ r, G.reconstruct (some (.scalar z)) (some (.vec c)) 0 = .ok (.vec r) := by
  obtain ⟨M, hM⟩ := (at_ok_iff hR.good.ne).mpr hz
  exact ⟨_, recon_ready hR hM hc⟩

theorem fits_optimal {nnls : Nnls ℝ} (hn : NNLSOK nnls) {G : Fitter ℝ} {A : AMat ℝ} (hR : Ready G A) (hr : AbReady G.abCls G.responses.length) {z : ℝ} (hz : InRange A.x z)
    {m iv c : List ℝ} (hm : m.length = G.responses.length) (hiv : iv.length = G.responses.length) (hpos : ∀ v ∈ iv, 0 ≤ v) (h : Fits nnls G z m iv c) :
    Optimal G z (abM G.abCls m) (abIv G.abCls iv) c := by
  obtain ⟨noise, h⟩ := h
  obtain ⟨c', e, ho⟩ := C49_ab nnls hn G hr A hR z hz m iv hm hiv hpos noise _ h
  simp only [FitOut.mk.injEq, NDA.vec, NDA.arr.injEq, List.cons.injEq, and_true] at e
  obtain rfl := e.2.2
  exact ho

theorem fits_base {nnls : Nnls ℝ} (hn : NNLSOK nnls) {G : Fitter ℝ} {A : AMat ℝ} (hR : Ready G A) (hb : G.abCls = .base) {z : ℝ} (hz : InRange A.x z)
    {m iv c : List ℝ} (hm : m.length = G.responses.length) (hiv : iv.length = G.responses.length) (hpos : ∀ v ∈ iv, 0 ≤ v) (h : Fits nnls G z m iv c) : Optimal G z m iv c := by
  have := fits_optimal hn hR (by rw [hb]; trivial) hz hm hiv hpos h
  rwa [hb, abM_base, abIv_base] at this

/-- What the fitters before and after `set_Amatrix` have in common. -/
theorem Built.same {lib : Lib ℝ} {F G : Fitter ℝ} {g : Reg ℝ} (h : Built lib F G g) : G.responses = F.responses ∧ G.templates = F.templates ∧ G.abCls = F.abCls := by
  obtain ⟨A, disk, w, w', hR, rfl, _⟩ := h.ready
  exact ⟨rfl, rfl, rfl⟩

/-- Two fitters with the same redshifts: the model photometry of both is defined at the same redshifts. -/
theorem Built.both {lib lib' : Lib ℝ} {F1 F2 G1 G2 : Fitter ℝ} {g1 g2 : Reg ℝ} (h1 : Built lib F1 G1 g1) (h2 : Built lib' F2 G2 g2) (hg : F2.redshifts = F1.redshifts) {z : ℝ}
    (hz : Defined G1 z) : ∃ A1 A2, Ready G1 A1 ∧ Ready G2 A2 ∧ InRange A1.x z ∧ InRange A2.x z := by
  obtain ⟨A1, _, _, _, hR1, _, _, _, _, hx1⟩ := h1.ready
  obtain ⟨A2, _, _, _, hR2, _, _, _, _, hx2⟩ := h2.ready
  have := hR1.inRange hz
  exact ⟨A1, A2, hR1, hR2, this, by rw [hx2, hg, ← hx1]; exact this⟩

/-- C112 for the returned coefficients, in the units of the fit (AB maggies): the weighted residuals of the fit are orthogonal to the model, have no positive inner product with
the maggies of a nonnegative coefficient vector, are orthogonal to the templates in use, and chi-squared is `Σ ivar m² - Σ ivar r²`. -/
theorem C112_fit (nnls : Nnls ℝ) (hn : NNLSOK nnls) (G : Fitter ℝ) (A : AMat ℝ) (hR : Ready G A) (hr : AbReady G.abCls G.responses.length) (z : ℝ) (hz : InRange A.x z)
    (m iv c : List ℝ) (hm : m.length = G.responses.length) (hiv : iv.length = G.responses.length) (hpos : ∀ v ∈ iv, 0 ≤ v) (h : Fits nnls G z m iv c) :
    ∃ r, G.reconstruct (some (.scalar z)) (some (.vec c)) 0 = .ok (.vec r) ∧
      ip (abIv G.abCls iv) (sub (abM G.abCls m) r) r = 0 ∧
      (∀ y : List ℝ, y.length = G.templates.nsed → (∀ v ∈ y, 0 ≤ v) → ∀ ry, G.reconstruct (some (.scalar z)) (some (.vec y)) 0 = .ok (.vec ry) →
        ip (abIv G.abCls iv) (sub (abM G.abCls m) r) ry ≤ 0) ∧
      chi2 (abM G.abCls m) (abIv G.abCls iv) r = ip (abIv G.abCls iv) (abM G.abCls m) (abM G.abCls m) - ip (abIv G.abCls iv) r r ∧
      ∀ k x, c[k]? = some x → 0 < x → ∀ a, G.reconstruct (some (.scalar z)) (some (.vec (unit G.templates.nsed k 1))) 0 = .ok (.vec a) →
        ip (abIv G.abCls iv) (sub (abM G.abCls m) r) a = 0 := by
  have ho := fits_optimal hn hR hr hz hm hiv hpos h
  have hm' : (abM G.abCls m).length = G.responses.length := by rw [abM_length, hm]
  have hv' := abIv_nonneg G.abCls iv hpos
  obtain ⟨r, hrec, h1, h2, _⟩ := C112_chi2 G A hR z hz _ _ c hm' hv' ho
  refine ⟨r, hrec, h1, ((C112_optimal_iff G A hR z hz _ _ c hm' hv' ho.1 ho.2.1 r hrec).mp ho).2, h2, fun k x hx hx0 a ha => ?_⟩
  have hk : k < G.templates.nsed := by rw [← ho.1]; exact (List.getElem?_eq_some_iff.mp hx).1
  obtain ⟨r', a', hr', ha', _, h3⟩ := C112_templates G A hR z hz _ _ c hm' ho k hk
  rw [hrec] at hr'
  rw [ha] at ha'
  simp only [Except.ok.injEq, NDA.vec, NDA.arr.injEq, List.cons.injEq, and_true] at hr' ha'
  obtain rfl := hr'.2.2
  obtain rfl := ha'.2.2
  exact h3 ⟨x, hx, hx0⟩

/-- C112: conversely, nonnegative coefficients with such residuals are those that `fit_coeffs` returns, if the photometry determines the coefficients. -/
theorem C112_converse (nnls : Nnls ℝ) (hn : NNLSOK nnls) (G : Fitter ℝ) (A : AMat ℝ) (hR : Ready G A) (hr : AbReady G.abCls G.responses.length) (z : ℝ) (hz : InRange A.x z)
    (m iv c : List ℝ) (hm : m.length = G.responses.length) (hiv : iv.length = G.responses.length) (hpos : ∀ v ∈ iv, 0 ≤ v) (h : Fits nnls G z m iv c) (hi : Spec.Indep G z iv)
    (c' r : List ℝ) (hc : c'.length = G.templates.nsed) (hc0 : ∀ v ∈ c', 0 ≤ v) (hrec : G.reconstruct (some (.scalar z)) (some (.vec c')) 0 = .ok (.vec r))
    (h1 : ip (abIv G.abCls iv) (sub (abM G.abCls m) r) r = 0)
    (h2 : ∀ y : List ℝ, y.length = G.templates.nsed → (∀ v ∈ y, 0 ≤ v) → ∀ ry, G.reconstruct (some (.scalar z)) (some (.vec y)) 0 = .ok (.vec ry) →
      ip (abIv G.abCls iv) (sub (abM G.abCls m) r) ry ≤ 0) : c' = c := by
  have hm' : (abM G.abCls m).length = G.responses.length := by rw [abM_length, hm]
  have hv' := abIv_nonneg G.abCls iv hpos
  exact optimal_eq G A hR z hz _ _ hm' (by rw [abIv_length, hiv]) hv' (indep_ab _ hi) _ _
    ((C112_optimal_iff G A hR z hz _ _ c' hm' hv' hc hc0 r hrec).mpr ⟨h1, h2⟩) (fits_optimal hn hR hr hz hm hiv hpos h)

/-- C104 for the returned coefficients: with the templates in another order and multiplied by positive numbers, the fit has the same model maggies in the bands with weight, and if the
photometry determines the coefficients, it returns the same coefficients, reordered and divided by the numbers. -/
theorem C104_fit (lib : Lib ℝ) (hlin : SplineLinear lib) (F1 F2 G1 G2 : Fitter ℝ) (g1 g2 : Reg ℝ) (h1 : Built lib F1 G1 g1) (h2 : Built lib F2 G2 g2) (P : List (Nat × ℝ))
    (hp : Rescaled F1 F2 g1 g2 P) (hcls : F2.abCls = F1.abCls) (hr : AbReady F1.abCls F1.responses.length) (nnls nnls' : Nnls ℝ) (hn : NNLSOK nnls) (hn' : NNLSOK nnls') (z : ℝ)
    (hz : Defined G1 z) (m iv c1 c2 : List ℝ) (hm : m.length = F1.responses.length) (hiv : iv.length = F1.responses.length) (hpos : ∀ v ∈ iv, 0 ≤ v)
    (f1 : Fits nnls G1 z m iv c1) (f2 : Fits nnls' G2 z m iv c2) :
    (∃ r1 r2, G1.reconstruct (some (.scalar z)) (some (.vec c1)) 0 = .ok (.vec r1) ∧ G2.reconstruct (some (.scalar z)) (some (.vec c2)) 0 = .ok (.vec r2) ∧
      ∀ (j : Nat) v, iv[j]? = some v → 0 < v → r1[j]? = r2[j]?) ∧
    (Spec.Indep G2 z iv → c2 = rescaleCoeffs P c1) := by
  obtain ⟨A1, A2, hR1, hR2, z1, z2⟩ := h1.both h2 hp.grid hz
  obtain ⟨e1, t1, b1⟩ := h1.same
  obtain ⟨e2, t2, b2⟩ := h2.same
  have o1 := fits_optimal hn hR1 (by rw [b1, e1]; exact hr) z1 (by rw [e1]; exact hm) (by rw [e1]; exact hiv) hpos f1
  have o2 := fits_optimal hn' hR2 (by rw [b2, e2, hcls, hp.resp]; exact hr) z2 (by rw [e2, hp.resp]; exact hm) (by rw [e2, hp.resp]; exact hiv) hpos f2
  rw [b1] at o1
  rw [b2, hcls] at o2
  have hc1 : c1.length = F1.templates.nsed := by rw [← t1]; exact o1.1
  obtain ⟨k1, k2⟩ := C104_rescaled lib hlin F1 F2 G1 G2 g1 g2 h1 h2 P hp z c1 hc1
  obtain ⟨r1, hr1⟩ := hR1.defined z1 o1.1
  have o1' := (k2 o1.2.1 ⟨_, hr1⟩ _ _).mpr o1
  have hm' : (abM F1.abCls m).length = G2.responses.length := by rw [abM_length, e2, hp.resp, hm]
  have hv' : (abIv F1.abCls iv).length = G2.responses.length := by rw [abIv_length, e2, hp.resp, hiv]
  refine ⟨?_, fun hi => ?_⟩
  · obtain ⟨r, r2, hr, hr2, hrr⟩ := C102_unique G2 A2 hR2 z z2 _ _ hm' hv' (abIv_nonneg _ _ hpos) _ _ o1' o2
    rw [k1, hr1] at hr
    simp only [Except.ok.injEq, NDA.vec, NDA.arr.injEq, List.cons.injEq, and_true] at hr
    obtain rfl := hr.2.2
    exact ⟨r1, r2, hr1, hr2, fun j v hj hv => hrr j _ (abIv_pos hj hv).1 (abIv_pos hj hv).2⟩
  · exact optimal_eq G2 A2 hR2 z z2 _ _ hm' hv' (abIv_nonneg _ _ hpos) (indep_ab _ hi) _ _ o2 o1'

/-- C105 for the returned coefficients, without an AB correction: with the bands in another order the fit has the same model maggies in the bands with weight, and the same coefficients
if the photometry determines them. -/
theorem C105_fit (lib : Lib ℝ) (F1 F2 G1 G2 : Fitter ℝ) (g1 g2 : Reg ℝ) (h1 : Built lib F1 G1 g1) (h2 : Built lib F2 G2 g2) (idx : List Nat)
    (hp : Reordered F1 F2 g1 g2 idx) (c1b : F1.abCls = .base) (c2b : F2.abCls = .base) (nnls nnls' : Nnls ℝ) (hn : NNLSOK nnls) (hn' : NNLSOK nnls') (z : ℝ)
    (hz : Defined G1 z) (m iv c1 c2 : List ℝ) (hm : m.length = F1.responses.length) (hiv : iv.length = F1.responses.length) (hpos : ∀ v ∈ iv, 0 ≤ v)
    (f1 : Fits nnls G1 z m iv c1) (f2 : Fits nnls' G2 z (gather m idx) (gather iv idx) c2) :
    (∃ r1 r2, G1.reconstruct (some (.scalar z)) (some (.vec c1)) 0 = .ok (.vec r1) ∧ G1.reconstruct (some (.scalar z)) (some (.vec c2)) 0 = .ok (.vec r2) ∧
      G2.reconstruct (some (.scalar z)) (some (.vec c2)) 0 = .ok (.vec (gather r2 idx)) ∧ ∀ (j : Nat) v, iv[j]? = some v → 0 < v → r1[j]? = r2[j]?) ∧
    (Spec.Indep G1 z iv → c2 = c1) := by
  obtain ⟨A1, A2, hR1, hR2, z1, z2⟩ := h1.both h2 hp.grid hz
  obtain ⟨e1, t1, b1⟩ := h1.same
  obtain ⟨e2, t2, b2⟩ := h2.same
  have hlen : idx.length = F1.responses.length := by simpa using hp.order.length_eq
  have ng : ∀ v ∈ gather iv idx, 0 ≤ v := by
    intro v hv
    obtain ⟨k, hk, rfl⟩ := List.mem_map.mp hv
    have hk' := List.mem_range.mp (hp.order.subset hk)
    rw [List.getD_eq_getElem?_getD, List.getElem?_eq_getElem (by rw [hiv]; exact hk')]
    exact hpos _ (List.getElem_mem _)
  have o1 := fits_base hn hR1 (b1.trans c1b) z1 (by rw [e1]; exact hm) (by rw [e1]; exact hiv) hpos f1
  have o2 := fits_base hn' hR2 (b2.trans c2b) z2 (by rw [e2, hp.resp]; simp [gather]) (by rw [e2, hp.resp]; simp [gather]) ng f2
  have ns : G2.templates.nsed = F1.templates.nsed := by
    rw [t2]
    show F2.templates.toSed.restFlux.length = F1.templates.toSed.restFlux.length
    rw [hp.flux]
  have hc2 : c2.length = F1.templates.nsed := by rw [← ns]; exact o2.1
  obtain ⟨k1, k2⟩ := C105_order lib F1 F2 G1 G2 g1 g2 h1 h2 idx hp z c2 hc2
  obtain ⟨r2, hr2⟩ := hR1.defined z1 (by rw [t1]; exact hc2)
  have o2' := (k2 ⟨_, hr2⟩ m iv hm hiv).mp o2
  have hm' : m.length = G1.responses.length := by rw [e1, hm]
  have hv' : iv.length = G1.responses.length := by rw [e1, hiv]
  refine ⟨?_, fun hi => optimal_eq G1 A1 hR1 z z1 _ _ hm' hv' hpos hi _ _ o2' o1⟩
  obtain ⟨r1, r2', hr1, hr2', hrr⟩ := C102_unique G1 A1 hR1 z z1 _ _ hm' hv' hpos _ _ o1 o2'
  refine ⟨r1, r2', hr1, hr2', ?_, hrr⟩
  rcases k1 0 with ⟨r, h3, _, h4⟩ | ⟨e, h3, _⟩
  · rw [hr2'] at h3
    simp only [Except.ok.injEq, NDA.vec, NDA.arr.injEq, List.cons.injEq, and_true] at h3
    obtain rfl := h3.2.2
    exact h4
  · rw [hr2'] at h3; cases h3

/-- C113 for the returned coefficients: with templates of which those of the second fitter are mixtures with nonnegative weights, the fit is at least as good. -/
theorem C113_fit (lib : Lib ℝ) (hlin : SplineLinear lib) (F1 F2 G1 G2 : Fitter ℝ) (g1 g2 : Reg ℝ) (h1 : Built lib F1 G1 g1) (h2 : Built lib F2 G2 g2) (W : List (List ℝ))
    (hp : MixedTemplates F1 F2 g1 g2 W) (hW : ∀ a ∈ W, ∀ v ∈ a, 0 ≤ v) (hcls : F2.abCls = F1.abCls) (hr : AbReady F1.abCls F1.responses.length) (nnls nnls' : Nnls ℝ)
    (hn : NNLSOK nnls) (hn' : NNLSOK nnls') (z : ℝ) (hz : Defined G1 z) (m iv c1 c2 : List ℝ) (hm : m.length = F1.responses.length) (hiv : iv.length = F1.responses.length)
    (hpos : ∀ v ∈ iv, 0 ≤ v) (f1 : Fits nnls G1 z m iv c1) (f2 : Fits nnls' G2 z m iv c2) :
    ∃ r1 r2, G1.reconstruct (some (.scalar z)) (some (.vec c1)) 0 = .ok (.vec r1) ∧ G2.reconstruct (some (.scalar z)) (some (.vec c2)) 0 = .ok (.vec r2) ∧
      chi2 (abM F1.abCls m) (abIv F1.abCls iv) r1 ≤ chi2 (abM F1.abCls m) (abIv F1.abCls iv) r2 := by
  obtain ⟨A1, A2, hR1, hR2, z1, z2⟩ := h1.both h2 hp.grid hz
  obtain ⟨e1, t1, b1⟩ := h1.same
  obtain ⟨e2, t2, b2⟩ := h2.same
  have o1 := fits_optimal hn hR1 (by rw [b1, e1]; exact hr) z1 (by rw [e1]; exact hm) (by rw [e1]; exact hiv) hpos f1
  have o2 := fits_optimal hn' hR2 (by rw [b2, e2, hcls, hp.resp]; exact hr) z2 (by rw [e2, hp.resp]; exact hm) (by rw [e2, hp.resp]; exact hiv) hpos f2
  rw [b1] at o1
  rw [b2, hcls] at o2
  exact C113_mixtures lib hlin F1 F2 G1 G2 g1 g2 h1 h2 W hp hW z _ _ c1 c2 o1 o2

/-- C114 for the returned coefficients, without an AB correction: additional bands do not lower chi-squared of the fit; additional bands without weight leave the returned
coefficients the same, if the photometry determines them. -/
theorem C114_fit (lib : Lib ℝ) (F1 F2 G1 G2 : Fitter ℝ) (g1 g2 : Reg ℝ) (h1 : Built lib F1 G1 g1) (h2 : Built lib F2 G2 g2) (extra : List Name)
    (hp : MoreBands F1 F2 g1 g2 extra) (c1b : F1.abCls = .base) (c2b : F2.abCls = .base) (nnls nnls' : Nnls ℝ) (hn : NNLSOK nnls) (hn' : NNLSOK nnls') (z : ℝ)
    (hz : Defined G1 z) (m iv m' iv' c1 c2 : List ℝ) (hm : m.length = F1.responses.length) (hiv : iv.length = F1.responses.length) (hm' : m'.length = extra.length)
    (hiv' : iv'.length = extra.length) (hpos : ∀ v ∈ iv, 0 ≤ v) (hpos' : ∀ v ∈ iv', 0 ≤ v) (f1 : Fits nnls G1 z m iv c1) (f2 : Fits nnls' G2 z (m ++ m') (iv ++ iv') c2) :
    (∃ r1 r2, G1.reconstruct (some (.scalar z)) (some (.vec c1)) 0 = .ok (.vec r1) ∧ G2.reconstruct (some (.scalar z)) (some (.vec c2)) 0 = .ok (.vec r2) ∧
      chi2 m iv r1 ≤ chi2 (m ++ m') (iv ++ iv') r2) ∧
    ((∀ v ∈ iv', v = 0) → Spec.Indep G1 z iv → c2 = c1) := by
  obtain ⟨A1, A2, hR1, hR2, z1, z2⟩ := h1.both h2 hp.grid hz
  obtain ⟨e1, t1, b1⟩ := h1.same
  obtain ⟨e2, t2, b2⟩ := h2.same
  have o1 := fits_base hn hR1 (b1.trans c1b) z1 (by rw [e1]; exact hm) (by rw [e1]; exact hiv) hpos f1
  have o2 := fits_base hn' hR2 (b2.trans c2b) z2 (by rw [e2, hp.resp]; simp [hm, hm']) (by rw [e2, hp.resp]; simp [hiv, hiv'])
    (fun v hv => (List.mem_append.mp hv).elim (hpos v) (hpos' v)) f2
  refine ⟨C114_more_bands lib F1 F2 G1 G2 g1 g2 h1 h2 extra hp z m iv m' iv' c1 c2 hm hiv hpos' o1 o2, fun h0 hi => ?_⟩
  exact optimal_eq G1 A1 hR1 z z1 _ _ (by rw [e1, hm]) (by rw [e1, hiv]) hpos hi _ _
    ((C114_zero_weight lib F1 F2 G1 G2 g1 g2 h1 h2 extra hp z m iv m' iv' c2 hm hiv h0).mp o2) o1

/-- C178 for the returned coefficients, without an AB correction: the fit to two measurements of a band returns the coefficients of the fit, by a fitter with the band once, to their
weighted mean with the sum of the inverse variances, if the photometry determines the coefficients. -/
theorem C178_fit (lib : Lib ℝ) (F1 F2 G1 G2 : Fitter ℝ) (g1 g2 : Reg ℝ) (h1 : Built lib F1 G1 g1) (h2 : Built lib F2 G2 g2) (n : Name)
    (hp : MoreBands F1 F2 g1 g2 [n]) (c1b : F1.abCls = .base) (c2b : F2.abCls = .base) (nnls nnls' : Nnls ℝ) (hn : NNLSOK nnls) (hn' : NNLSOK nnls') (i : Nat)
    (hi : F1.responses[i]? = some n) (z : ℝ) (hz : Defined G1 z) (m iv c1 c2 : List ℝ) (hm : m.length = F1.responses.length) (hiv : iv.length = F1.responses.length)
    (hpos : ∀ v ∈ iv, 0 ≤ v) (x v x' v' : ℝ) (hx : m[i]? = some x) (hv : iv[i]? = some v) (hv' : 0 ≤ v') (hvv : v + v' ≠ 0)
    (f2 : Fits nnls' G2 z (m ++ [x']) (iv ++ [v']) c2) (f1 : Fits nnls G1 z (m.set i ((v * x + v' * x') / (v + v'))) (iv.set i (v + v')) c1) :
    (∃ r1 r2, G1.reconstruct (some (.scalar z)) (some (.vec c1)) 0 = .ok (.vec r1) ∧ G1.reconstruct (some (.scalar z)) (some (.vec c2)) 0 = .ok (.vec r2) ∧
      ∀ (j : Nat) a, (iv.set i (v + v'))[j]? = some a → 0 < a → r1[j]? = r2[j]?) ∧
    (Spec.Indep G1 z (iv.set i (v + v')) → c2 = c1) := by
  obtain ⟨A1, A2, hR1, hR2, z1, z2⟩ := h1.both h2 hp.grid hz
  obtain ⟨e1, t1, b1⟩ := h1.same
  obtain ⟨e2, t2, b2⟩ := h2.same
  have hv0 := hpos v (List.mem_of_getElem? hv)
  have hset : ∀ a ∈ iv.set i (v + v'), 0 ≤ a := by
    intro a ha
    rcases List.mem_or_eq_of_mem_set ha with h | rfl
    · exact hpos a h
    · linarith
  have o1 := fits_base hn hR1 (b1.trans c1b) z1 (by rw [e1]; simpa using hm) (by rw [e1]; simpa using hiv) hset f1
  have o2 := fits_base hn' hR2 (b2.trans c2b) z2 (by rw [e2, hp.resp]; simp [hm]) (by rw [e2, hp.resp]; simp [hiv])
    (fun a ha => (List.mem_append.mp ha).elim (hpos a) (fun h => by rw [List.mem_singleton.mp h]; exact hv')) f2
  have o2' := (C178_repeated lib F1 F2 G1 G2 g1 g2 h1 h2 n hp i hi z m iv c2 hm hiv x v x' v' hx hv hvv).mp o2
  have hl1 : (m.set i ((v * x + v' * x') / (v + v'))).length = G1.responses.length := by rw [e1]; simpa using hm
  have hl2 : (iv.set i (v + v')).length = G1.responses.length := by rw [e1]; simpa using hiv
  exact ⟨C102_unique G1 A1 hR1 z z1 _ _ hl1 hl2 hset _ _ o1 o2', fun hind => optimal_eq G1 A1 hR1 z z1 _ _ hl1 hl2 hset hind _ _ o2' o1⟩

/-- A built fitter with at most nine templates returns coefficients, with the algorithm of `scipy`, at every redshift at which the model is defined. -/
theorem Built.fits {lib : Lib ℝ} {F G : Fitter ℝ} {g : Reg ℝ} (h : Built lib F G g) (h9 : F.templates.nsed ≤ 9) (hr : AbReady F.abCls F.responses.length) (hnb : F.responses.length ≠ 1)
    {z : ℝ} (hz : Defined G z) {m iv : List ℝ} (hm : m.length = F.responses.length) (hiv : iv.length = F.responses.length) (hpos : ∀ v ∈ iv, 0 ≤ v) :
    ∃ c, Fits (lhNnls 0) G z m iv c := by
  obtain ⟨e, t, b⟩ := h.same
  obtain ⟨A, _, _, _, hR, _⟩ := h.ready
  obtain ⟨c, hc, _⟩ := C184_fit G (by rw [t]; exact h9) (by rw [b, e]; exact hr) (by rw [e]; exact hnb) A hR z (hR.inRange hz) m iv (by rw [e]; exact hm) (by rw [e]; exact hiv)
    hpos (fun _ _ _ => 0)
  exact ⟨c, _, hc⟩

theorem Built.defined {lib : Lib ℝ} {F G : Fitter ℝ} {g : Reg ℝ} (h : Built lib F G g) : ∃ z, Defined G z := by
  obtain ⟨A, _, _, _, hR, _⟩ := h.ready
  have h0 : 0 < A.x.length := by have := hR.good.two; omega
  obtain ⟨r, hr⟩ := hR.defined (inRange_node hR.good.incr h0) (c := List.replicate G.templates.nsed 0) (by simp)
  exact ⟨_, _, hr⟩

/-- Not vacuous: fits with two bands and with the bands exchanged, for any photometry. -/
example : ∃ F1 F2 G1 G2 g1 g2 z, Built demoLib F1 G1 g1 ∧ Built demoLib F2 G2 g2 ∧ Reordered F1 F2 g1 g2 [1, 0] ∧ F1.responses = [['x'], ['y']] ∧
    F1.abCls = .base ∧ F2.abCls = .base ∧ NNLSOK (lhNnls 0) ∧ Defined G1 z ∧
    ∀ a b v w : ℝ, 0 ≤ v → 0 ≤ w → ∃ c1 c2, Fits (lhNnls 0) G1 z [a, b] [v, w] c1 ∧ Fits (lhNnls 0) G2 z (gather [a, b] [1, 0]) (gather [v, w] [1, 0]) c2 := by
  obtain ⟨g, ox, oy, hx, hy, cx, cy⟩ := demo_two
  obtain ⟨G1, g1, b1, x1, y1⟩ := demoPlain_built [['x'], ['y']] (by simp) [[1, 1, 1, 1, 1], [1, 2, 3, 4, 5]] (by simp) (by simp) false g ox oy
    hx hy cx cy
  obtain ⟨G2, g2, b2, x2, y2⟩ := demoPlain_built [['y'], ['x']] (by simp) [[1, 1, 1, 1, 1], [1, 2, 3, 4, 5]] (by simp) (by simp) false g ox oy
    hx hy cx cy
  obtain ⟨z, hz⟩ := b1.defined
  obtain ⟨A1, A2, hR1, hR2, z1, z2⟩ := b1.both b2 rfl hz
  refine ⟨_, _, _, _, _, _, z, b1, b2, ⟨?_, rfl, rfl, ?_, rfl, rfl⟩, rfl, rfl, rfl, C184_contract, hz, ?_⟩
  · show [1, 0].Perm [0, 1]
    exact List.Perm.swap _ _ _
  · intro n hn
    simp only [demoPlain, List.mem_cons, List.not_mem_nil, or_false] at hn
    rcases hn with rfl | rfl
    · rw [x1, x2]
    · rw [y1, y2]
  · intro a b v w hv hw
    obtain ⟨r, hr⟩ := hR2.defined z2 (c := List.replicate G2.templates.nsed 0) (by simp)
    obtain ⟨c1, f1⟩ := b1.fits (by show 2 ≤ 9; norm_num) trivial (by show 2 ≠ 1; norm_num) hz (m := [a, b]) (iv := [v, w]) rfl rfl (by
      intro u hu; simp only [List.mem_cons, List.not_mem_nil, or_false] at hu; rcases hu with rfl | rfl <;> assumption)
    obtain ⟨c2, f2⟩ := b2.fits (by show 2 ≤ 9; norm_num) trivial (by show 2 ≠ 1; norm_num) ⟨_, hr⟩ (m := [b, a]) (iv := [w, v]) rfl rfl (by
      intro u hu; simp only [List.mem_cons, List.not_mem_nil, or_false] at hu; rcases hu with rfl | rfl <;> assumption)
    exact ⟨c1, c2, f1, f2⟩

end KC
