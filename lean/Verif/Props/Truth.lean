import Verif.Props.FitReal
import Verif.Props.Absmag
import Verif.Props.Derived

/-!
# From photometry to absolute magnitudes and masses (C100, C101, C102)
-/

namespace KC
open Spec

/-! ### C102: the fitted photometry does not depend on the solver -/

theorem chi2_cons (a b c : ℝ) (m iv r : List ℝ) : chi2 (a :: m) (b :: iv) (c :: r) = b * (a - c) ^ 2 + chi2 m iv r := by
  simp only [chi2, List.zipWith_cons_cons, List.sum_cons]

/-- Chi-squared of the mean of two models. -/
theorem chi2_mid : ∀ (m iv r r' : List ℝ), m.length = r.length → r.length = r'.length → iv.length = r.length →
    4 * chi2 m iv (List.zipWith (fun a b => 1 / 2 * a + 1 / 2 * b) r r') = 2 * chi2 m iv r + 2 * chi2 m iv r' - chi2 r iv r'
  | [], iv, [], [], _, _, _ => by simp [chi2]
  | a :: m, b :: iv, c :: r, d :: r', h1, h2, h3 => by
    have ih := chi2_mid m iv r r' (by simpa using h1) (by simpa using h2) (by simpa using h3)
    rw [List.zipWith_cons_cons, chi2_cons, chi2_cons, chi2_cons, chi2_cons]
    linarith [ih]
  | [], _, _ :: _, _, h, _, _ => by simp at h
  | _ :: _, _, [], _, h, _, _ => by simp at h
  | _, _, [], _ :: _, _, h, _ => by simp at h
  | _, _, _ :: _, [], _, h, _ => by simp at h
  | _, [], _ :: _, _, _, _, h => by simp at h

theorem dot_mid : ∀ row c c' : List ℝ, c.length = c'.length →
    dot row (List.zipWith (fun a b => 1 / 2 * a + 1 / 2 * b) c c') = 1 / 2 * dot row c + 1 / 2 * dot row c'
  | [], c, c', _ => by simp [dot, sumL_real]
  | _ :: _, [], [], _ => by simp [dot, sumL_real]
  | a :: row, b :: c, d :: c', h => by
    rw [List.zipWith_cons_cons, dot_cons, dot_cons, dot_cons, dot_mid row c c' (by simpa using h)]; ring
  | _ :: _, [], _ :: _, h => by simp at h
  | _ :: _, _ :: _, [], h => by simp at h

theorem mulVec_mid (M : List (List ℝ)) (c c' : List ℝ) (h : c.length = c'.length) :
    mulVec M (List.zipWith (fun a b => 1 / 2 * a + 1 / 2 * b) c c') =
      List.zipWith (fun a b => 1 / 2 * a + 1 / 2 * b) (mulVec M c) (mulVec M c') := by
  induction M with
  | nil => rfl
  | cons row M ih =>
    simp only [mulVec, List.map_cons, List.zipWith_cons_cons] at ih ⊢
    rw [ih, dot_mid row c c' h]

/-- C102: two optimal coefficient vectors give the same model maggies in every band with positive inverse variance. -/
theorem C102_unique (F : Fitter ℝ) (Am : AMat ℝ) (hR : Ready F Am) (z : ℝ) (hz : InRange Am.x z) (m iv : List ℝ)
    (hm : m.length = F.responses.length) (hiv : iv.length = F.responses.length) (hpos : ∀ v ∈ iv, 0 ≤ v) (c c' : List ℝ)
    (hc : Optimal F z m iv c) (hc' : Optimal F z m iv c') :
    ∃ r r', F.reconstruct (some (.scalar z)) (some (.vec c)) 0 = .ok (.vec r) ∧
      F.reconstruct (some (.scalar z)) (some (.vec c')) 0 = .ok (.vec r') ∧
      ∀ (j : Nat) v, iv[j]? = some v → 0 < v → r[j]? = r'[j]? := by
  obtain ⟨M, hM⟩ := (at_ok_iff hR.good.ne).mpr hz
  have hsh := at_shaped hR.good hM
  rw [optimal_iff hR hM] at hc hc'
  obtain ⟨h1, h2, h3⟩ := hc
  obtain ⟨h1', h2', h3'⟩ := hc'
  have hl : ∀ c, (mulVec M c).length = F.responses.length := fun c => by rw [mulVec, List.length_map, hsh.1, hR.rows]
  refine ⟨_, _, recon_ready hR hM h1, recon_ready hR hM h1', ?_⟩
  have hmid := h3 (List.zipWith (fun a b => 1 / 2 * a + 1 / 2 * b) c c') (by simp [h1, h1']) (by
    intro v hv
    obtain ⟨i, hi, rfl⟩ := List.mem_iff_getElem.mp hv
    simp only [List.getElem_zipWith]
    have a := h2 _ (List.getElem_mem (by simp at hi; omega : i < c.length))
    have b := h2' _ (List.getElem_mem (by simp at hi; omega : i < c'.length))
    linarith)
  have e := chi2_mid m iv (mulVec M c) (mulVec M c') (by rw [hl, hm]) (by rw [hl, hl]) (by rw [hl, hiv])
  rw [← mulVec_mid M c c' (by rw [h1, h1'])] at e
  have hle := h3' c h1 h2
  have hd : chi2 (mulVec M c) iv (mulVec M c') ≤ 0 := by
    have := h3 c' h1' h2'
    linarith
  intro j v hv hvp
  have hj : j < F.responses.length := by rw [← hiv]; exact (List.getElem?_eq_some_iff.mp hv).1
  have hj1 : j < (mulVec M c).length := by rw [hl]; exact hj
  have hj2 : j < (mulVec M c').length := by rw [hl]; exact hj
  rw [List.getElem?_eq_getElem hj1, List.getElem?_eq_getElem hj2]
  exact congrArg some (chi2_zero _ iv _ hpos hd j v _ _ hv hvp (List.getElem?_eq_getElem hj1) (List.getElem?_eq_getElem hj2))

/-- C102: with any two solvers that keep their contract, the fitted coefficients reconstruct the same maggies in every band with positive
inverse variance. -/
theorem C102_solver (nnls nnls' : Nnls ℝ) (hn : NNLSOK nnls) (hn' : NNLSOK nnls') (F : Fitter ℝ) (hF : NoAb F) (Am : AMat ℝ)
    (hR : Ready F Am) (z : ℝ) (hz : InRange Am.x z) (m iv : List ℝ) (hm : m.length = F.responses.length)
    (hiv : iv.length = F.responses.length) (hpos : ∀ v ∈ iv, 0 ≤ v) (noise noise' : Nat → Nat → Nat → ℝ) (out out' : FitOut ℝ)
    (h : F.fitCoeffs nnls (some (.scalar z)) (some (.vec m)) (some (.vec iv)) 0 noise = .ok out)
    (h' : F.fitCoeffs nnls' (some (.scalar z)) (some (.vec m)) (some (.vec iv)) 0 noise' = .ok out') :
    ∃ r r', F.reconstruct (some (.scalar z)) (some out.coeffs) 0 = .ok (.vec r) ∧
      F.reconstruct (some (.scalar z)) (some out'.coeffs) 0 = .ok (.vec r') ∧
      ∀ (j : Nat) v, iv[j]? = some v → 0 < v → r[j]? = r'[j]? := by
  obtain ⟨c, rfl, ho⟩ := C49_optimal nnls hn F hF Am hR z hz m iv hm hiv hpos noise out h
  obtain ⟨c', rfl, ho'⟩ := C49_optimal nnls' hn' F hF Am hR z hz m iv hm hiv hpos noise' out' h'
  exact C102_unique F Am hR z hz m iv hm hiv hpos c c' ho ho'

/-! ### C100: noise-free photometry -/

/-- The bands with positive inverse variance determine the mixture `c0`: no other nonnegative mixture of the templates has the same maggies
in these bands. -/
def Determined (F : Fitter ℝ) (z : ℝ) (m iv c0 : List ℝ) : Prop :=
  ∀ c r : List ℝ, c.length = F.templates.nsed → (∀ v ∈ c, 0 ≤ v) →
    F.reconstruct (some (.scalar z)) (some (.vec c)) 0 = .ok (.vec r) →
    (∀ (j : Nat) v, iv[j]? = some v → 0 < v → r[j]? = m[j]?) → c = c0

theorem sum_pos_of_dot {row c : List ℝ} (hc : ∀ v ∈ c, 0 ≤ v) (h : 0 < dot row c) : 0 < c.sum := by
  by_contra hs
  have h0 : c.sum = 0 := le_antisymm (not_lt.mp hs) (List.sum_nonneg hc)
  have hz : ∀ v ∈ c, v = 0 := by
    intro v hv
    have := List.single_le_sum hc v hv
    exact le_antisymm (by linarith) (hc v hv)
  have : dot row c = 0 := by
    rw [dot, sumL_real]
    apply List.sum_eq_zero
    intro x hx
    obtain ⟨i, hi, rfl⟩ := List.mem_iff_getElem.mp hx
    simp only [List.getElem_zipWith]
    rw [hz _ (List.getElem_mem (by simp at hi; omega : i < c.length))]
    simp
  rw [this] at h; exact lt_irrefl _ h

/-- C100: photometry without noise of a nonnegative mixture `c0` of the templates, in bands that determine the mixture.  The fit returns
`c0`, and in every output band whose mapped input band was observed `absmag` returns the absolute magnitude of the mixture itself: its
magnitude in the output band at rest (band-shifted) minus the distance modulus. -/
theorem C100_true_absmag (nnls : Nnls ℝ) (hn : NNLSOK nnls) (K : Kc ℝ) (hF : NoAb K.toFitter) (A Ao : AMat ℝ) (hR : Ready K.toFitter A)
    (hAo : K.AmatrixOut = some Ao) (z : ℝ) (hz : InRange A.x z) (m iv c0 : List ℝ) (hc0 : c0.length = K.templates.nsed)
    (hc0p : ∀ v ∈ c0, 0 ≤ v) (hm : K.reconstruct (some (.scalar z)) (some (.vec c0)) 0 = .ok (.vec m))
    (hiv : iv.length = K.responses.length) (hpos : ∀ v ∈ iv, 0 ≤ v) (hdet : Determined K.toFitter z m iv c0)
    (noise : Nat → Nat → Nat → ℝ) (out : FitOut ℝ)
    (hfit : K.toFitter.fitCoeffs nnls (some (.scalar z)) (some (.vec m)) (some (.vec iv)) 0 noise = .ok out) :
    out.coeffs = .vec c0 ∧
    ∀ (bs : ℝ) (dist : Option ℝ) (a b : NDA ℝ), (∀ d ∈ dist, 0 < d) →
      K.absmag (some (.vec m)) (some (.vec iv)) (some (.scalar z)) (some out.coeffs) bs (dist.map .scalar) false false false = .ok (.one a) →
      K.reconstructOut (some (.scalar 0)) (some (.vec c0)) bs = .ok b →
      ∀ (j i : Nat) mv v fb, K.imap[j]? = some i → m[i]? = some mv → 0 < mv → iv[i]? = some v → 0 < v → entry b 0 j = some fb → 0 < fb →
        entry a 0 j = some (mag fb - dmSpec K.distmod z dist) := by
  obtain ⟨M, hM⟩ := (at_ok_iff hR.good.ne).mpr hz
  have hsh := at_shaped hR.good hM
  have hmm : m = mulVec M c0 := by
    have hm' := hm
    rw [recon_ready hR hM hc0] at hm'
    simp only [Except.ok.injEq, NDA.vec, NDA.arr.injEq, List.cons.injEq, and_true] at hm'
    exact hm'.2.2.symm
  have hml : m.length = K.responses.length := by rw [hmm, mulVec, List.length_map, hsh.1, hR.rows]
  obtain ⟨c, rfl, ho⟩ := C49_optimal nnls hn K.toFitter hF A hR z hz m iv hml hiv hpos noise out hfit
  obtain ⟨r, hr, hrm⟩ := C61_recovered nnls hn K.toFitter hF A hR z hz m iv c0 hc0 hc0p hm hiv hpos noise _ hfit
  have hcc : c = c0 := hdet c r ho.1 ho.2.1 hr hrm
  subst hcc
  refine ⟨rfl, ?_⟩
  intro bs dist a b hd ha hb j i mv v fb hj hmi hmv hvi hv hfb hfbp
  obtain ⟨hex, hform⟩ := C70_formula_partial K hF A Ao hR.set hAo z m iv c hml hiv hc0 bs dist hd
  obtain ⟨k, hk⟩ := hex.mp ⟨a, ha⟩
  obtain ⟨_, hent⟩ := hform a k ha hk
  obtain ⟨_, hkf⟩ := C67_model_magnitudes K A Ao hR.set hAo z bs c hc0
  obtain ⟨_, _, hk2⟩ := hkf k _ b hk hm hb
  have hsum : 0 < c.sum := by
    have : m[i]? = some mv := hmi
    rw [hmm, mulVec, List.getElem?_map] at this
    obtain ⟨row, _, hrow⟩ := Option.map_eq_some_iff.mp this
    exact sum_pos_of_dot hc0p (by rw [hrow]; exact hmv)
  have hke := hk2 hsum j i mv fb hj (by simpa [entry, NDA.vec] using hmi) hfb hmv hfbp
  rw [hent j i mv v _ hj hmi hvi hke, if_pos ⟨hmv, hv⟩]
  congr 1; ring

/-- Two bands, two templates, default output bands. -/
noncomputable def demoKc2 : Kc ℝ := ⟨demoFitter2, [['x'], ['y']], [['x'], ['y']], some demoAm2, [0, 1], fun z => z⟩

/-- At redshift 2 the matrix is ((1, 2), (3/2, 3/2)). -/
theorem demoAm2_at2 : demoAm2.at 2 = .ok [[1, 2], [3 / 2, 3 / 2]] := by
  rw [at_in (by simp [demoAm2]) (by norm_num [InRange, demoAm2])]
  have : searchLeft demoAm2.x 2 = 2 := by
    rw [searchLeft_real]; norm_num [demoAm2]
  simp only [this]
  norm_num [demoAm2, clipIdx, ent, linBetween, linEntry]

/-- Not vacuous (C100, C102): photometry of the mixture (1, 5) at redshift 2, which the two bands determine. -/
theorem demo_noise_free : ∃ m out, Ready demoKc2.toFitter demoAm2 ∧ InRange demoAm2.x 2 ∧
    demoKc2.reconstruct (some (.scalar 2)) (some (.vec [1, 5])) 0 = .ok (.vec m) ∧ Determined demoKc2.toFitter 2 m [1, 4] [1, 5] ∧
    demoKc2.toFitter.fitCoeffs demoNnls (some (.scalar 2)) (some (.vec m)) (some (.vec [1, 4])) 0 (fun _ _ _ => 0) = .ok out ∧
    ∀ v ∈ m, 0 < v := by
  obtain ⟨m, out, h1, h2, h3⟩ := demo_fit_returns
  have hr : ∀ c : List ℝ, c.length = 2 → demoFitter2.reconstruct (some (.scalar 2)) (some (.vec c)) 0 =
      .ok (.vec (mulVec [[1, 2], [3 / 2, 3 / 2]] c)) := fun c hc => recon_ready demo_ready demoAm2_at2 hc
  have hm : m = [11, 9] := by
    have := h1
    rw [hr _ rfl] at this
    simp only [Except.ok.injEq, NDA.vec, NDA.arr.injEq, List.cons.injEq, and_true] at this
    rw [← this.2.2]
    simp [mulVec, dot, sumL_real]; norm_num
  refine ⟨m, out, demo_ready, by norm_num [InRange, demoAm2], h1, ?_, h3, by rw [hm]; simp⟩
  intro c r hc _ hcr hj
  match c, hc with
  | [x, y], _ =>
    have hcr' : demoFitter2.reconstruct (some (.scalar 2)) (some (.vec [x, y])) 0 = .ok (.vec r) := hcr
    rw [hr _ rfl] at hcr'
    simp only [Except.ok.injEq, NDA.vec, NDA.arr.injEq, List.cons.injEq, and_true] at hcr'
    have a := hj 0 1 rfl (by norm_num)
    have b := hj 1 4 rfl (by norm_num)
    rw [← hcr'.2.2, hm] at a b
    simp [mulVec, dot, sumL_real] at a b
    have hy : y = 5 := by linarith
    have hx : x = 1 := by linarith
    rw [hx, hy]

/-! ### C101: masses, mass-to-light ratios and absolute magnitudes agree -/

/-- C101: mass = mass-to-light ratio × luminosity.  In every output band with positive model flux the mass that `derived` returns is the
mass-to-light ratio it returns times the luminosity, in units of the Sun's in that band, of the model's absolute magnitude. -/
theorem C101_mass_light (K : Kc ℝ) (t : Tmpl ℝ) (Ao : AMat ℝ) (h : MassKc K t Ao) (hg : AMat.Good Ao) (g : Reg ℝ) (z : ℝ) (c : List ℝ)
    (hc : c.length = K.templates.nsed) (bs : ℝ) (D : Derived ℝ)
    (hD : K.derived g (some (.scalar z)) (some (.vec c)) bs none = .ok D) :
    ∃ o mass, K.reconstructOut (some (.scalar 0)) (some (.vec c)) bs = .ok o ∧ D.mremain = .scalar mass ∧
      ∀ (j : Nat) n r s v q, K.responsesOut[j]? = some n → g n = some r → r.solarMag = some s → entry o 0 j = some v → 0 < v →
        entry D.mtol 0 j = some q → mass = q * 10 ^ (-0.4 * (mag v - K.distmod z - s)) := by
  obtain ⟨o, ho, _, hq⟩ := C78_formula K t Ao h hg g z c hc bs D hD
  obtain ⟨_, _, _, _, v⟩ := derived_vals h hg g z c hc bs D hD
  refine ⟨o, _, ho, v.mremain, ?_⟩
  intro j n r s w q hn hr hs hw hw0 hqe
  rw [hq j n r s w hn hr hs hw, if_pos hw0, Option.some.injEq] at hqe
  have hlum : (10 : ℝ) ^ (-0.4 * (mag w - K.distmod z - s)) = w * 10 ^ (0.4 * s) * lumFactor (K.distmod z) := by
    have e : -0.4 * (mag w - K.distmod z - s) = Real.logb 10 w + 0.4 * s + 0.4 * K.distmod z := by
      unfold mag; ring
    rw [e, Real.rpow_add (by norm_num), Real.rpow_add (by norm_num), Real.rpow_logb (by norm_num) (by norm_num) hw0, lumFactor]
  have hp : (0 : ℝ) < 10 ^ (0.4 * s) := Real.rpow_pos_of_pos (by norm_num) _
  rw [← hqe, hlum]
  field_simp

/-- Not vacuous: the demonstration object with masses, at redshift 1. -/
example : ∃ D o v, demoMass.derived demoReg (some (.scalar 1)) (some (.vec [2, 1])) 0 none = .ok D ∧
    demoMass.reconstructOut (some (.scalar 0)) (some (.vec [2, 1])) 0 = .ok o ∧ entry o 0 0 = some v ∧ 0 < v := by
  obtain ⟨D, hD⟩ := demo_derived
  obtain ⟨o, ho, _, _⟩ := C78_formula demoMass demoTmpl demoAm demoMass_ok demoAm_good demoReg 1 [2, 1] rfl 0 D hD
  refine ⟨D, o, 4, hD, ho, ?_, by norm_num⟩
  unfold Kc.reconstructOut at ho
  rw [show demoMass.AmatrixOut = some demoAm from rfl, recon_real _ _ _ _ _ rfl,
    show ((1 : ℝ) + 0) * (1 + 0) - 1 = 0 by norm_num, demoAm_at0] at ho
  simp only [Except.map, Except.ok.injEq] at ho
  rw [← ho]
  simp [entry, reconRow, dot, sumL_real]; norm_num

end KC
