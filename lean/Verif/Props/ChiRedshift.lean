import Verif.Lemmas.ChiCont
import Verif.Props.Between
import Verif.Props.Spectrum
import Verif.Props.AbClasses
import Verif.Props.LawsonHanson

/-!
# Best-fit chi-squared as a function of the redshift (C199)
-/

namespace KC
open Spec
open Topology

theorem chi2_sum : ∀ (J : Nat) (m iv r : List ℝ), m.length = J → iv.length = J → r.length = J →
    chi2 m iv r = ∑ j : Fin J, ent iv j * (ent m j - ent r j) ^ 2
  | 0, m, iv, r, h1, h2, h3 => by
    rw [List.length_eq_zero_iff] at h1 h2 h3
    subst h1 h2 h3
    simp [chi2]
  | J + 1, x :: m, v :: iv, y :: r, h1, h2, h3 => by
    have e : chi2 (x :: m) (v :: iv) (y :: r) = v * (x - y) ^ 2 + chi2 m iv r := by simp [chi2]
    rw [Fin.sum_univ_succ, e, chi2_sum J m iv r (by simpa using h1) (by simpa using h2) (by simpa using h3)]
    simp [ent]

/-- Entry `i`, `t` of the interpolated matrix at `q`. -/
noncomputable def atEntry (A : AMat ℝ) (i t : Nat) (q : ℝ) : ℝ :=
  match A.at q with
  | .ok M => ent (M.getD i []) t
  | .error _ => 0

theorem atEntry_ok {A : AMat ℝ} {q : ℝ} {M : List (List ℝ)} (h : A.at q = .ok M) (i t : Nat) : atEntry A i t q = ent (M.getD i []) t := by
  unfold atEntry; rw [h]

/-- Every entry of the interpolated matrix is continuous in the redshift. -/
theorem atEntry_continuous {A : AMat ℝ} (hA : A.Good) {i t : Nat} (hi : i < A.nrow) (ht : t < A.ncol) : ContinuousOn (atEntry A i t) {q | InRange A.x q} := by
  let S : Fin A.x.length → Set ℝ := fun k => {q | ent A.x k ≤ q ∧ q ≤ ent A.x (k + 1) ∧ (k : Nat) + 1 < A.x.length}
  have hU : {q | InRange A.x q} ⊆ ⋃ k, S k := by
    intro q hq
    obtain ⟨q1, q2, q3, q4⟩ := bracket_idx hA.incr hA.two hq
    refine Set.mem_iUnion.mpr ⟨⟨clipIdx A.x.length (searchLeft A.x q) - 1, by omega⟩, q3, ?_, ?_⟩
    · have : clipIdx A.x.length (searchLeft A.x q) - 1 + 1 = clipIdx A.x.length (searchLeft A.x q) := by omega
      simp only [this]; exact q4
    · simp only; omega
  refine ContinuousOn.mono ?_ hU
  apply LocallyFinite.continuousOn_iUnion (locallyFinite_of_finite S)
  · intro k
    by_cases hk : (k : Nat) + 1 < A.x.length
    · have : S k = Set.Icc (ent A.x k) (ent A.x (k + 1)) := by
        ext q
        simp only [S, Set.mem_ofPred_eq, Set.mem_Icc]
        tauto
      rw [this]; exact isClosed_Icc
    · have : S k = ∅ := by
        ext q
        simp only [S, Set.mem_ofPred_eq, Set.mem_empty_iff_false, iff_false]
        tauto
      rw [this]; exact isClosed_empty
  · intro k
    have hc : ContinuousOn (fun q : ℝ => linEntry (ent A.x k) (ent A.x (k + 1)) q (ent ((A.ys.getD k []).getD i []) t) (ent ((A.ys.getD (k + 1) []).getD i []) t))
        (S k) := by
      apply Continuous.continuousOn
      unfold linEntry
      fun_prop
    refine hc.congr ?_
    rintro q ⟨h1, h2, h3⟩
    rw [atEntry_ok (at_cell hA h3 h1 h2)]
    have s1 := hA.ys_shaped (k := k) (by omega)
    have s2 := hA.ys_shaped (k := k + 1) h3
    generalize A.ys.getD k [] = Y1 at *
    generalize A.ys.getD (k + 1) [] = Y2 at *
    have l1 : i < Y1.length := by rw [s1.1]; exact hi
    have l2 : i < Y2.length := by rw [s2.1]; exact hi
    have r1 : t < (Y1[i]).length := by rw [s1.2 _ (List.getElem_mem l1)]; exact ht
    have r2 : t < (Y2[i]).length := by rw [s2.2 _ (List.getElem_mem l2)]; exact ht
    simp [ent, linBetween, List.getD_eq_getElem?_getD, l1, l2, r1, r2]

/-- For every band and template there is a continuous function of the redshift, and the model of the coefficients `c` is the sum of these weighted with `c`. -/
theorem Ready.model {F : Fitter ℝ} {A : AMat ℝ} (hR : Ready F A) :
    ∃ a : Fin F.responses.length → Fin F.templates.nsed → {z : ℝ // InRange A.x z} → ℝ, (∀ j t, Continuous (a j t)) ∧
      ∀ (z : {z : ℝ // InRange A.x z}) (c : List ℝ), c.length = F.templates.nsed →
        F.reconstruct (some (.scalar z.1)) (some (.vec c)) 0 = .ok (.vec (List.ofFn (fun j => ∑ t, a j t z * ent c t))) := by
  refine ⟨fun j t z => atEntry A j t z.1, fun j t => continuousOn_iff_continuous_domRestrict.mp
    (atEntry_continuous hR.good (by rw [hR.rows]; exact j.2) (by rw [hR.cols]; exact t.2)), ?_⟩
  intro z c hc
  obtain ⟨M, hM⟩ := (at_ok_iff hR.good.ne).mpr z.2
  have hsh := at_shaped hR.good hM
  have hlen : M.length = F.responses.length := hsh.1.trans hR.rows
  unfold Fitter.reconstruct
  rw [hR.set, recon_real _ _ _ _ _ hc, show (1 + z.1) * (1 + 0) - 1 = z.1 by ring, hM]
  have e : reconRow 0 M c = List.ofFn (fun j : Fin F.responses.length => ∑ t : Fin F.templates.nsed, atEntry A j t z.1 * ent c t) := by
    apply List.ext_getElem (by simp [reconRow, hlen])
    intro j h1 h2
    have hj : j < F.responses.length := by simpa using h2
    have hj' : j < M.length := by omega
    have ft : ∀ t : Nat, atEntry A j t z.1 = ent (M[j]) t := by
      intro t
      rw [atEntry_ok hM]
      simp [List.getD_eq_getElem?_getD, hj']
    simp only [reconRow, List.getElem_map, List.getElem_ofFn, real_lit, ft]
    rw [dot_sum]
    simp only [Rat.cast_one, add_zero, div_one]
    refine Fintype.sum_equiv (finCongr hc) _ _ (fun i => ?_)
    simp [ent]
  simp only [Except.map, e, NDA.vec, hR.rows, List.length_ofFn]

/-- A best fit, in the form of `chiAt`. -/
theorem Ready.optimal {F : Fitter ℝ} {A : AMat ℝ} (hR : Ready F A)
    {a : Fin F.responses.length → Fin F.templates.nsed → {z : ℝ // InRange A.x z} → ℝ}
    (ha : ∀ (z : {z : ℝ // InRange A.x z}) (c : List ℝ), c.length = F.templates.nsed →
        F.reconstruct (some (.scalar z.1)) (some (.vec c)) 0 = .ok (.vec (List.ofFn (fun j => ∑ t, a j t z * ent c t))))
    (nnls : Nnls ℝ) (hn : NNLSOK nnls) (hr : AbReady F.abCls F.responses.length) (m iv : List ℝ) (hm : m.length = F.responses.length)
    (hiv : iv.length = F.responses.length) (hpos : ∀ v ∈ iv, 0 ≤ v) (z : {z : ℝ // InRange A.x z}) (noise : Nat → Nat → Nat → ℝ) (out : FitOut ℝ)
    (hf : F.fitCoeffs nnls (some (.scalar z.1)) (some (.vec m)) (some (.vec iv)) 0 noise = .ok out) :
    ∃ (c : Fin F.templates.nsed → ℝ) (r : List ℝ), out.coeffs = .vec (List.ofFn c) ∧ (∀ t, 0 ≤ c t) ∧ F.reconstruct (some (.scalar z.1)) (some out.coeffs) 0 = .ok (.vec r) ∧
      r = List.ofFn (fun j => ∑ t, a j t z * c t) ∧
      chi2 (abM F.abCls m) (abIv F.abCls iv) r = chiAt a (fun j => ent (abIv F.abCls iv) j) (fun j => ent (abM F.abCls m) j) z c ∧
      ∀ y : Fin F.templates.nsed → ℝ, (∀ t, 0 ≤ y t) → chi2 (abM F.abCls m) (abIv F.abCls iv) r ≤
        chiAt a (fun j => ent (abIv F.abCls iv) j) (fun j => ent (abM F.abCls m) j) z y := by
  obtain ⟨c, rfl, hl, hc0, rc, hrc, hopt⟩ := C49_ab nnls hn F hr A hR z.1 z.2 m iv hm hiv hpos noise out hf
  have val : ∀ y : List ℝ, y.length = F.templates.nsed → chi2 (abM F.abCls m) (abIv F.abCls iv) (List.ofFn (fun j => ∑ t, a j t z * ent y t)) =
      chiAt a (fun j => ent (abIv F.abCls iv) j) (fun j => ent (abM F.abCls m) j) z (fun t => ent y t) := by
    intro y hy
    rw [chi2_sum F.responses.length _ _ _ (by rw [abM_length]; exact hm) (by rw [abIv_length]; exact hiv) (by simp), chiAt_def]
    refine Finset.sum_congr rfl (fun j _ => ?_)
    congr 3
    simp [ent]
  have hrc' := ha z c hl
  have hrc0 : F.reconstruct (some (.scalar z.1)) (some (.vec c)) 0 = .ok (.vec rc) := hrc
  rw [hrc0] at hrc'
  simp only [Except.ok.injEq, NDA.vec, NDA.arr.injEq, List.cons.injEq, and_true] at hrc'
  obtain rfl := hrc'.2.2
  refine ⟨fun t => ent c t, _, ?_, fun t => ?_, hrc, rfl, val c hl, fun y hy => ?_⟩
  · show NDA.vec c = NDA.vec _
    congr 1
    apply List.ext_getElem (by simp [hl])
    intro i h1 h2
    rw [List.getElem_ofFn, ent_some h1]
  · have : (t : Nat) < c.length := by rw [hl]; exact t.2
    simp only [ent_some this]
    exact hc0 _ (List.getElem_mem this)
  · have ly : (List.ofFn y).length = F.templates.nsed := by simp
    obtain ⟨ry, hry, hle⟩ := hopt (List.ofFn y) ly (by
      intro v hv
      obtain ⟨t, rfl⟩ := List.mem_ofFn.mp hv
      exact hy t)
    have hry' := ha z _ ly
    have hry0 : F.reconstruct (some (.scalar z.1)) (some (.vec (List.ofFn y))) 0 = .ok (.vec ry) := hry
    rw [hry0] at hry'
    simp only [Except.ok.injEq, NDA.vec, NDA.arr.injEq, List.cons.injEq, and_true] at hry'
    obtain rfl := hry'.2.2
    refine hle.trans (le_of_eq ((val _ ly).trans ?_))
    congr 1
    funext t
    simp [ent]

/-- C199: a small change of the redshift does not make the best fit much worse: chi-squared of the best fit does not jump up. -/
theorem C199_no_jump_up (nnls : Nnls ℝ) (hn : NNLSOK nnls) (F : Fitter ℝ) (A : AMat ℝ) (hR : Ready F A)
    (hr : AbReady F.abCls F.responses.length) (m iv : List ℝ) (hm : m.length = F.responses.length)
    (hiv : iv.length = F.responses.length) (hpos : ∀ v ∈ iv, 0 ≤ v) (z0 : ℝ) (hz0 : InRange A.x z0) (noise0 : Nat → Nat → Nat → ℝ) (out0 : FitOut ℝ)
    (h0 : F.fitCoeffs nnls (some (.scalar z0)) (some (.vec m)) (some (.vec iv)) 0 noise0 = .ok out0) (ε : ℝ) (hε : 0 < ε) :
    ∃ δ > 0, ∀ (z : ℝ) (noise : Nat → Nat → Nat → ℝ) (out : FitOut ℝ), InRange A.x z → |z - z0| < δ →
      F.fitCoeffs nnls (some (.scalar z)) (some (.vec m)) (some (.vec iv)) 0 noise = .ok out →
      ∃ r0 r, F.reconstruct (some (.scalar z0)) (some out0.coeffs) 0 = .ok (.vec r0) ∧ F.reconstruct (some (.scalar z)) (some out.coeffs) 0 = .ok (.vec r) ∧
        chi2 (abM F.abCls m) (abIv F.abCls iv) r < chi2 (abM F.abCls m) (abIv F.abCls iv) r0 + ε := by
  obtain ⟨a, ac, am⟩ := hR.model
  obtain ⟨c0, r0, -, p0, e0, -, v0, -⟩ := hR.optimal am nnls hn hr m iv hm hiv hpos ⟨z0, hz0⟩ noise0 out0 h0
  obtain ⟨δ, hδ, hd⟩ := Metric.eventually_nhds_iff.mp (chiAt_near ac (fun j => ent (abIv F.abCls iv) j) (fun j => ent (abM F.abCls m) j) ⟨z0, hz0⟩ c0 hε)
  refine ⟨δ, hδ, fun z noise out h1 hz hf => ?_⟩
  obtain ⟨c, r, -, p, e, -, v, o⟩ := hR.optimal am nnls hn hr m iv hm hiv hpos ⟨z, h1⟩ noise out hf
  refine ⟨r0, r, e0, e, ?_⟩
  rw [v0]
  exact (o c0 p0).trans_lt (hd (y := ⟨z, h1⟩) hz)

/-- C199: chi-squared of the best fit is continuous in the redshift, where the templates have no negative flux and each has flux in one of the bands of
positive inverse variance. -/
theorem C199_continuous (nnls : Nnls ℝ) (hn : NNLSOK nnls) (F : Fitter ℝ) (A : AMat ℝ) (hR : Ready F A)
    (hr : AbReady F.abCls F.responses.length) (m iv : List ℝ) (hm : m.length = F.responses.length)
    (hiv : iv.length = F.responses.length) (hpos : ∀ v ∈ iv, 0 ≤ v) (z0 : ℝ) (hz0 : InRange A.x z0)
    (hnn : ∀ t < F.templates.nsed, ∀ z a, InRange A.x z → F.reconstruct (some (.scalar z)) (some (.vec (alone F.templates.nsed t))) 0 = .ok (.vec a) →
      ∀ x ∈ a, 0 ≤ x)
    (hfl : ∀ t < F.templates.nsed, ∃ (a : List ℝ) (j : Nat) (v x : ℝ), F.reconstruct (some (.scalar z0)) (some (.vec (alone F.templates.nsed t))) 0 = .ok (.vec a) ∧
      iv[j]? = some v ∧ a[j]? = some x ∧ 0 < v ∧ 0 < x) (noise0 : Nat → Nat → Nat → ℝ) (out0 : FitOut ℝ)
    (h0 : F.fitCoeffs nnls (some (.scalar z0)) (some (.vec m)) (some (.vec iv)) 0 noise0 = .ok out0) (ε : ℝ) (hε : 0 < ε) :
    ∃ δ > 0, ∀ (z : ℝ) (noise : Nat → Nat → Nat → ℝ) (out : FitOut ℝ), InRange A.x z → |z - z0| < δ →
      F.fitCoeffs nnls (some (.scalar z)) (some (.vec m)) (some (.vec iv)) 0 noise = .ok out →
      ∃ r0 r, F.reconstruct (some (.scalar z0)) (some out0.coeffs) 0 = .ok (.vec r0) ∧ F.reconstruct (some (.scalar z)) (some out.coeffs) 0 = .ok (.vec r) ∧
        |chi2 (abM F.abCls m) (abIv F.abCls iv) r - chi2 (abM F.abCls m) (abIv F.abCls iv) r0| < ε := by
  obtain ⟨a, ac, am⟩ := hR.model
  obtain ⟨c0, r0, -, p0, e0, -, v0, o0⟩ := hR.optimal am nnls hn hr m iv hm hiv hpos ⟨z0, hz0⟩ noise0 out0 h0
  have alone_val : ∀ (z : {z : ℝ // InRange A.x z}) (t : Fin F.templates.nsed), F.reconstruct (some (.scalar z.1)) (some (.vec (alone F.templates.nsed t))) 0 =
      .ok (.vec (List.ofFn (fun j => a j t z))) := by
    intro z t
    rw [am z _ (alone_length _ _)]
    congr 3
    funext j
    rw [Finset.sum_eq_single t]
    · simp [ent, alone]
    · intro s _ hs
      have : (s : Nat) ≠ t := fun e => hs (Fin.ext e)
      simp [ent, alone, this]
    · simp
  have hn0 : ∀ j t z, 0 ≤ a j t z := fun j t z => hnn t t.2 z.1 _ z.2 (alone_val z t) _ (List.mem_ofFn.mpr ⟨j, rfl⟩)
  have hw : ∀ j : Fin F.responses.length, 0 ≤ ent (abIv F.abCls iv) j := by
    intro j
    have : (j : Nat) < (abIv F.abCls iv).length := by rw [abIv_length, hiv]; exact j.2
    rw [ent_some this]
    exact abIv_nonneg _ _ hpos _ (List.getElem_mem this)
  have hp : ∀ t, ∃ j : Fin F.responses.length, 0 < ent (abIv F.abCls iv) j ∧ 0 < a j t ⟨z0, hz0⟩ := by
    intro t
    obtain ⟨b, j, v, x, b1, b2, b3, b4, b5⟩ := hfl t t.2
    have b1' := alone_val ⟨z0, hz0⟩ t
    simp only at b1'
    rw [b1] at b1'
    simp only [Except.ok.injEq, NDA.vec, NDA.arr.injEq, List.cons.injEq, and_true] at b1'
    obtain rfl := b1'.2.2
    obtain ⟨hj, e⟩ := List.getElem?_eq_some_iff.mp b3
    rw [List.getElem_ofFn] at e
    have hj' : j < F.responses.length := by simpa using hj
    refine ⟨⟨j, hj'⟩, ?_, by rw [e]; exact b5⟩
    obtain ⟨hw1, hw2⟩ := abIv_pos (cls := F.abCls) b2 b4
    simp only [ent, List.getD_eq_getElem?_getD, hw1]
    exact hw2
  obtain ⟨δ, hδ, hd⟩ := Metric.eventually_nhds_iff.mp
    ((chiAt_near ac (fun j => ent (abIv F.abCls iv) j) (fun j => ent (abM F.abCls m) j) ⟨z0, hz0⟩ c0 hε).and
      (chiAt_back (m := fun j => ent (abM F.abCls m) j) ac hw hn0 ⟨z0, hz0⟩ hp hε))
  refine ⟨δ, hδ, fun z noise out h1 hz hf => ?_⟩
  obtain ⟨c, r, -, p, e, -, v, o⟩ := hR.optimal am nnls hn hr m iv hm hiv hpos ⟨z, h1⟩ noise out hf
  refine ⟨r0, r, e0, e, ?_⟩
  obtain ⟨d1, d2⟩ := hd (y := ⟨z, h1⟩) hz
  have q1 := o c0 p0
  have q2 := d2 c p (by rw [← v]; exact o 0 (fun _ => le_refl _))
  have q3 := o0 c p
  rw [abs_lt]
  constructor <;> linarith

/-- C199: the fitted fluxes of the bands that enter the fit are continuous in the redshift, where the templates have no negative flux and each has flux in one of the bands of
positive inverse variance. -/
theorem C199_fitted_fluxes (nnls : Nnls ℝ) (hn : NNLSOK nnls) (F : Fitter ℝ) (A : AMat ℝ) (hR : Ready F A)
    (hr : AbReady F.abCls F.responses.length) (m iv : List ℝ) (hm : m.length = F.responses.length)
    (hiv : iv.length = F.responses.length) (hpos : ∀ v ∈ iv, 0 ≤ v) (z0 : ℝ) (hz0 : InRange A.x z0)
    (hnn : ∀ t < F.templates.nsed, ∀ z a, InRange A.x z → F.reconstruct (some (.scalar z)) (some (.vec (alone F.templates.nsed t))) 0 = .ok (.vec a) →
      ∀ x ∈ a, 0 ≤ x)
    (hfl : ∀ t < F.templates.nsed, ∃ (a : List ℝ) (j : Nat) (v x : ℝ), F.reconstruct (some (.scalar z0)) (some (.vec (alone F.templates.nsed t))) 0 = .ok (.vec a) ∧
      iv[j]? = some v ∧ a[j]? = some x ∧ 0 < v ∧ 0 < x) (noise0 : Nat → Nat → Nat → ℝ) (out0 : FitOut ℝ)
    (h0 : F.fitCoeffs nnls (some (.scalar z0)) (some (.vec m)) (some (.vec iv)) 0 noise0 = .ok out0) (ε : ℝ) (hε : 0 < ε) :
    ∃ δ > 0, ∀ (z : ℝ) (noise : Nat → Nat → Nat → ℝ) (out : FitOut ℝ), InRange A.x z → |z - z0| < δ →
      F.fitCoeffs nnls (some (.scalar z)) (some (.vec m)) (some (.vec iv)) 0 noise = .ok out →
      ∃ r0 r, F.reconstruct (some (.scalar z0)) (some out0.coeffs) 0 = .ok (.vec r0) ∧ F.reconstruct (some (.scalar z)) (some out.coeffs) 0 = .ok (.vec r) ∧
        ∀ (j : Nat) (v x x0 : ℝ), iv[j]? = some v → 0 < v → r[j]? = some x → r0[j]? = some x0 → |x - x0| < ε := by
  obtain ⟨a, ac, am⟩ := hR.model
  obtain ⟨c0, r0, -, p0, e0, s0, v0, o0⟩ := hR.optimal am nnls hn hr m iv hm hiv hpos ⟨z0, hz0⟩ noise0 out0 h0
  have alone_val : ∀ (z : {z : ℝ // InRange A.x z}) (t : Fin F.templates.nsed), F.reconstruct (some (.scalar z.1)) (some (.vec (alone F.templates.nsed t))) 0 =
      .ok (.vec (List.ofFn (fun j => a j t z))) := by
    intro z t
    rw [am z _ (alone_length _ _)]
    congr 3
    funext j
    rw [Finset.sum_eq_single t]
    · simp [ent, alone]
    · intro s _ hs
      have : (s : Nat) ≠ t := fun e => hs (Fin.ext e)
      simp [ent, alone, this]
    · simp
  have hn0 : ∀ j t z, 0 ≤ a j t z := fun j t z => hnn t t.2 z.1 _ z.2 (alone_val z t) _ (List.mem_ofFn.mpr ⟨j, rfl⟩)
  have hw : ∀ j : Fin F.responses.length, 0 ≤ ent (abIv F.abCls iv) j := by
    intro j
    have : (j : Nat) < (abIv F.abCls iv).length := by rw [abIv_length, hiv]; exact j.2
    rw [ent_some this]
    exact abIv_nonneg _ _ hpos _ (List.getElem_mem this)
  have hp : ∀ t, ∃ j : Fin F.responses.length, 0 < ent (abIv F.abCls iv) j ∧ 0 < a j t ⟨z0, hz0⟩ := by
    intro t
    obtain ⟨b, j, v, x, b1, b2, b3, b4, b5⟩ := hfl t t.2
    have b1' := alone_val ⟨z0, hz0⟩ t
    simp only at b1'
    rw [b1] at b1'
    simp only [Except.ok.injEq, NDA.vec, NDA.arr.injEq, List.cons.injEq, and_true] at b1'
    obtain rfl := b1'.2.2
    obtain ⟨hj, e⟩ := List.getElem?_eq_some_iff.mp b3
    rw [List.getElem_ofFn] at e
    have hj' : j < F.responses.length := by simpa using hj
    refine ⟨⟨j, hj'⟩, ?_, by rw [e]; exact b5⟩
    obtain ⟨hw1, hw2⟩ := abIv_pos (cls := F.abCls) b2 b4
    simp only [ent, List.getD_eq_getElem?_getD, hw1]
    exact hw2
  -- a bound on the misfit that keeps every weighted band within `ε / 2`
  obtain ⟨η, hη, hsm⟩ : ∃ η > 0, ∀ j : Fin F.responses.length, 0 < ent (abIv F.abCls iv) j → 16 * η < ent (abIv F.abCls iv) j * ε ^ 2 := by
    have : ∀ᶠ η : ℝ in 𝓝[>] 0, ∀ j : Fin F.responses.length, 0 < ent (abIv F.abCls iv) j → 16 * η < ent (abIv F.abCls iv) j * ε ^ 2 := by
      rw [Filter.eventually_all]
      intro j
      by_cases hj : 0 < ent (abIv F.abCls iv) j
      · have h1 : ∀ᶠ η : ℝ in 𝓝 0, 16 * η < ent (abIv F.abCls iv) j * ε ^ 2 :=
          (continuous_const.mul continuous_id).continuousAt.eventually_lt_const (by simpa using mul_pos hj (pow_pos hε 2))
        exact (h1.filter_mono nhdsWithin_le_nhds).mono (fun η h _ => h)
      · exact Filter.Eventually.of_forall (fun η h => absurd h hj)
    obtain ⟨η, h1, h2⟩ := (this.and self_mem_nhdsWithin).exists
    exact ⟨η, h2, h1⟩
  obtain ⟨δ, hδ, hd⟩ := Metric.eventually_nhds_iff.mp
    (((chiAt_near ac (fun j => ent (abIv F.abCls iv) j) (fun j => ent (abM F.abCls m) j) ⟨z0, hz0⟩ c0 hη).and
      (chiAt_back (m := fun j => ent (abM F.abCls m) j) ac hw hn0 ⟨z0, hz0⟩ hp hη)).and
      (model_back (m := fun j => ent (abM F.abCls m) j) ac hw hn0 ⟨z0, hz0⟩ hp (half_pos hε)))
  refine ⟨δ, hδ, fun z noise out h1 hz hf => ?_⟩
  obtain ⟨c, r, -, p, e, s, v, o⟩ := hR.optimal am nnls hn hr m iv hm hiv hpos ⟨z, h1⟩ noise out hf
  refine ⟨r0, r, e0, e, fun j u x x0 hu hu0 hx hx0 => ?_⟩
  obtain ⟨⟨d1, d2⟩, d3⟩ := hd (y := ⟨z, h1⟩) hz
  have q0 : chiAt a (fun j => ent (abIv F.abCls iv) j) (fun j => ent (abM F.abCls m) j) ⟨z, h1⟩ c ≤
      chiAt a (fun j => ent (abIv F.abCls iv) j) (fun j => ent (abM F.abCls m) j) ⟨z, h1⟩ 0 := by rw [← v]; exact o 0 (fun _ => le_refl _)
  have q1 := o c0 p0
  have q2 := d2 c p q0
  have q3 := d3 c p q0
  rw [v] at q1
  have hj : j < F.responses.length := by rw [← hiv]; exact (List.getElem?_eq_some_iff.mp hu).1
  have q4 := chiAt_close (η := 2 * η) hw p p0 (by rw [← v0]; exact o0) (by linarith) ⟨j, hj⟩
  obtain ⟨hw1, hw2⟩ := abIv_pos (cls := F.abCls) hu hu0
  have wp : 0 < ent (abIv F.abCls iv) j := by
    simp only [ent, List.getD_eq_getElem?_getD, hw1]
    exact hw2
  have q5 := hsm ⟨j, hj⟩ wp
  have q6 := q3 ⟨j, hj⟩
  have ex : x = ∑ t, a ⟨j, hj⟩ t ⟨z, h1⟩ * c t := by
    rw [s, List.getElem?_ofFn] at hx
    simpa [hj] using hx.symm
  have ex0 : x0 = ∑ t, a ⟨j, hj⟩ t ⟨z0, hz0⟩ * c0 t := by
    rw [s0, List.getElem?_ofFn] at hx0
    simpa [hj] using hx0.symm
  rw [← ex] at q6
  rw [← ex0] at q4
  generalize ∑ t, a ⟨j, hj⟩ t ⟨z0, hz0⟩ * c t = y at q4 q6
  have q7 : |y - x0| < ε / 2 := by
    apply abs_lt_of_sq_lt_sq _ (by positivity)
    have : ent (abIv F.abCls iv) j * (y - x0) ^ 2 < ent (abIv F.abCls iv) j * (ε / 2) ^ 2 := by
      have h4 : ent (abIv F.abCls iv) j * (y - x0) ^ 2 ≤ 2 * (2 * η) := q4
      have h5 : 16 * η < ent (abIv F.abCls iv) j * ε ^ 2 := q5
      nlinarith
    exact lt_of_mul_lt_mul_left this wp.le
  calc |x - x0| = |(x - y) + (y - x0)| := by ring_nf
    _ ≤ |x - y| + |y - x0| := abs_add_le _ _
    _ < ε := by linarith

/-- Not vacuous: two bands, two templates, redshift 2 between the nodes 1 and 3 of the grid. -/
example : NNLSOK (lhNnls 0) ∧ Ready demoFitter2 demoAm2 ∧ AbReady demoFitter2.abCls demoFitter2.responses.length ∧ InRange demoAm2.x 2 ∧
    (∀ t < demoFitter2.templates.nsed, ∀ z a, InRange demoAm2.x z →
      demoFitter2.reconstruct (some (.scalar z)) (some (.vec (alone demoFitter2.templates.nsed t))) 0 = .ok (.vec a) → ∀ x ∈ a, 0 ≤ x) ∧
    (∀ t < demoFitter2.templates.nsed, ∃ (a : List ℝ) (j : Nat) (v x : ℝ),
      demoFitter2.reconstruct (some (.scalar 2)) (some (.vec (alone demoFitter2.templates.nsed t))) 0 = .ok (.vec a) ∧
      [(1 : ℝ), 0][j]? = some v ∧ a[j]? = some x ∧ 0 < v ∧ 0 < x) ∧
    ∃ out, demoFitter2.fitCoeffs (lhNnls 0) (some (.scalar 2)) (some (.vec [1, 2])) (some (.vec [1, 0])) 0 (fun _ _ _ => 0) = .ok out := by
  have hin : InRange demoAm2.x 2 := by constructor <;> norm_num [demoAm2]
  have e2 : demoFitter2.templates.nsed = 2 := rfl
  refine ⟨C184_contract, demo_ready, trivial, hin, ?_, ?_, ?_⟩
  · intro t ht z a hz hr x hx
    refine C60_nonneg demoFitter2 demoAm2 demo_ready.good ?_ z 0 (by norm_num) _ (alone_length _ _) ?_ _ hr x (by simpa [NDA.flat, NDA.vec] using hx)
    · simp [demoAm2]
    · intro v hv
      simp only [alone, List.mem_map] at hv
      obtain ⟨i, _, rfl⟩ := hv
      split <;> norm_num
  · intro t ht
    have hx : ∀ c : List ℝ, c.length = 2 → demoFitter2.reconstruct (some (.scalar 2)) (some (.vec c)) 0 = .ok (.vec (reconRow 0 [[1, 2], [3 / 2, 3 / 2]] c)) := by
      intro c hc
      refine (recon_real demoFitter2 demoAm2 2 c 0 hc).trans ?_
      rw [show ((1 : ℝ) + 2) * (1 + 0) - 1 = 2 by norm_num, demoAm2_at2]
      rfl
    refine ⟨_, 0, 1, _, hx _ (alone_length _ _), rfl, rfl, by norm_num, ?_⟩
    simp only [dot_alone ht]
    rw [e2] at ht
    interval_cases t <;> norm_num [ent]
  · obtain ⟨c, hc, _⟩ := C184_fit demoFitter2 (by rw [e2]; norm_num) trivial (by show 2 ≠ 1; norm_num) demoAm2 demo_ready 2 hin [1, 2] [1, 0] rfl rfl
      (by simp) (fun _ _ _ => 0)
    exact ⟨_, hc⟩

end KC
