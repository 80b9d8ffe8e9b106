import Verif.Props.Stable
import Verif.Props.BestFitAb

/-!
# How the fit answers to a change of one band (C170, C171)
-/

namespace KC
open Spec

/-- the weighted distance of two photometries that differ in one band -/
theorem chi2_set_self : ∀ (iv m : List ℝ) (j : Nat) (v x y : ℝ), iv[j]? = some v → m[j]? = some x → chi2 m iv (m.set j y) = v * (x - y) ^ 2
  | [], _, _, _, _, _, h, _ => by simp at h
  | _ :: _, [], _, _, _, _, _, h => by simp at h
  | w :: iv, a :: m, 0, v, x, y, hv, hx => by
    simp at hv hx
    subst hv hx
    have self : ∀ (iv m : List ℝ), chi2 m iv m = 0 := by
      intro iv
      induction iv with
      | nil => intro m; simp [chi2]
      | cons v iv ih =>
        intro m
        cases m with
        | nil => simp [chi2]
        | cons a m => have := ih m; simp only [chi2, List.zipWith_cons_cons, List.sum_cons] at this ⊢; rw [this]; ring
    have := self iv m
    simp only [chi2, List.set_cons_zero, List.zipWith_cons_cons, List.sum_cons] at this ⊢
    rw [this, add_zero]
  | w :: iv, a :: m, j + 1, v, x, y, hv, hx => by
    have := chi2_set_self iv m j v x y (by simpa using hv) (by simpa using hx)
    simp only [chi2, List.set_cons_succ, List.zipWith_cons_cons, List.sum_cons] at this ⊢
    rw [this]; ring

/-- chi-squared after a change of one weight -/
theorem chi2_set_weight : ∀ (iv m r : List ℝ) (j : Nat) (v w x a : ℝ), iv[j]? = some v → m[j]? = some x → r[j]? = some a →
    chi2 m (iv.set j w) r = chi2 m iv r + (w - v) * (x - a) ^ 2
  | [], _, _, _, _, _, _, _, h, _, _ => by simp at h
  | _ :: _, [], _, _, _, _, _, _, _, h, _ => by simp at h
  | _ :: _, _ :: _, [], _, _, _, _, _, _, _, h => by simp at h
  | u :: iv, b :: m, d :: r, 0, v, w, x, a, hv, hx, ha => by
    simp at hv hx ha
    subst hv hx ha
    simp only [chi2, List.set_cons_zero, List.zipWith_cons_cons, List.sum_cons]
    ring
  | u :: iv, b :: m, d :: r, j + 1, v, w, x, a, hv, hx, ha => by
    have := chi2_set_weight iv m r j v w x a (by simpa using hv) (by simpa using hx) (by simpa using ha)
    simp only [chi2, List.set_cons_succ, List.zipWith_cons_cons, List.sum_cons] at this ⊢
    rw [this]; ring

/-- twice the inner product of the differences of two models with those of the residuals, for photometries that differ in one band -/
theorem chi2_firm : ∀ (iv m r r' : List ℝ) (j : Nat) (v x y a b : ℝ), m.length = r.length → r'.length = r.length → iv[j]? = some v → m[j]? = some x →
    r[j]? = some a → r'[j]? = some b → chi2 (sub m r) iv (sub (m.set j y) r') = chi2 r iv r' + v * ((x - y) ^ 2 - 2 * (x - y) * (a - b))
  | [], _, _, _, _, _, _, _, _, _, _, _, h, _, _, _ => by simp at h
  | _ :: _, [], _, _, _, _, _, _, _, _, _, _, _, h, _, _ => by simp at h
  | w :: iv, c :: m, d :: r, d' :: r', 0, v, x, y, a, b, h1, h2, hv, hx, ha, hb => by
    simp at hv hx ha hb
    subst hv hx ha hb
    have tail : ∀ (iv m r r' : List ℝ), m.length = r.length → r'.length = r.length → chi2 (sub m r) iv (sub m r') = chi2 r iv r' := by
      intro iv
      induction iv with
      | nil => intro m r r' _ _; simp [chi2]
      | cons v iv ih =>
        intro m r r' h1 h2
        match m, r, r', h1, h2 with
        | [], [], [], _, _ => simp [chi2, sub]
        | x :: m, y :: r, y' :: r', h1, h2 =>
          have := ih m r r' (by simpa using h1) (by simpa using h2)
          simp only [chi2, sub, List.zipWith_cons_cons, List.sum_cons] at this ⊢
          rw [this]; ring
    have := tail iv m r r' (by simpa using h1) (by simpa using h2)
    simp only [chi2, sub, List.set_cons_zero, List.zipWith_cons_cons, List.sum_cons] at this ⊢
    rw [this]; ring
  | w :: iv, c :: m, d :: r, d' :: r', j + 1, v, x, y, a, b, h1, h2, hv, hx, ha, hb => by
    have := chi2_firm iv m r r' j v x y a b (by simpa using h1) (by simpa using h2) (by simpa using hv) (by simpa using hx) (by simpa using ha) (by simpa using hb)
    simp only [chi2, sub, List.set_cons_succ, List.zipWith_cons_cons, List.sum_cons] at this ⊢
    rw [this]; ring

/-- C170, best fits.  If the flux of one band with positive weight is raised from `x` to `y`, the model flux in that band does not fall and
does not rise by more than `y - x`, and the models differ in all bands, in the weighted sum of squares, by no more than the product of the
two changes. -/
theorem C170_optimal (F : Fitter ℝ) (Am : AMat ℝ) (hR : Ready F Am) (z : ℝ) (hz : InRange Am.x z) (m iv c c' : List ℝ)
    (hm : m.length = F.responses.length) (hiv : ∀ v ∈ iv, 0 ≤ v) (j : Nat) (x y v : ℝ) (hx : m[j]? = some x) (hxy : x ≤ y)
    (hv : iv[j]? = some v) (hv0 : 0 < v) (ho : Optimal F z m iv c) (ho' : Optimal F z (m.set j y) iv c') :
    ∃ r r' a b, F.reconstruct (some (.scalar z)) (some (.vec c)) 0 = .ok (.vec r) ∧ F.reconstruct (some (.scalar z)) (some (.vec c')) 0 = .ok (.vec r') ∧
      r[j]? = some a ∧ r'[j]? = some b ∧ a ≤ b ∧ b - a ≤ y - x ∧ chi2 r iv r' ≤ v * ((y - x) * (b - a)) := by
  obtain ⟨M, hM⟩ := (at_ok_iff hR.good.ne).mpr hz
  have hsh := at_shaped hR.good hM
  have hr := recon_ready hR hM ho.1
  have hr' := recon_ready hR hM ho'.1
  have hl : ∀ c, (mulVec M c).length = F.responses.length := by intro c; rw [mulVec, List.length_map, hsh.1, hR.rows]
  obtain ⟨r, r', e1, e2, e3⟩ := C153_nonexpansive F Am hR z hz m (m.set j y) iv c c' hm (by rw [List.length_set]; exact hm) hiv ho ho'
  have hrr : r = mulVec M c := by
    have := e1.symm.trans hr
    simp only [Except.ok.injEq, NDA.vec, NDA.arr.injEq, List.cons.injEq, and_true] at this
    exact this.2.2
  have hrr' : r' = mulVec M c' := by
    have := e2.symm.trans hr'
    simp only [Except.ok.injEq, NDA.vec, NDA.arr.injEq, List.cons.injEq, and_true] at this
    exact this.2.2
  have hj : j < F.responses.length := by rw [← hm]; exact (List.getElem?_eq_some_iff.mp hx).1
  have l1 : r.length = F.responses.length := by rw [hrr, hl]
  have l2 : r'.length = F.responses.length := by rw [hrr', hl]
  obtain ⟨a, ha⟩ : ∃ a, r[j]? = some a := ⟨_, List.getElem?_eq_getElem (by omega)⟩
  obtain ⟨b, hb⟩ : ∃ b, r'[j]? = some b := ⟨_, List.getElem?_eq_getElem (by omega)⟩
  rw [chi2_set_self iv m j v x y hv hx, chi2_firm iv m r r' j v x y a b (by rw [hm, l1]) (by rw [l1, l2]) hv hx ha hb] at e3
  have hband := chi2_band iv r r' hiv j v a b hv ha hb
  have key : chi2 r iv r' ≤ v * ((y - x) * (b - a)) := by nlinarith
  have k2 : (a - b) ^ 2 ≤ (y - x) * (b - a) := le_of_mul_le_mul_left (hband.trans key) hv0
  refine ⟨r, r', a, b, e1, e2, ha, hb, ?_, ?_, key⟩
  · by_contra hab
    push Not at hab
    have : (y - x) * (b - a) ≤ 0 := mul_nonpos_of_nonneg_of_nonpos (by linarith) (by linarith)
    have h2 : 0 < (a - b) ^ 2 := pow_pos (by linarith) 2
    linarith
  · by_contra hab
    push Not at hab
    have hpos : 0 < b - a := by linarith
    have : (y - x) * (b - a) < (b - a) * (b - a) := mul_lt_mul_of_pos_right hab hpos
    nlinarith

/-- C171, best fits.  If the weight of one band is raised, the model does not get further from the photometry in that band, and chi-squared
of the other bands does not get smaller. -/
theorem C171_optimal (F : Fitter ℝ) (Am : AMat ℝ) (hR : Ready F Am) (z : ℝ) (hz : InRange Am.x z) (m iv c c' : List ℝ)
    (hm : m.length = F.responses.length) (j : Nat) (x v w : ℝ) (hx : m[j]? = some x) (hv : iv[j]? = some v) (hvw : v < w)
    (ho : Optimal F z m iv c) (ho' : Optimal F z m (iv.set j w) c') :
    ∃ r r' a b, F.reconstruct (some (.scalar z)) (some (.vec c)) 0 = .ok (.vec r) ∧ F.reconstruct (some (.scalar z)) (some (.vec c')) 0 = .ok (.vec r') ∧
      r[j]? = some a ∧ r'[j]? = some b ∧ |x - b| ≤ |x - a| ∧ (0 ≤ v → chi2 m (iv.set j 0) r ≤ chi2 m (iv.set j 0) r') := by
  obtain ⟨M, hM⟩ := (at_ok_iff hR.good.ne).mpr hz
  have hsh := at_shaped hR.good hM
  have hr := recon_ready hR hM ho.1
  have hr' := recon_ready hR hM ho'.1
  have hl : ∀ c, (mulVec M c).length = F.responses.length := by intro c; rw [mulVec, List.length_map, hsh.1, hR.rows]
  have hj : j < F.responses.length := by rw [← hm]; exact (List.getElem?_eq_some_iff.mp hx).1
  obtain ⟨a, ha⟩ : ∃ a, (mulVec M c)[j]? = some a := ⟨_, List.getElem?_eq_getElem (by rw [hl]; exact hj)⟩
  obtain ⟨b, hb⟩ : ∃ b, (mulVec M c')[j]? = some b := ⟨_, List.getElem?_eq_getElem (by rw [hl]; exact hj)⟩
  obtain ⟨c1, c2, r1, e1, opt⟩ := ho
  obtain ⟨c1', c2', r1', e1', opt'⟩ := ho'
  have hrr : r1 = mulVec M c := by
    have := e1.symm.trans hr
    simp only [Except.ok.injEq, NDA.vec, NDA.arr.injEq, List.cons.injEq, and_true] at this
    exact this.2.2
  have hrr' : r1' = mulVec M c' := by
    have := e1'.symm.trans hr'
    simp only [Except.ok.injEq, NDA.vec, NDA.arr.injEq, List.cons.injEq, and_true] at this
    exact this.2.2
  subst hrr hrr'
  obtain ⟨s1, f1, o1⟩ := opt c' c1' c2'
  obtain ⟨s2, f2, o2⟩ := opt' c c1 c2
  have hs1 : s1 = mulVec M c' := by
    have := f1.symm.trans hr'
    simp only [Except.ok.injEq, NDA.vec, NDA.arr.injEq, List.cons.injEq, and_true] at this
    exact this.2.2
  have hs2 : s2 = mulVec M c := by
    have := f2.symm.trans hr
    simp only [Except.ok.injEq, NDA.vec, NDA.arr.injEq, List.cons.injEq, and_true] at this
    exact this.2.2
  subst hs1 hs2
  rw [chi2_set_weight iv m _ j v w x b hv hx hb, chi2_set_weight iv m _ j v w x a hv hx ha] at o2
  have hsq : (x - b) ^ 2 ≤ (x - a) ^ 2 := by
    have : (w - v) * (x - b) ^ 2 ≤ (w - v) * (x - a) ^ 2 := by linarith
    exact le_of_mul_le_mul_left this (by linarith)
  refine ⟨_, _, a, b, e1, e1', ha, hb, sq_le_sq.mp hsq, fun hv0 => ?_⟩
  rw [chi2_set_weight iv m _ j v 0 x b hv hx hb, chi2_set_weight iv m _ j v 0 x a hv hx ha]
  have : v * (x - b) ^ 2 ≤ v * (x - a) ^ 2 := mul_le_mul_of_nonneg_left hsq hv0
  linarith

theorem abM_set (cls : Cls) (m : List ℝ) (j : Nat) (y : ℝ) : abM cls (m.set j y) = (abM cls m).set j (y * abFactor cls j) := by
  apply List.ext_getElem?
  intro i
  simp only [abM, List.getElem?_mapIdx, List.getElem?_set, List.length_mapIdx]
  split
  · rename_i h; subst h; split <;> simp
  · rfl

theorem abIv_set (cls : Cls) (m : List ℝ) (j : Nat) (y : ℝ) : abIv cls (m.set j y) = (abIv cls m).set j (y / abFactor cls j ^ 2) := by
  apply List.ext_getElem?
  intro i
  simp only [abIv, List.getElem?_mapIdx, List.getElem?_set, List.length_mapIdx]
  split
  · rename_i h; subst h; split <;> simp
  · rfl

/-- C170: brighter photometry in a band does not make the fitted model fainter there.  For every class, with or without the AB correction,
and any two solvers that keep their contract: if the flux given for band `j` (positive inverse variance `v`) is raised from `x` to `y`, the
model maggies of the fitted coefficients in band `j` rise by an amount between 0 and the rise of the (AB corrected) flux, and the models
differ in all bands, in the sum of squares weighted with the (AB corrected) inverse variances, by no more than the weight of band `j` times
the product of the two rises. -/
theorem C170_brighter (nnls nnls' : Nnls ℝ) (hn : NNLSOK nnls) (hn' : NNLSOK nnls') (F : Fitter ℝ) (hr : AbReady F.abCls F.responses.length) (Am : AMat ℝ)
    (hR : Ready F Am) (z : ℝ) (hz : InRange Am.x z) (m iv : List ℝ) (hm : m.length = F.responses.length)
    (hiv : iv.length = F.responses.length) (hpos : ∀ v ∈ iv, 0 ≤ v) (j : Nat) (x y v : ℝ) (hx : m[j]? = some x) (hxy : x ≤ y)
    (hv : iv[j]? = some v) (hv0 : 0 < v) (noise noise' : Nat → Nat → Nat → ℝ) (out out' : FitOut ℝ)
    (h : F.fitCoeffs nnls (some (.scalar z)) (some (.vec m)) (some (.vec iv)) 0 noise = .ok out)
    (h' : F.fitCoeffs nnls' (some (.scalar z)) (some (.vec (m.set j y))) (some (.vec iv)) 0 noise' = .ok out') :
    ∃ r r' a b, F.reconstruct (some (.scalar z)) (some out.coeffs) 0 = .ok (.vec r) ∧ F.reconstruct (some (.scalar z)) (some out'.coeffs) 0 = .ok (.vec r') ∧
      r[j]? = some a ∧ r'[j]? = some b ∧ a ≤ b ∧ b - a ≤ (y - x) * abFactor F.abCls j ∧
      chi2 r (abIv F.abCls iv) r' ≤ v / abFactor F.abCls j ^ 2 * ((y - x) * abFactor F.abCls j * (b - a)) := by
  obtain ⟨c, rfl, ho⟩ := C49_ab nnls hn F hr Am hR z hz m iv hm hiv hpos noise out h
  obtain ⟨c', rfl, ho'⟩ := C49_ab nnls' hn' F hr Am hR z hz (m.set j y) iv (by rw [List.length_set]; exact hm) hiv hpos noise' out' h'
  rw [abM_set] at ho'
  have hf := abFactor_pos F.abCls j
  obtain ⟨p1, p2⟩ := abIv_pos (cls := F.abCls) hv hv0
  obtain ⟨r, r', a, b, h1, h2, h3, h4, h5, h6, h7⟩ := C170_optimal F Am hR z hz (abM F.abCls m) (abIv F.abCls iv) c c' (by rw [abM_length]; exact hm)
    (abIv_nonneg F.abCls iv hpos) j (x * abFactor F.abCls j) (y * abFactor F.abCls j) _ (by simp only [abM, List.getElem?_mapIdx, hx, Option.map_some])
    (mul_le_mul_of_nonneg_right hxy hf.le) p1 p2 ho ho'
  refine ⟨r, r', a, b, h1, h2, h3, h4, h5, by rw [sub_mul]; exact h6, by rw [sub_mul]; exact h7⟩

/-- C171: a band that is known better is fitted at least as closely.  For every class, with or without the AB correction, and any two solvers
that keep their contract: if the inverse variance of band `j` is raised from `v ≥ 0` to `w`, the (AB corrected) flux `x` given for it and the
model maggies of the fitted coefficients differ by no more than before, and chi-squared of the other bands does not get smaller. -/
theorem C171_closer (nnls nnls' : Nnls ℝ) (hn : NNLSOK nnls) (hn' : NNLSOK nnls') (F : Fitter ℝ) (hr : AbReady F.abCls F.responses.length) (Am : AMat ℝ)
    (hR : Ready F Am) (z : ℝ) (hz : InRange Am.x z) (m iv : List ℝ) (hm : m.length = F.responses.length)
    (hiv : iv.length = F.responses.length) (hpos : ∀ v ∈ iv, 0 ≤ v) (j : Nat) (x v w : ℝ) (hx : m[j]? = some x)
    (hv : iv[j]? = some v) (hvw : v < w) (noise noise' : Nat → Nat → Nat → ℝ) (out out' : FitOut ℝ)
    (h : F.fitCoeffs nnls (some (.scalar z)) (some (.vec m)) (some (.vec iv)) 0 noise = .ok out)
    (h' : F.fitCoeffs nnls' (some (.scalar z)) (some (.vec m)) (some (.vec (iv.set j w))) 0 noise' = .ok out') :
    ∃ r r' a b, F.reconstruct (some (.scalar z)) (some out.coeffs) 0 = .ok (.vec r) ∧ F.reconstruct (some (.scalar z)) (some out'.coeffs) 0 = .ok (.vec r') ∧
      r[j]? = some a ∧ r'[j]? = some b ∧ |x * abFactor F.abCls j - b| ≤ |x * abFactor F.abCls j - a| ∧
      chi2 (abM F.abCls m) ((abIv F.abCls iv).set j 0) r ≤ chi2 (abM F.abCls m) ((abIv F.abCls iv).set j 0) r' := by
  have hv0 : 0 ≤ v := hpos v (List.mem_of_getElem? hv)
  obtain ⟨c, rfl, ho⟩ := C49_ab nnls hn F hr Am hR z hz m iv hm hiv hpos noise out h
  obtain ⟨c', rfl, ho'⟩ := C49_ab nnls' hn' F hr Am hR z hz m (iv.set j w) hm (by rw [List.length_set]; exact hiv) (by
    intro u hu
    rcases List.mem_or_eq_of_mem_set hu with h1 | h1
    · exact hpos u h1
    · rw [h1]; linarith) noise' out' h'
  rw [abIv_set] at ho'
  have hf := abFactor_pos F.abCls j
  obtain ⟨r, r', a, b, h1, h2, h3, h4, h5, h6⟩ := C171_optimal F Am hR z hz (abM F.abCls m) (abIv F.abCls iv) c c' (by rw [abM_length]; exact hm)
    j (x * abFactor F.abCls j) (v / abFactor F.abCls j ^ 2) (w / abFactor F.abCls j ^ 2) (by simp only [abM, List.getElem?_mapIdx, hx, Option.map_some])
    (by rw [abIv_get, hv]; rfl) (div_lt_div_of_pos_right hvw (pow_pos hf 2)) ho ho'
  exact ⟨r, r', a, b, h1, h2, h3, h4, h5, h6 (div_nonneg hv0 (pow_pos hf 2).le)⟩

/-- two fits with the first flux raised from 6 to 7, and two with its inverse variance raised from 1 to 9 -/
example : ∃ out out' out'', NNLSOK demoNnls ∧ AbReady demoFitter2.abCls demoFitter2.responses.length ∧ Ready demoFitter2 demoAm2 ∧ InRange demoAm2.x 2 ∧
    demoFitter2.fitCoeffs demoNnls (some (.scalar 2)) (some (.vec [6, 3])) (some (.vec [1, 4])) 0 (fun _ _ _ => 0) = .ok out ∧
    demoFitter2.fitCoeffs demoNnls (some (.scalar 2)) (some (.vec ([6, 3].set 0 7))) (some (.vec [1, 4])) 0 (fun _ _ _ => 0) = .ok out' ∧
    demoFitter2.fitCoeffs demoNnls (some (.scalar 2)) (some (.vec [6, 3])) (some (.vec ([1, 4].set 0 9))) 0 (fun _ _ _ => 0) = .ok out'' := by
  have hin : InRange demoAm2.x 2 := by norm_num [InRange, demoAm2]
  have go := fun m iv h1 h2 h3 => C161_ab demoNnls C161_solver.1 demoFitter2 (solve_returns C161_solver.2 _) trivial (by decide) demoAm2 demo_ready 2 hin m iv h1 h2 h3 (fun _ _ _ => 0)
  obtain ⟨_, h1, _⟩ := go [6, 3] [1, 4] rfl rfl (by simp)
  obtain ⟨_, h2, _⟩ := go ([6, 3].set 0 7) [1, 4] rfl rfl (by simp)
  obtain ⟨_, h3, _⟩ := go [6, 3] ([1, 4].set 0 9) rfl rfl (by simp)
  exact ⟨_, _, _, C161_solver.1, trivial, demo_ready, hin, h1, h2, h3⟩

end KC
