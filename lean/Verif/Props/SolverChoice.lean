import Verif.Props.BestFit
import Verif.Props.AbClasses
import Verif.Props.Batches

/-!
# Do the coefficients depend on the solver? (C168)
-/

namespace KC
open Spec

namespace Spec

/-- The bands with positive inverse variance tell the templates apart: no combination of the templates, with coefficients of any sign, has zero maggies in
each of these bands, except the one with all coefficients zero. -/
def Indep (F : Fitter ℝ) (z : ℝ) (iv : List ℝ) : Prop :=
  ∀ x r : List ℝ, x.length = F.templates.nsed → F.reconstruct (some (.scalar z)) (some (.vec x)) 0 = .ok (.vec r) →
    (∀ (j : Nat) v, iv[j]? = some v → 0 < v → r[j]? = some 0) → ∀ v ∈ x, v = 0

end Spec

/-! ### Combinations -/

theorem dot_step (s : ℝ) : ∀ row c x : List ℝ, c.length = x.length → dot row (List.zipWith (fun a b => a + s * b) c x) = dot row c + s * dot row x
  | [], c, x, _ => by simp [dot, sumL_real]
  | _ :: _, [], [], _ => by simp [dot, sumL_real]
  | a :: row, b :: c, d :: x, h => by
    rw [List.zipWith_cons_cons, dot_cons, dot_cons, dot_cons, dot_step s row c x (by simpa using h)]; ring
  | _ :: _, [], _ :: _, h => by simp at h
  | _ :: _, _ :: _, [], h => by simp at h

theorem mulVec_step (s : ℝ) (M : List (List ℝ)) (c x : List ℝ) (h : c.length = x.length) :
    mulVec M (List.zipWith (fun a b => a + s * b) c x) = List.zipWith (fun a b => a + s * b) (mulVec M c) (mulVec M x) := by
  induction M with
  | nil => rfl
  | cons row M ih =>
    simp only [mulVec, List.map_cons, List.zipWith_cons_cons] at ih ⊢
    rw [ih, dot_step s row c x h]

/-- From positive coefficients one can move a little in any direction. -/
theorem small_step : ∀ c x : List ℝ, (∀ v ∈ c, 0 < v) → ∃ t, 0 < t ∧ ∀ s, 0 ≤ s → s ≤ t → ∀ v ∈ List.zipWith (fun a b => a + s * b) c x, 0 ≤ v
  | [], x, _ => ⟨1, one_pos, by simp⟩
  | _ :: _, [], _ => ⟨1, one_pos, by simp⟩
  | a :: c, b :: x, h => by
    obtain ⟨t, ht, hs⟩ := small_step c x (fun v hv => h v (by simp [hv]))
    have ha := h a (by simp)
    have hb : 0 < |b| + 1 := by positivity
    refine ⟨min t (a / (|b| + 1)), lt_min ht (div_pos ha hb), fun s h0 h1 v hv => ?_⟩
    simp only [List.zipWith_cons_cons, List.mem_cons] at hv
    rcases hv with rfl | hv
    · have h2 : s * (|b| + 1) ≤ a := (le_div_iff₀ hb).mp (h1.trans (min_le_right _ _))
      have h3 : -(s * |b|) ≤ s * b := by
        have := mul_le_mul_of_nonneg_left (neg_abs_le b) h0
        linarith
      nlinarith
    · exact hs s h0 (h1.trans (min_le_left _ _)) v hv

/-- Chi-squared does not look at bands without weight. -/
theorem chi2_congr : ∀ m iv r r' : List ℝ, r.length = r'.length → (∀ (j : Nat) v, iv[j]? = some v → v ≠ 0 → r[j]? = r'[j]?) → chi2 m iv r = chi2 m iv r'
  | [], iv, r, r', _, _ => by simp [chi2]
  | _ :: _, [], r, r', _, _ => by simp [chi2]
  | _ :: _, _ :: _, [], [], _, _ => rfl
  | x :: m, v :: iv, a :: r, b :: r', hl, h => by
    rw [chi2_cons, chi2_cons, chi2_congr m iv r r' (by simpa using hl) (fun j w hj hw => by simpa using h (j + 1) w (by simpa using hj) hw)]
    congr 1
    by_cases hv : v = 0
    · simp [hv]
    · have := h 0 v rfl hv
      simp only [List.getElem?_cons_zero, Option.some.injEq] at this
      rw [this]
  | _ :: _, _ :: _, [], _ :: _, hl, _ => by simp at hl
  | _ :: _, _ :: _, _ :: _, [], hl, _ => by simp at hl

theorem abIv_ne {cls : Cls} {iv : List ℝ} (hpos : ∀ v ∈ iv, 0 ≤ v) {j : Nat} {w : ℝ} (h : (abIv cls iv)[j]? = some w) (hw : w ≠ 0) :
    ∃ v, iv[j]? = some v ∧ 0 < v := by
  rw [abIv_get] at h
  obtain ⟨v, hv, rfl⟩ := Option.map_eq_some_iff.mp h
  refine ⟨v, hv, lt_of_le_of_ne (hpos v (List.mem_of_getElem? hv)) ?_⟩
  rintro rfl
  simp at hw

/-! ### C168 -/

/-- Two best fits are equal if the bands with positive inverse variance tell the templates apart. -/
theorem optimal_eq (F : Fitter ℝ) (Am : AMat ℝ) (hR : Ready F Am) (z : ℝ) (hz : InRange Am.x z) (m iv : List ℝ) (hm : m.length = F.responses.length)
    (hiv : iv.length = F.responses.length) (hpos : ∀ v ∈ iv, 0 ≤ v) (hi : Indep F z iv) (c c' : List ℝ)
    (hc : Optimal F z m iv c) (hc' : Optimal F z m iv c') : c = c' := by
  obtain ⟨M, hM⟩ := (at_ok_iff hR.good.ne).mpr hz
  obtain ⟨r, r', h1, h2, h3⟩ := C102_unique F Am hR z hz m iv hm hiv hpos c c' hc hc'
  rw [recon_ready hR hM hc.1] at h1
  rw [recon_ready hR hM hc'.1] at h2
  have inj : ∀ a b : List ℝ, (Except.ok (NDA.vec a) : Py (NDA ℝ)) = .ok (.vec b) → a = b := by
    intro a b h
    simp only [Except.ok.injEq, NDA.vec, NDA.arr.injEq, List.cons.injEq, and_true] at h
    exact h.2.2
  have e1 := inj _ _ h1
  have e2 := inj _ _ h2
  subst e1 e2
  have hl : c.length = c'.length := by rw [hc.1, hc'.1]
  have hx := hi (List.zipWith (fun a b => a + -1 * b) c c') _ (by simp [hc.1, hc'.1]) (recon_ready hR hM (by simp [hc.1, hc'.1])) (by
    intro j v hv hvp
    have := h3 j v hv hvp
    have hj : j < M.length := by
      rw [(at_shaped hR.good hM).1, hR.rows, ← hiv]
      exact (List.getElem?_eq_some_iff.mp hv).1
    rw [mulVec_step _ _ _ _ hl]
    simp only [mulVec, List.getElem?_map, List.getElem?_eq_getElem hj, Option.map_some, Option.some.injEq] at this
    simp [List.getElem?_zipWith, mulVec, hj, this])
  apply List.ext_getElem hl
  intro i h1 h2
  have := hx ((List.zipWith (fun a b => a + -1 * b) c c')[i]'(by simp; omega)) (List.getElem_mem _)
  rw [List.getElem_zipWith] at this
  linarith

theorem indep_plain (F : Fitter ℝ) : Indep F.plain = Indep F := by
  funext z iv
  unfold Indep
  rw [recon_plain]
  rfl

theorem indep_ab {F : Fitter ℝ} {z : ℝ} {iv : List ℝ} (cls : Cls) (h : Indep F z iv) : Indep F z (abIv cls iv) := by
  intro x r hx hr h0
  refine h x r hx hr (fun j v hv hvp => ?_)
  obtain ⟨h1, h2⟩ := abIv_pos (cls := cls) hv hvp
  exact h0 j _ h1 h2

/-- C168: if the bands with positive inverse variance tell the templates apart, any two solvers that keep the contract of nnls give the same coefficients
(every class). -/
theorem C168_same (nnls nnls' : Nnls ℝ) (hn : NNLSOK nnls) (hn' : NNLSOK nnls') (F : Fitter ℝ) (hr : AbReady F.abCls F.responses.length) (Am : AMat ℝ)
    (hR : Ready F Am) (z : ℝ) (hz : InRange Am.x z) (m iv : List ℝ) (hm : m.length = F.responses.length) (hiv : iv.length = F.responses.length)
    (hpos : ∀ v ∈ iv, 0 ≤ v) (hi : Indep F z iv) (noise noise' : Nat → Nat → Nat → ℝ) (out out' : FitOut ℝ)
    (h : F.fitCoeffs nnls (some (.scalar z)) (some (.vec m)) (some (.vec iv)) 0 noise = .ok out)
    (h' : F.fitCoeffs nnls' (some (.scalar z)) (some (.vec m)) (some (.vec iv)) 0 noise' = .ok out') : out = out' := by
  obtain ⟨c, rfl, ho⟩ := C49_ab nnls hn F hr Am hR z hz m iv hm hiv hpos noise out h
  obtain ⟨c', rfl, ho'⟩ := C49_ab nnls' hn' F hr Am hR z hz m iv hm hiv hpos noise' out' h'
  rw [optimal_eq F Am hR z hz _ _ (by rw [abM_length]; exact hm) (by rw [abIv_length]; exact hiv) (abIv_nonneg _ _ hpos) (indep_ab _ hi) c c' ho ho']

/-- C168, batches: the same for every object of a batch. -/
theorem C168_same_batch (nnls nnls' : Nnls ℝ) (hn : NNLSOK nnls) (hn' : NNLSOK nnls') (F : Fitter ℝ) (hr : AbReady F.abCls F.responses.length) (hnb : F.responses.length ≠ 1)
    (Am : AMat ℝ) (hR : Ready F Am) (zs : List ℝ) (ms ivs : List (List ℝ)) (hl : zs.length ≠ 1) (hm : ms.length = zs.length) (hiv : ivs.length = zs.length)
    (hmr : ∀ r ∈ ms, r.length = F.responses.length) (hivr : ∀ r ∈ ivs, r.length = F.responses.length) (hpos : ∀ r ∈ ivs, ∀ v ∈ r, 0 ≤ v) (hz : ∀ z ∈ zs, InRange Am.x z)
    (hi : ∀ (k : Nat) z iv, zs[k]? = some z → ivs[k]? = some iv → Indep F z iv) (noise noise' : Nat → Nat → Nat → ℝ) (out out' : FitOut ℝ)
    (h : F.fitCoeffs nnls (some (.vec zs)) (some (.arr [zs.length] F.responses.length ms)) (some (.arr [zs.length] F.responses.length ivs)) 0 noise = .ok out)
    (h' : F.fitCoeffs nnls' (some (.vec zs)) (some (.arr [zs.length] F.responses.length ms)) (some (.arr [zs.length] F.responses.length ivs)) 0 noise' = .ok out') :
    out = out' := by
  obtain ⟨cs, rfl, g1, g2⟩ := C49_ab_batch nnls hn F hr hnb Am hR zs ms ivs hl hm hiv hmr hivr hpos noise out h
  obtain ⟨cs', rfl, g1', g2'⟩ := C49_ab_batch nnls' hn' F hr hnb Am hR zs ms ivs hl hm hiv hmr hivr hpos noise' out' h'
  have : cs = cs' := by
    apply List.ext_getElem (by rw [g1, g1'])
    intro k h1 h2
    have k0 : k < zs.length := by omega
    have k1 : k < ms.length := by omega
    have k2 : k < ivs.length := by omega
    have hzk := hz _ (List.getElem_mem k0)
    have o := g2 k _ _ _ _ (List.getElem?_eq_getElem k0) (List.getElem?_eq_getElem k1) (List.getElem?_eq_getElem k2) (List.getElem?_eq_getElem h1) hzk
    have o' := g2' k _ _ _ _ (List.getElem?_eq_getElem k0) (List.getElem?_eq_getElem k1) (List.getElem?_eq_getElem k2) (List.getElem?_eq_getElem h2) hzk
    exact optimal_eq F Am hR _ hzk _ _ (by rw [abM_length]; exact hmr _ (List.getElem_mem k1)) (by rw [abIv_length]; exact hivr _ (List.getElem_mem k2))
      (abIv_nonneg _ _ (hpos _ (List.getElem_mem k2))) (indep_ab _ (hi k _ _ (List.getElem?_eq_getElem k0) (List.getElem?_eq_getElem k2))) _ _ o o'
  rw [this]

/-- a solver with a given answer to one problem -/
noncomputable def pickNnls (n0 : Nat) (A0 : List (List ℝ)) (b0 c : List ℝ) : Nnls ℝ :=
  open Classical in fun n A b it => if n = n0 ∧ A = A0 ∧ b = b0 then .ok c else demoNnls n A b it

/-- C168: every best fit is the answer with some solver that keeps the contract of nnls and always returns (every class). -/
theorem C168_attained (F : Fitter ℝ) (hr : AbReady F.abCls F.responses.length) (hnb : F.responses.length ≠ 1) (Am : AMat ℝ) (hR : Ready F Am) (z : ℝ)
    (hz : InRange Am.x z) (m iv : List ℝ) (hm : m.length = F.responses.length) (hiv : iv.length = F.responses.length) (hpos : ∀ v ∈ iv, 0 ≤ v) (c : List ℝ)
    (hc : Optimal F z (abM F.abCls m) (abIv F.abCls iv) c) : ∃ nnls, NNLSOK nnls ∧ NnlsReturns nnls ∧ ∀ noise,
      F.fitCoeffs nnls (some (.scalar z)) (some (.vec m)) (some (.vec iv)) 0 noise = .ok ⟨.vec c, none⟩ := by
  obtain ⟨M, hM⟩ := (at_ok_iff hR.good.ne).mpr hz
  obtain ⟨dOK, dRet⟩ := C161_solver
  set m' := abM F.abCls m with hm'
  set iv' := abIv F.abCls iv with hiv'
  have hpos' : ∀ v ∈ iv', 0 ≤ v := abIv_nonneg _ _ hpos
  set A0 := weighted (iv'.map Arith.sqrt) M
  set b0 := rhs m' (iv'.map Arith.sqrt)
  rw [optimal_iff hR hM] at hc
  refine ⟨pickNnls F.templates.nsed A0 b0 c, ⟨?_, ?_, ?_⟩, ?_, ?_⟩
  · intro n A b it x h
    unfold pickNnls at h
    split at h
    · next hp => cases h; rw [hp.1]; exact hc.1
    · exact dOK.len _ _ _ _ _ h
  · intro n A b it x h
    unfold pickNnls at h
    split at h
    · cases h; exact hc.2.1
    · exact dOK.nonneg _ _ _ _ _ h
  · intro n A b it x hA hb h y hy hy0
    unfold pickNnls at h
    split at h
    · next hp =>
      cases h
      rw [hp.2.1, hp.2.2, resid_chi2 M m' iv' c hpos', resid_chi2 M m' iv' y hpos']
      exact hc.2.2 y (by rw [hy, hp.1]) hy0
    · exact dOK.opt _ _ _ _ _ hA hb h y hy hy0
  · intro n A b it
    unfold pickNnls
    split
    · exact ⟨_, rfl⟩
    · exact dRet n A b it
  · intro noise
    rw [fit_eff _ F hr z m iv hm hiv, fit_scalar _ (F := F.plain) (Or.inl rfl) hnb z _ _ (by rw [List.length_mapIdx]; exact hm) (by rw [List.length_mapIdx]; exact hiv), real_f32,
      map_f32_list, map_f32_list]
    rw [fitU_in0 (F := F.plain) hR.set hM _ (by rw [(at_shaped hR.good hM).1, hR.rows, List.length_mapIdx, hiv])]
    have hs : solve (pickNnls F.templates.nsed A0 b0 c) F.templates.nsed A0 b0 = .ok c := by
      unfold solve
      have : ∀ it, pickNnls F.templates.nsed A0 b0 c F.templates.nsed A0 b0 it = .ok c := by
        intro it
        unfold pickNnls
        rw [if_pos ⟨rfl, rfl, rfl⟩]
      simp only [this]
    exact (congrArg (Except.map (outOne F.plain 0)) (congrArg (Except.map _) hs))

/-- C168: if the bands with positive inverse variance do not tell the templates apart and the fit uses every template, then another solver that keeps the contract gives
other coefficients (every class). -/
theorem C168_differs (nnls : Nnls ℝ) (hn : NNLSOK nnls) (F : Fitter ℝ) (hr : AbReady F.abCls F.responses.length) (hnb : F.responses.length ≠ 1) (Am : AMat ℝ)
    (hR : Ready F Am) (z : ℝ) (hz : InRange Am.x z) (m iv : List ℝ) (hm : m.length = F.responses.length) (hiv : iv.length = F.responses.length)
    (hpos : ∀ v ∈ iv, 0 ≤ v) (hi : ¬ Indep F z iv) (noise : Nat → Nat → Nat → ℝ) (c : List ℝ) (hc : ∀ v ∈ c, 0 < v)
    (h : F.fitCoeffs nnls (some (.scalar z)) (some (.vec m)) (some (.vec iv)) 0 noise = .ok ⟨.vec c, none⟩) :
    ∃ nnls' c', NNLSOK nnls' ∧ NnlsReturns nnls' ∧ c' ≠ c ∧ ∀ noise',
      F.fitCoeffs nnls' (some (.scalar z)) (some (.vec m)) (some (.vec iv)) 0 noise' = .ok ⟨.vec c', none⟩ := by
  obtain ⟨M, hM⟩ := (at_ok_iff hR.good.ne).mpr hz
  obtain ⟨c1, h1, ho⟩ := C49_ab nnls hn F hr Am hR z hz m iv hm hiv hpos noise _ h
  obtain rfl : c = c1 := by
    simp only [FitOut.mk.injEq, NDA.vec, NDA.arr.injEq, List.cons.injEq, and_true] at h1
    exact h1.2.2
  unfold Indep at hi
  push Not at hi
  obtain ⟨x, r, hxl, hxr, hx0, v, hv, hvn⟩ := hi
  rw [recon_ready hR hM hxl] at hxr
  have er : mulVec M x = r := by
    simp only [Except.ok.injEq, NDA.vec, NDA.arr.injEq, List.cons.injEq, and_true] at hxr
    exact hxr.2.2
  subst er
  obtain ⟨t, ht, hst⟩ := small_step c x hc
  have hl : c.length = x.length := by rw [ho.1, hxl]
  have ho' : Optimal F z (abM F.abCls m) (abIv F.abCls iv) (List.zipWith (fun a b => a + t * b) c x) := by
    rw [optimal_iff hR hM] at ho ⊢
    refine ⟨by simp [ho.1, hxl], hst t ht.le le_rfl, fun y hy hy0 => ?_⟩
    refine le_trans (le_of_eq (chi2_congr _ _ _ _ (by simp [mulVec]) ?_)) (ho.2.2 y hy hy0)
    intro j w hw hw0
    obtain ⟨v', hv', hvp⟩ := abIv_ne hpos hw hw0
    have e0 := hx0 j v' hv' hvp
    rw [mulVec_step _ _ _ _ hl, List.getElem?_zipWith, e0]
    cases (mulVec M c)[j]? <;> simp
  obtain ⟨nnls', g1, g2, g3⟩ := C168_attained F hr hnb Am hR z hz m iv hm hiv hpos _ ho'
  refine ⟨nnls', _, g1, g2, ?_, g3⟩
  intro he
  obtain ⟨i, hi', rfl⟩ := List.mem_iff_getElem.mp hv
  have : (List.zipWith (fun a b => a + t * b) c x)[i]'(by simp; omega) = c[i]'(by omega) := by simp [he]
  rw [List.getElem_zipWith] at this
  have : t * x[i] = 0 := by linarith
  rcases mul_eq_zero.mp this with h0 | h0
  · exact ht.ne' h0
  · exact hvn h0

/-- C168: with more templates than bands with positive inverse variance, the bands never tell the templates apart. -/
theorem C168_few (F : Fitter ℝ) (Am : AMat ℝ) (hR : Ready F Am) (z : ℝ) (hz : InRange Am.x z) (iv : List ℝ) (hiv : iv.length = F.responses.length)
    (hfew : (iv.filter (fun v => decide (0 < v))).length < F.templates.nsed) : ¬ Indep F z iv := by
  obtain ⟨M, hM⟩ := (at_ok_iff hR.good.ne).mpr hz
  have hMl : M.length = iv.length := by rw [(at_shaped hR.good hM).1, hR.rows, hiv]
  set T := (M.zip iv).filter (fun t => decide (0 < t.2)) with hT
  have hiv' : (M.zip iv).map Prod.snd = iv := List.map_snd_zip (by omega)
  have hlen : T.length = (iv.filter (fun v => decide (0 < v))).length := by
    conv_rhs => rw [← hiv', List.filter_map, List.length_map]
    rfl
  let B : Matrix (Fin T.length) (Fin F.templates.nsed) ℝ := fun i k => ent (T[i]).1 k
  have hker : LinearMap.ker B.mulVecLin ≠ ⊥ := LinearMap.ker_ne_bot_of_finrank_lt (by simp [hlen, hfew])
  obtain ⟨x, hx, hx0⟩ := (Submodule.ne_bot_iff _).mp hker
  intro hi
  have hall := hi (List.ofFn x) (mulVec M (List.ofFn x)) (by simp) (recon_ready hR hM (by simp)) (by
    intro j v hv hvp
    have hj : j < iv.length := (List.getElem?_eq_some_iff.mp hv).1
    have hjM : j < M.length := by omega
    have hmem : (M[j], v) ∈ T := by
      rw [hT, List.mem_filter]
      refine ⟨?_, by simpa using hvp⟩
      rw [List.mem_iff_getElem?]
      exact ⟨j, by simp [List.getElem?_zip_eq_some, hjM, hv]⟩
    obtain ⟨i, hi', he⟩ := List.mem_iff_getElem.mp hmem
    have := congrFun (show B.mulVec x = 0 from hx) ⟨i, hi'⟩
    simp only [Matrix.mulVec, dotProduct, B, Pi.zero_apply, Fin.getElem_fin, he] at this
    rw [mulVec, List.getElem?_map, List.getElem?_eq_getElem hjM, Option.map_some, dot, sumL_real, dot_ofFn, this])
  apply hx0
  funext i
  exact hall (x i) (List.mem_ofFn.mpr ⟨i, rfl⟩)

/-! ### An object with two bands and two templates, and photometry in one band -/

theorem demoAm2_at0' : demoAm2.at 0 = .ok [[1, 2], [3, 1]] := at_node (k := 0) demo_ready.good (by simp [demoAm2])

theorem demo_opt (c : List ℝ) (hl : c.length = 2) (h0 : ∀ v ∈ c, 0 ≤ v) (h : dot [1, 2] c = 3) : Optimal demoKc2.toFitter 2 [3, 1] [1, 0] c := by
  rw [optimal_iff (F := demoKc2.toFitter) demo_ready demoAm2_at2]
  refine ⟨hl, h0, fun y _ _ => ?_⟩
  simp only [mulVec, List.map_cons, List.map_nil, chi2_cons, h]
  have : (0 : ℝ) ≤ (3 - dot [1, 2] y) ^ 2 := sq_nonneg _
  simp only [sub_self]
  norm_num [chi2]
  positivity

theorem demo_fit (c : List ℝ) (hl : c.length = 2) (h0 : ∀ v ∈ c, 0 ≤ v) (h : dot [1, 2] c = 3) : ∃ nnls, NNLSOK nnls ∧ NnlsReturns nnls ∧ ∀ noise,
    demoKc2.toFitter.fitCoeffs nnls (some (.scalar 2)) (some (.vec [3, 1])) (some (.vec [1, 0])) 0 noise = .ok ⟨.vec c, none⟩ := by
  refine C168_attained demoKc2.toFitter trivial (by decide) demoAm2 demo_ready 2 (by norm_num [InRange, demoAm2]) [3, 1] [1, 0] rfl rfl (by simp) c ?_
  rw [show demoKc2.toFitter.abCls = .base from rfl, abIv_base, abM_base]
  exact demo_opt c hl h0 h

/-- C168: two solvers that both keep the contract of nnls, and the same photometry.  The K-corrections computed from the two answers differ. -/
theorem C168_kcorrect : ∃ nnls nnls' out out' k k' v v', NNLSOK nnls ∧ NNLSOK nnls' ∧ NnlsReturns nnls ∧ NnlsReturns nnls' ∧
    demoKc2.toFitter.fitCoeffs nnls (some (.scalar 2)) (some (.vec [3, 1])) (some (.vec [1, 0])) 0 (fun _ _ _ => 0) = .ok out ∧
    demoKc2.toFitter.fitCoeffs nnls' (some (.scalar 2)) (some (.vec [3, 1])) (some (.vec [1, 0])) 0 (fun _ _ _ => 0) = .ok out' ∧
    demoKc2.kcorrect (some (.scalar 2)) (some out.coeffs) 0 = .ok k ∧ demoKc2.kcorrect (some (.scalar 2)) (some out'.coeffs) 0 = .ok k' ∧
    entry k 0 1 = some v ∧ entry k' 0 1 = some v' ∧ v ≠ v' := by
  obtain ⟨n1, a1, a2, a3⟩ := demo_fit [1, 1] rfl (by simp) (by norm_num [dot, sumL_real])
  obtain ⟨n2, b1, b2, b3⟩ := demo_fit [3, 0] rfl (by simp) (by norm_num [dot, sumL_real])
  have hk : ∀ c : List ℝ, c.length = 2 → demoKc2.kcorrect (some (.scalar 2)) (some (.vec c)) 0 =
      .ok (.arr [] 2 [kRow [0, 1] id c (reconRow 0 [[1, 2], [3 / 2, 3 / 2]] c) (reconRow 0 [[1, 2], [3, 1]] c)]) := by
    intro c hc
    rw [kcorrect_real (K := demoKc2) (A := demoAm2) (Ao := demoAm2) rfl rfl 2 c hc]
    unfold kReal
    rw [demoAm2_at2, demoAm2_at0']
    rfl
  refine ⟨n1, n2, _, _, _, _, mag (3 / 4), mag (1 / 2), a1, b1, a2, b2, a3 _, b3 _, hk _ rfl, hk _ rfl, ?_, ?_, ?_⟩
  · simp only [kRow, gtb, real_lit, sumL_real, reconRow, dot, gather, ent, magOf_real]
    norm_num [entry]
  · simp only [kRow, gtb, real_lit, sumL_real, reconRow, dot, gather, ent, magOf_real]
    norm_num [entry]
  · unfold mag
    intro h
    have := Real.logb_injOn_pos (b := 10) (by norm_num) (show (0 : ℝ) < 3 / 4 by norm_num) (show (0 : ℝ) < 1 / 2 by norm_num) (by linarith)
    norm_num at this

/-- Not vacuous (C168_differs, C168_few): both coefficients of the first answer are positive, and one band cannot tell two templates apart. -/
example : (∃ nnls, NNLSOK nnls ∧ demoKc2.toFitter.fitCoeffs nnls (some (.scalar 2)) (some (.vec [3, 1])) (some (.vec [1, 0])) 0 (fun _ _ _ => 0) =
      .ok ⟨.vec [1, 1], none⟩) ∧ ¬ Indep demoKc2.toFitter 2 [1, 0] := by
  refine ⟨?_, C168_few demoKc2.toFitter demoAm2 demo_ready 2 (by norm_num [InRange, demoAm2]) [1, 0] rfl ?_⟩
  · obtain ⟨n1, a1, _, a3⟩ := demo_fit [1, 1] rfl (by simp) (by norm_num [dot, sumL_real])
    exact ⟨n1, a1, a3 _⟩
  · norm_num
    decide

/-- Not vacuous (C168_same): two bands tell the two templates apart. -/
example : Indep demoKc2.toFitter 2 [1, 4] := by
  intro x r hx hr h0
  obtain ⟨a, b, rfl⟩ := List.length_eq_two.mp (show x.length = 2 from hx)
  rw [recon_ready (F := demoKc2.toFitter) demo_ready demoAm2_at2 rfl] at hr
  simp only [Except.ok.injEq, NDA.vec, NDA.arr.injEq, List.cons.injEq, and_true] at hr
  obtain ⟨_, _, rfl⟩ := hr
  have e0 := h0 0 1 rfl one_pos
  have e1 := h0 1 4 rfl (by norm_num)
  simp [mulVec, dot, sumL_real] at e0 e1
  have ha : a = 0 := by linarith
  have hb : b = 0 := by linarith
  simp [ha, hb]

end KC
