import Verif.Props.ToAb
import Verif.Props.Truth
import Verif.Props.MonteCarlo

/-!
# The properties of the fit and of absolute magnitudes for `KcorrectSDSS` and `KcorrectGST`

The theorems about classes without AB correction, for every class, with the correction on or off: `F.abCls` is the class whose correction the object
applies (`.base` if it does not correct), `AbReady` says that it has the bands the correction is made for.
-/

namespace KC
open Spec

namespace Spec

/-- The AB corrected maggies of one object. -/
noncomputable def abM (cls : Cls) (m : List ℝ) : List ℝ := m.mapIdx (fun j x => x * abFactor cls j)

/-- The inverse variances of the AB corrected maggies. -/
noncomputable def abIv (cls : Cls) (iv : List ℝ) : List ℝ := iv.mapIdx (fun j x => x / abFactor cls j ^ 2)

end Spec

@[simp] theorem abM_length (cls : Cls) (m : List ℝ) : (abM cls m).length = m.length := by simp [abM]

@[simp] theorem abIv_length (cls : Cls) (m : List ℝ) : (abIv cls m).length = m.length := by simp [abIv]

theorem abM_get (cls : Cls) (m : List ℝ) (j : Nat) : (abM cls m)[j]? = (m[j]?).map (· * abFactor cls j) := by simp [abM, List.getElem?_mapIdx]

theorem abIv_get (cls : Cls) (m : List ℝ) (j : Nat) : (abIv cls m)[j]? = (m[j]?).map (· / abFactor cls j ^ 2) := by
  simp [abIv, List.getElem?_mapIdx]

theorem abIv_nonneg (cls : Cls) (iv : List ℝ) (h : ∀ v ∈ iv, 0 ≤ v) : ∀ v ∈ abIv cls iv, 0 ≤ v := by
  intro v hv
  obtain ⟨j, hj⟩ := List.mem_iff_getElem?.mp hv
  rw [abIv_get, Option.map_eq_some_iff] at hj
  obtain ⟨x, hx, rfl⟩ := hj
  exact div_nonneg (h x (List.mem_of_getElem? hx)) (pow_nonneg (abFactor_pos cls j).le 2)

theorem abIv_pos {cls : Cls} {iv : List ℝ} {j : Nat} {v : ℝ} (h : iv[j]? = some v) (hv : 0 < v) :
    (abIv cls iv)[j]? = some (v / abFactor cls j ^ 2) ∧ 0 < v / abFactor cls j ^ 2 :=
  ⟨by rw [abIv_get, h]; rfl, div_pos hv (pow_pos (abFactor_pos cls j) 2)⟩

theorem abM_map (cls : Cls) (m : List ℝ) (s : ℝ) : abM cls (m.map (fun v => s * v)) = (abM cls m).map (fun v => s * v) := by
  apply List.ext_getElem?
  intro j
  rw [abM_get, List.getElem?_map, List.getElem?_map, abM_get]
  cases m[j]? with
  | none => rfl
  | some x => simp only [Option.map_some, Option.some.injEq]; ring

theorem abIv_map (cls : Cls) (m : List ℝ) (s : ℝ) : abIv cls (m.map (fun v => s * v)) = (abIv cls m).map (fun v => s * v) := by
  apply List.ext_getElem?
  intro j
  rw [abIv_get, List.getElem?_map, List.getElem?_map, abIv_get]
  cases m[j]? with
  | none => rfl
  | some x => simp only [Option.map_some, Option.some.injEq]; ring

theorem mat_ext {a : NDA ℝ} {n w : Nat} {rows : List (List ℝ)} (hw : a.WF) (hs : a.shape = [n, w]) (hl : rows.length = n)
    (hr : ∀ r ∈ rows, r.length = w) (h : ∀ i j, entry a i j = (rows[i]?).bind (fun r => r[j]?)) : a = .arr [n] w rows := by
  cases a with
  | scalar x => cases hs
  | arr lead nc rs =>
    have e : lead = [n] ∧ nc = w := by
      have e' : lead ++ [nc] = [n] ++ [w] := hs
      have := List.append_inj' e' rfl
      exact ⟨this.1, by simpa using this.2⟩
    obtain ⟨rfl, rfl⟩ := e
    have hrs : rs.length = n := by simpa using hw.1
    congr 1
    apply List.ext_getElem (by omega)
    intro i h1 h2
    apply List.ext_getElem
    · rw [hw.2 _ (List.getElem_mem h1), hr _ (List.getElem_mem h2)]
    · intro j h3 h4
      have := h i j
      simp only [entry, List.getElem?_eq_getElem h1, List.getElem?_eq_getElem h2, Option.bind_some, List.getElem?_eq_getElem h3,
        List.getElem?_eq_getElem h4, Option.some.injEq] at this
      exact this

/-- `to_ab` on a batch. -/
theorem toAb_batch (cls : Cls) (n w : Nat) (ms ivs : List (List ℝ)) (hr : AbReady cls w) (hm : ms.length = n) (hiv : ivs.length = n)
    (hmr : ∀ r ∈ ms, r.length = w) (hivr : ∀ r ∈ ivs, r.length = w) :
    toAb cls (.arr [n] w ms) (some (.arr [n] w ivs)) = .ok ⟨.arr [n] w (ms.map (abM cls)), some (.arr [n] w (ivs.map (abIv cls)))⟩ := by
  have wm : (NDA.arr [n] w ms).WF := ⟨by simpa using hm, hmr⟩
  have wiv : (NDA.arr [n] w ivs).WF := ⟨by simpa using hiv, hivr⟩
  have lM : ∀ r ∈ ms.map (abM cls), r.length = w := by
    intro r hr
    obtain ⟨x, hx, rfl⟩ := List.mem_map.mp hr
    rw [abM_length, hmr x hx]
  have lIv : ∀ r ∈ ivs.map (abIv cls), r.length = w := by
    intro r hr
    obtain ⟨x, hx, rfl⟩ := List.mem_map.mp hr
    rw [abIv_length, hivr x hx]
  cases cls with
  | base =>
    have e1 : ∀ l : List ℝ, abM .base l = l := by
      intro l
      apply List.ext_getElem?
      intro j
      rw [abM_get]
      cases l[j]? <;> simp [abFactor, abOffset]
    have e2 : ∀ l : List ℝ, abIv .base l = l := by
      intro l
      apply List.ext_getElem?
      intro j
      rw [abIv_get]
      cases l[j]? <;> simp [abFactor, abOffset]
    rw [show abM .base = id from funext e1, show abIv .base = id from funext e2, List.map_id, List.map_id]
    rfl
  | sdss =>
    obtain rfl : w = 5 := hr
    obtain ⟨out, h1, h2, h3, h4, _, h5⟩ := abCorrect_real (.arr [n] 5 ms) (some (.arr [n] 5 ivs)) abfixDefault wm rfl rfl
      (by intro v hv; cases hv; exact ⟨wiv, rfl⟩)
    obtain ⟨v, hv, k1, k2, k3⟩ := h5 _ rfl
    have hfac : ∀ j, j < 5 → ∃ φ : ℝ, (abfixDefault (α := ℝ))[j]? = some φ ∧ (10 : ℝ) ^ (-0.4 * φ) = abFactor .sdss j := by
      intro j h5
      interval_cases j <;> refine ⟨_, rfl, ?_⟩ <;> simp [abFactor, abOffset, gstOffset]
    have e1 : out.maggies = .arr [n] 5 (ms.map (abM .sdss)) := by
      refine mat_ext h3 h2 (by simpa using hm) lM (fun i j => ?_)
      rw [h4, List.getElem?_map]
      simp only [entry]
      cases hx : ms[i]? with
      | none => rfl
      | some r =>
        simp only [Option.bind_some, Option.map_some, abM_get]
        cases hy : r[j]? with
        | none => rfl
        | some y =>
          obtain ⟨φ, p1, p2⟩ := hfac j (by have := (List.getElem?_eq_some_iff.mp hy).1; rw [hmr r (List.mem_of_getElem? hx)] at this; exact this)
          simp only [Option.bind_some, p1, Option.map_some, p2]
    have e2 : v = .arr [n] 5 (ivs.map (abIv .sdss)) := by
      refine mat_ext k2 k1 (by simpa using hiv) lIv (fun i j => ?_)
      rw [k3, List.getElem?_map]
      simp only [entry]
      cases hx : ivs[i]? with
      | none => rfl
      | some r =>
        simp only [Option.bind_some, Option.map_some, abIv_get]
        cases hy : r[j]? with
        | none => rfl
        | some y =>
          obtain ⟨φ, p1, p2⟩ := hfac j (by have := (List.getElem?_eq_some_iff.mp hy).1; rw [hivr r (List.mem_of_getElem? hx)] at this; exact this)
          simp only [Option.bind_some, p1, Option.map_some, p2]
    show sdssAbCorrect _ _ _ = _
    rw [h1, ← e1, ← e2, ← hv]
  | gst =>
    obtain ⟨out, v, h1, h2, h3, h4, h5, h6, h7⟩ := C88_gst_partial (.arr [n] w ms) (.arr [n] w ivs) wm wiv rfl w rfl hr
    rw [h1]
    have e1 : out = .arr [n] w (ms.map (abM .gst)) := by
      refine mat_ext h2 h4 (by simpa using hm) lM (fun i j => ?_)
      rw [h6, List.getElem?_map]
      simp only [entry]
      cases hx : ms[i]? with
      | none => rfl
      | some r => simp only [Option.bind_some, Option.map_some, abM_get]; rfl
    have e2 : v = .arr [n] w (ivs.map (abIv .gst)) := by
      refine mat_ext h3 h5 (by simpa using hiv) lIv (fun i j => ?_)
      rw [h7, List.getElem?_map]
      simp only [entry]
      cases hx : ivs[i]? with
      | none => rfl
      | some r => simp only [Option.bind_some, Option.map_some, abIv_get]; rfl
    rw [e1, e2]

theorem shapes_batch {nb nt : Nat} (zs : List ℝ) (ms ivs : List (List ℝ)) (cs : Option (List (List ℝ))) :
    ShapesMatch nb nt (some (.vec zs)) (some (.arr [zs.length] nb ms)) (some (.arr [zs.length] nb ivs)) (cs.map (.arr [zs.length] nt)) := by
  refine ⟨_, rfl, Or.inr ⟨zs.length, rfl, ?_, ?_, ?_⟩⟩
  · intro a ha; cases ha; rfl
  · intro a ha; cases ha; rfl
  · intro a ha
    cases cs with
    | none => cases ha
    | some l => cases ha; rfl

/-- Fit of a batch: that of a plain object to the corrected values. -/
theorem fit_batch_eff (nnls : Nnls ℝ) (F : Fitter ℝ) (hr : AbReady F.abCls F.responses.length) (zs : List ℝ) (ms ivs : List (List ℝ))
    (hm : ms.length = zs.length) (hiv : ivs.length = zs.length) (hmr : ∀ r ∈ ms, r.length = F.responses.length)
    (hivr : ∀ r ∈ ivs, r.length = F.responses.length) (mc : Nat) (noise : Nat → Nat → Nat → ℝ) :
    F.fitCoeffs nnls (some (.vec zs)) (some (.arr [zs.length] F.responses.length ms)) (some (.arr [zs.length] F.responses.length ivs)) mc noise =
      F.plain.fitCoeffs nnls (some (.vec zs)) (some (.arr [zs.length] F.responses.length (ms.map (abM F.abCls))))
        (some (.arr [zs.length] F.responses.length (ivs.map (abIv F.abCls)))) mc noise := by
  have e := process_eff F (some (.vec zs)) (.arr [zs.length] F.responses.length ms) (some (.arr [zs.length] F.responses.length ivs)) none
    (by intro a ha; cases ha; simp [NDA.vec, NDA.WF]) (shapes_batch zs ms ivs none)
  rw [toAb_batch F.abCls _ _ ms ivs hr hm hiv hmr hivr, ok_bind] at e
  unfold Fitter.fitCoeffs Fitter.fitCoeffsI
  rw [e, fitOne_plain, fitPass_plain]
  rfl

/-- Absolute magnitudes of a batch: those of a plain object on the corrected values. -/
theorem absmag_batch_eff (K : Kc ℝ) (hr : AbReady K.abCls K.responses.length) (zs : List ℝ) (ms ivs cs : List (List ℝ))
    (hm : ms.length = zs.length) (hiv : ivs.length = zs.length) (hmr : ∀ r ∈ ms, r.length = K.responses.length)
    (hivr : ∀ r ∈ ivs, r.length = K.responses.length) (bs : ℝ) (d : Option (NDA ℝ)) (x y w : Bool) :
    K.absmag (some (.arr [zs.length] K.responses.length ms)) (some (.arr [zs.length] K.responses.length ivs)) (some (.vec zs))
        (some (.arr [zs.length] K.templates.nsed cs)) bs d x y w =
      K.plain.absmag (some (.arr [zs.length] K.responses.length (ms.map (abM K.abCls))))
        (some (.arr [zs.length] K.responses.length (ivs.map (abIv K.abCls)))) (some (.vec zs)) (some (.arr [zs.length] K.templates.nsed cs)) bs d x y w := by
  have e := process_eff K.toFitter (some (.vec zs)) (.arr [zs.length] K.responses.length ms) (some (.arr [zs.length] K.responses.length ivs))
    (some (.arr [zs.length] K.templates.nsed cs)) (by intro a ha; cases ha; simp [NDA.vec, NDA.WF]) (shapes_batch zs ms ivs (some cs))
  rw [toAb_batch K.abCls _ _ ms ivs hr hm hiv hmr hivr, ok_bind] at e
  unfold Kc.absmag
  rw [e, absmagI_plain]
  rfl

theorem optimal_plain (F : Fitter ℝ) : Optimal F.plain = Optimal F := by
  funext z m iv c
  unfold Optimal
  rw [recon_plain]
  rfl

theorem determined_plain (F : Fitter ℝ) : Determined F.plain = Determined F := by
  funext z m iv c
  unfold Determined
  rw [recon_plain]
  rfl

theorem ready_plain {F : Fitter ℝ} {A : AMat ℝ} (h : Ready F A) : Ready F.plain A := ⟨h.set, h.good, h.rows, h.cols⟩

/-- C49, every class: the fitted coefficients are the nonnegative optimum for the AB corrected photometry. -/
theorem C49_ab (nnls : Nnls ℝ) (hn : NNLSOK nnls) (F : Fitter ℝ) (hr : AbReady F.abCls F.responses.length) (Am : AMat ℝ) (hR : Ready F Am) (z : ℝ)
    (hz : InRange Am.x z) (m iv : List ℝ) (hm : m.length = F.responses.length) (hiv : iv.length = F.responses.length)
    (hpos : ∀ v ∈ iv, 0 ≤ v) (noise : Nat → Nat → Nat → ℝ) (out : FitOut ℝ)
    (h : F.fitCoeffs nnls (some (.scalar z)) (some (.vec m)) (some (.vec iv)) 0 noise = .ok out) :
    ∃ c, out = ⟨.vec c, none⟩ ∧ Optimal F z (abM F.abCls m) (abIv F.abCls iv) c := by
  rw [fit_eff nnls F hr z m iv hm hiv] at h
  obtain ⟨c, h1, h2⟩ := C49_optimal nnls hn F.plain (Or.inl rfl) Am (ready_plain hR) z hz (abM F.abCls m) (abIv F.abCls iv)
    (by rw [abM_length]; exact hm) (by rw [abIv_length]; exact hiv) (abIv_nonneg _ _ hpos) noise out h
  exact ⟨c, h1, by rw [← optimal_plain]; exact h2⟩

/-- rows of mapped tables -/
theorem map_rows {f : List ℝ → List ℝ} {w : Nat} {rows : List (List ℝ)} (hf : ∀ l, (f l).length = l.length) (h : ∀ r ∈ rows, r.length = w) :
    ∀ r ∈ rows.map f, r.length = w := by
  intro r hr
  obtain ⟨x, hx, rfl⟩ := List.mem_map.mp hr
  rw [hf, h x hx]

theorem map_nonneg {cls : Cls} {rows : List (List ℝ)} (h : ∀ r ∈ rows, ∀ v ∈ r, 0 ≤ v) : ∀ r ∈ rows.map (abIv cls), ∀ v ∈ r, 0 ≤ v := by
  intro r hr
  obtain ⟨x, hx, rfl⟩ := List.mem_map.mp hr
  exact abIv_nonneg _ _ (h x hx)

/-- C49, every class, batches. -/
theorem C49_ab_batch (nnls : Nnls ℝ) (hn : NNLSOK nnls) (F : Fitter ℝ) (hr : AbReady F.abCls F.responses.length) (hnb : F.responses.length ≠ 1)
    (Am : AMat ℝ) (hR : Ready F Am) (zs : List ℝ) (ms ivs : List (List ℝ)) (hl : zs.length ≠ 1) (hm : ms.length = zs.length)
    (hiv : ivs.length = zs.length) (hmr : ∀ r ∈ ms, r.length = F.responses.length) (hivr : ∀ r ∈ ivs, r.length = F.responses.length)
    (hpos : ∀ r ∈ ivs, ∀ v ∈ r, 0 ≤ v) (noise : Nat → Nat → Nat → ℝ) (out : FitOut ℝ)
    (h : F.fitCoeffs nnls (some (.vec zs)) (some (.arr [zs.length] F.responses.length ms))
      (some (.arr [zs.length] F.responses.length ivs)) 0 noise = .ok out) :
    ∃ cs, out = ⟨.arr [zs.length] F.templates.nsed cs, none⟩ ∧ cs.length = zs.length ∧
      ∀ (k : Nat) z m iv c, zs[k]? = some z → ms[k]? = some m → ivs[k]? = some iv → cs[k]? = some c → InRange Am.x z →
        Optimal F z (abM F.abCls m) (abIv F.abCls iv) c := by
  rw [fit_batch_eff nnls F hr zs ms ivs hm hiv hmr hivr] at h
  obtain ⟨cs, h1, h2, h3⟩ := C49_optimal_batch nnls hn F.plain (Or.inl rfl) hnb Am (ready_plain hR) zs (ms.map (abM F.abCls)) (ivs.map (abIv F.abCls))
    hl (by simpa using hm) (by simpa using hiv) (map_rows (abM_length _) hmr) (map_rows (abIv_length _) hivr) (map_nonneg hpos) noise out h
  refine ⟨cs, h1, h2, fun k z m iv c a1 a2 a3 a4 a5 => ?_⟩
  rw [← optimal_plain]
  exact h3 k z _ _ c a1 (by rw [List.getElem?_map, a2]; rfl) (by rw [List.getElem?_map, a3]; rfl) a4 a5

/-- C50, every class: the maggies of a band with zero inverse variance do not matter. -/
theorem C50_ab_partial (nnls : Nnls ℝ) (F : Fitter ℝ) (hr : AbReady F.abCls F.responses.length) (hnb : F.responses.length ≠ 1) (z : ℝ)
    (m m' iv : List ℝ) (hm : m.length = F.responses.length) (hm' : m'.length = F.responses.length) (hiv : iv.length = F.responses.length)
    (h : ∀ (j : Nat) v, iv[j]? = some v → v ≠ 0 → m[j]? = m'[j]?) (noise : Nat → Nat → Nat → ℝ) :
    F.fitCoeffs nnls (some (.scalar z)) (some (.vec m)) (some (.vec iv)) 0 noise =
    F.fitCoeffs nnls (some (.scalar z)) (some (.vec m')) (some (.vec iv)) 0 noise := by
  rw [fit_eff nnls F hr z m iv hm hiv, fit_eff nnls F hr z m' iv hm' hiv]
  refine C50_zero_ivar_partial nnls F.plain (Or.inl rfl) hnb z (abM F.abCls m) (abM F.abCls m') (abIv F.abCls iv) (by rw [abM_length]; exact hm)
    (by rw [abM_length]; exact hm') (by rw [abIv_length]; exact hiv) (fun j v h1 h2 => ?_) noise
  rw [abIv_get, Option.map_eq_some_iff] at h1
  obtain ⟨x, hx, rfl⟩ := h1
  rw [abM_get, abM_get, h j x hx (by rintro rfl; simp at h2)]

/-- C50, every class, batches. -/
theorem C50_ab_batch_partial (nnls : Nnls ℝ) (F : Fitter ℝ) (hr : AbReady F.abCls F.responses.length) (zs : List ℝ)
    (ms ms' ivs : List (List ℝ)) (hl : zs.length ≠ 1) (hm : ms.length = zs.length) (hm' : ms'.length = zs.length)
    (hiv : ivs.length = zs.length) (hmr : ∀ r ∈ ms, r.length = F.responses.length) (hmr' : ∀ r ∈ ms', r.length = F.responses.length)
    (hivr : ∀ r ∈ ivs, r.length = F.responses.length)
    (h : ∀ (k j : Nat) iv v, ivs[k]? = some iv → iv[j]? = some v → v ≠ 0 →
      (ms[k]?).bind (fun r => r[j]?) = (ms'[k]?).bind (fun r => r[j]?)) (noise : Nat → Nat → Nat → ℝ) :
    F.fitCoeffs nnls (some (.vec zs)) (some (.arr [zs.length] F.responses.length ms)) (some (.arr [zs.length] F.responses.length ivs)) 0 noise =
    F.fitCoeffs nnls (some (.vec zs)) (some (.arr [zs.length] F.responses.length ms')) (some (.arr [zs.length] F.responses.length ivs)) 0 noise := by
  rw [fit_batch_eff nnls F hr zs ms ivs hm hiv hmr hivr, fit_batch_eff nnls F hr zs ms' ivs hm' hiv hmr' hivr]
  refine C50_zero_ivar_batch_partial nnls F.plain (Or.inl rfl) zs (ms.map (abM F.abCls)) (ms'.map (abM F.abCls)) (ivs.map (abIv F.abCls)) hl
    (by simpa using hm) (by simpa using hm') (by simpa using hiv) (map_rows (abM_length _) hmr) (map_rows (abM_length _) hmr')
    (fun k j iv v h1 h2 h3 => ?_) noise
  rw [List.getElem?_map, Option.map_eq_some_iff] at h1
  obtain ⟨iv', h1, rfl⟩ := h1
  rw [abIv_get, Option.map_eq_some_iff] at h2
  obtain ⟨x, hx, rfl⟩ := h2
  have e := h k j iv' x h1 hx (by rintro rfl; simp at h3)
  have e' : ∀ l : List (List ℝ), ((l.map (abM F.abCls))[k]?).bind (fun r => r[j]?) = ((l[k]?).bind (fun r => r[j]?)).map (· * abFactor F.abCls j) := by
    intro l
    rw [List.getElem?_map]
    cases l[k]? with
    | none => rfl
    | some r => simp only [Option.map_some, Option.bind_some, abM_get]
  rw [e', e', e]

/-- C51, every class: outside the grid all coefficients are zero. -/
theorem C51_ab_partial (nnls : Nnls ℝ) (F : Fitter ℝ) (hr : AbReady F.abCls F.responses.length) (Am : AMat ℝ) (hA : F.Amatrix = some Am) (z : ℝ)
    (hz : OffGrid Am z) (m iv : List ℝ) (hm : m.length = F.responses.length) (hiv : iv.length = F.responses.length)
    (noise : Nat → Nat → Nat → ℝ) :
    F.fitCoeffs nnls (some (.scalar z)) (some (.vec m)) (some (.vec iv)) 0 noise = .ok ⟨.vec (List.replicate F.templates.nsed 0), none⟩ := by
  rw [fit_eff nnls F hr z m iv hm hiv]
  have := C51_scalar_partial nnls F.plain (Or.inl rfl) Am hA z hz (abM F.abCls m) (abIv F.abCls iv) (by rw [abM_length]; exact hm)
    (by rw [abIv_length]; exact hiv) noise
  simp only [real_lit, Rat.cast_zero] at this
  exact this

theorem getD_map_nil {f : List ℝ → List ℝ} (hf : f [] = []) (l : List (List ℝ)) (k : Nat) : (l.map f).getD k [] = f (l.getD k []) := by
  rw [List.getD_eq_getElem?_getD, List.getD_eq_getElem?_getD, List.getElem?_map]
  cases l[k]? with
  | none => simp [hf]
  | some r => rfl

theorem getD_len {w : Nat} {l : List (List ℝ)} (h : ∀ r ∈ l, r.length = w) {k : Nat} (hk : k < l.length) : (l.getD k []).length = w := by
  rw [List.getD_eq_getElem?_getD, List.getElem?_eq_getElem hk]
  exact h _ (List.getElem_mem hk)

/-- C52, every class: a batch returns exactly if each object alone does, with the same results. -/
theorem C52_ab_partial (nnls : Nnls ℝ) (hlen : NnlsLen nnls) (F : Fitter ℝ) (hr : AbReady F.abCls F.responses.length) (hnb : F.responses.length ≠ 1)
    (zs : List ℝ) (ms ivs : List (List ℝ)) (hn : zs.length ≠ 1) (hm : ms.length = zs.length) (hiv : ivs.length = zs.length)
    (hmr : ∀ r ∈ ms, r.length = F.responses.length) (hivr : ∀ r ∈ ivs, r.length = F.responses.length)
    (mc : Nat) (noise : Nat → Nat → Nat → ℝ) :
    let batch := F.fitCoeffs nnls (some (.vec zs)) (some (.arr [zs.length] F.responses.length ms))
      (some (.arr [zs.length] F.responses.length ivs)) mc noise
    let alone := fun k => F.fitCoeffs nnls (some (.scalar (ent zs k))) (some (.vec (ms.getD k []))) (some (.vec (ivs.getD k []))) mc
      (fun _ => noise k)
    ((∃ out, batch = .ok out) ↔ ∀ k < zs.length, ∃ o, alone k = .ok o) ∧
    ∀ out, batch = .ok out → ∃ cs : List (List ℝ × List (List ℝ) × List (List ℝ)), cs.length = zs.length ∧
      (∀ (k : Nat) (r : List ℝ × List (List ℝ) × List (List ℝ)), cs[k]? = some r → alone k = .ok ⟨.vec r.1,
        if mc = 0 then none else some (.arr [F.templates.nsed] mc r.2.1, .arr [F.responses.length] mc r.2.2)⟩) ∧
      out.coeffs = .arr [zs.length] F.templates.nsed (cs.map (fun r => r.1)) ∧
      out.mc = if mc = 0 then none else some (.arr [zs.length, F.templates.nsed] mc (cs.map (fun r => r.2.1)).flatten,
        .arr [zs.length, F.responses.length] mc (cs.map (fun r => r.2.2)).flatten) := by
  intro batch alone
  have hb : batch = _ := fit_batch_eff nnls F hr zs ms ivs hm hiv hmr hivr mc noise
  have ha : ∀ k < zs.length, alone k = F.plain.fitCoeffs nnls (some (.scalar (ent zs k))) (some (.vec ((ms.map (abM F.abCls)).getD k [])))
      (some (.vec ((ivs.map (abIv F.abCls)).getD k []))) mc (fun _ => noise k) := by
    intro k hk
    rw [getD_map_nil rfl, getD_map_nil rfl]
    exact fit_eff nnls F hr _ _ _ (getD_len hmr (by omega)) (getD_len hivr (by omega)) mc _
  have e := C52_batch_partial nnls hlen F.plain (Or.inl rfl) hnb zs (ms.map (abM F.abCls)) (ivs.map (abIv F.abCls)) hn (by simpa using hm)
    (by simpa using hiv) (map_rows (abM_length _) hmr) (map_rows (abIv_length _) hivr) mc noise
  obtain ⟨e1, e2⟩ := e
  rw [hb]
  refine ⟨e1.trans ⟨fun h k hk => ?_, fun h k hk => ?_⟩, fun out ho => ?_⟩
  · rw [ha k hk]; exact h k hk
  · have := h k hk
    rw [ha k hk] at this
    exact this
  · obtain ⟨cs, c1, c2, c3, c4⟩ := e2 out ho
    refine ⟨cs, c1, fun k r hk => ?_, ?_, c4⟩
    · have hk' : k < zs.length := by rw [← c1]; exact (List.getElem?_eq_some_iff.mp hk).1
      rw [ha k hk']
      exact c2 k r hk
    · rw [c3]
      congr 1
      apply List.map_congr_left
      intro r _
      exact map_f32_l r.1

/-- C52, every class: an array of one object, without Monte Carlo. -/
theorem C52_ab_batch_of_one_partial (nnls : Nnls ℝ) (F : Fitter ℝ) (hr : AbReady F.abCls F.responses.length) (hnb : F.responses.length ≠ 1) (z : ℝ)
    (m iv : List ℝ) (hm : m.length = F.responses.length) (hiv : iv.length = F.responses.length) (noise : Nat → Nat → Nat → ℝ) :
    (∀ e, F.fitCoeffs nnls (some (.vec [z])) (some (.arr [1] F.responses.length [m])) (some (.arr [1] F.responses.length [iv])) 0 noise = .error e ↔
      F.fitCoeffs nnls (some (.scalar z)) (some (.vec m)) (some (.vec iv)) 0 noise = .error e) ∧
    ∀ c, F.fitCoeffs nnls (some (.vec [z])) (some (.arr [1] F.responses.length [m])) (some (.arr [1] F.responses.length [iv])) 0 noise =
        .ok ⟨.arr [1] c.length [c], none⟩ ↔
      F.fitCoeffs nnls (some (.scalar z)) (some (.vec m)) (some (.vec iv)) 0 noise = .ok ⟨.vec c, none⟩ := by
  have e := fit_batch_eff nnls F hr [z] [m] [iv] rfl rfl (by intro r h; simp at h; rw [h, hm]) (by intro r h; simp at h; rw [h, hiv]) 0 noise
  simp only [List.length_singleton, List.map_singleton] at e
  rw [e, fit_eff nnls F hr z m iv hm hiv]
  exact C52_batch_of_one_partial nnls F.plain (Or.inl rfl) hnb z (abM F.abCls m) (abIv F.abCls iv) (by rw [abM_length]; exact hm)
    (by rw [abIv_length]; exact hiv) noise

/-- C51, every class, batches: objects outside the grid get zeros, the others what they get alone. -/
theorem C51_ab_batch_partial (nnls : Nnls ℝ) (hlen : NnlsLen nnls) (F : Fitter ℝ) (hr : AbReady F.abCls F.responses.length)
    (hnb : F.responses.length ≠ 1) (Am : AMat ℝ) (hA : F.Amatrix = some Am)
    (zs : List ℝ) (ms ivs : List (List ℝ)) (hn : zs.length ≠ 1) (hm : ms.length = zs.length) (hiv : ivs.length = zs.length)
    (hmr : ∀ r ∈ ms, r.length = F.responses.length) (hivr : ∀ r ∈ ivs, r.length = F.responses.length)
    (noise : Nat → Nat → Nat → ℝ)
    (hothers : ∀ k < zs.length, ¬ OffGrid Am (ent zs k) → ∃ o, F.fitCoeffs nnls (some (.scalar (ent zs k)))
      (some (.vec (ms.getD k []))) (some (.vec (ivs.getD k []))) 0 noise = .ok o) :
    ∃ rows, F.fitCoeffs nnls (some (.vec zs)) (some (.arr [zs.length] F.responses.length ms))
        (some (.arr [zs.length] F.responses.length ivs)) 0 noise = .ok ⟨.arr [zs.length] F.templates.nsed rows, none⟩ ∧
      rows.length = zs.length ∧
      (∀ k < zs.length, OffGrid Am (ent zs k) → rows[k]? = some (List.replicate F.templates.nsed 0)) ∧
      (∀ k < zs.length, ¬ OffGrid Am (ent zs k) → ∃ c, F.fitCoeffs nnls (some (.scalar (ent zs k)))
        (some (.vec (ms.getD k []))) (some (.vec (ivs.getD k []))) 0 noise = .ok ⟨.vec c, none⟩ ∧ rows[k]? = some c) := by
  have ha : ∀ k < zs.length, F.fitCoeffs nnls (some (.scalar (ent zs k))) (some (.vec (ms.getD k []))) (some (.vec (ivs.getD k []))) 0 noise =
      F.plain.fitCoeffs nnls (some (.scalar (ent zs k))) (some (.vec ((ms.map (abM F.abCls)).getD k [])))
        (some (.vec ((ivs.map (abIv F.abCls)).getD k []))) 0 noise := by
    intro k hk
    rw [getD_map_nil rfl, getD_map_nil rfl]
    exact fit_eff nnls F hr _ _ _ (getD_len hmr (by omega)) (getD_len hivr (by omega)) 0 _
  obtain ⟨rows, h1, h2, h3, h4⟩ := C51_batch_partial nnls hlen F.plain (Or.inl rfl) hnb Am hA zs (ms.map (abM F.abCls)) (ivs.map (abIv F.abCls)) hn
    (by simpa using hm) (by simpa using hiv) (map_rows (abM_length _) hmr) (map_rows (abIv_length _) hivr) noise
    (fun k hk ho => by rw [← ha k hk]; exact hothers k hk ho)
  rw [fit_batch_eff nnls F hr zs ms ivs hm hiv hmr hivr]
  refine ⟨rows, h1, h2, fun k hk ho => ?_, fun k hk ho => ?_⟩
  · have := h3 k hk ho
    simp only [real_lit, Rat.cast_zero, real_f32] at this
    exact this
  · obtain ⟨c, c1, c2⟩ := h4 k hk ho
    rw [map_f32_l] at c2
    exact ⟨c, by rw [ha k hk]; exact c1, c2⟩

/-- C54, every class: what the solver is asked, and what follows from its answers. -/
theorem C54_ab (F : Fitter ℝ) (hr : AbReady F.abCls F.responses.length) (Am : AMat ℝ) (hA : F.Amatrix = some Am) (hnb : F.responses.length ≠ 1) (z : ℝ)
    (m iv : List ℝ) (hm : m.length = F.responses.length) (hiv : iv.length = F.responses.length) (M : List (List ℝ))
    (hz : Am.at z = .ok M) (hM : M.length = F.responses.length) :
    ∃ A b, ∀ (nnls : Nnls ℝ) noise,
      (∀ c, nnls F.templates.nsed A b none = .ok c →
        F.fitCoeffs nnls (some (.scalar z)) (some (.vec m)) (some (.vec iv)) 0 noise = .ok ⟨.vec c, none⟩) ∧
      (∀ e, e ≠ .runtimeError → nnls F.templates.nsed A b none = .error e →
        F.fitCoeffs nnls (some (.scalar z)) (some (.vec m)) (some (.vec iv)) 0 noise = .error e) ∧
      (nnls F.templates.nsed A b none = .error .runtimeError →
        (∀ c, nnls F.templates.nsed A b (some (F.templates.nsed * 100)) = .ok c →
          F.fitCoeffs nnls (some (.scalar z)) (some (.vec m)) (some (.vec iv)) 0 noise = .ok ⟨.vec c, none⟩) ∧
        (∀ e, nnls F.templates.nsed A b (some (F.templates.nsed * 100)) = .error e →
          F.fitCoeffs nnls (some (.scalar z)) (some (.vec m)) (some (.vec iv)) 0 noise = .error e)) := by
  obtain ⟨A, b, h⟩ := C54_retry F.plain (Or.inl rfl) Am hA hnb z (abM F.abCls m) (abIv F.abCls iv) (by rw [abM_length]; exact hm)
    (by rw [abIv_length]; exact hiv) M hz hM
  refine ⟨A, b, fun nnls noise => ?_⟩
  rw [fit_eff nnls F hr z m iv hm hiv]
  exact h nnls noise

/-- C55, every class: the fit to the photometry is that without Monte Carlo; each sample is the AB corrected photometry plus noise with the corrected
errors, and its coefficients are the fit of an uncorrected object to it. -/
theorem C55_ab (nnls : Nnls ℝ) (hlen : NnlsLen nnls) (F : Fitter ℝ) (hr : AbReady F.abCls F.responses.length) (hnb : F.responses.length ≠ 1)
    (Am : AMat ℝ) (hA : F.Amatrix = some Am) (z : ℝ) (m iv : List ℝ) (hm : m.length = F.responses.length) (hiv : iv.length = F.responses.length)
    (hpos : ∀ v ∈ iv, 0 ≤ v) :
    ∃ p : Nat → Nat, (∀ i j a b, iv[i]? = some a → iv[j]? = some b → 0 < a → 0 < b → p i = p j → i = j) ∧
      ∀ (mc : Nat) (_ : 0 < mc) (noise : Nat → Nat → Nat → ℝ) (out : FitOut ℝ)
        (_ : F.fitCoeffs nnls (some (.scalar z)) (some (.vec m)) (some (.vec iv)) mc noise = .ok out),
        F.fitCoeffs nnls (some (.scalar z)) (some (.vec m)) (some (.vec iv)) 0 noise = .ok ⟨out.coeffs, none⟩ ∧
        ∃ cm mm, out.mc = some (.arr [F.templates.nsed] mc cm, .arr [F.responses.length] mc mm) ∧
          cm.length = F.templates.nsed ∧ mm.length = F.responses.length ∧ (∀ r ∈ cm, r.length = mc) ∧ (∀ r ∈ mm, r.length = mc) ∧
          ∀ k < mc,
            F.plain.fitCoeffs nnls (some (.scalar z)) (some (.vec (column mm k))) (some (.vec (abIv F.abCls iv))) 0 noise =
              .ok ⟨.vec (column cm k), none⟩ ∧
            (∀ (j : Nat) x, m[j]? = some x → iv[j]? = some 0 → (column mm k)[j]? = some (x * abFactor F.abCls j)) ∧
            ∀ (j : Nat) x v, m[j]? = some x → iv[j]? = some v → 0 < v →
              (column mm k)[j]? = some ((x + noise 0 k (p j) / Real.sqrt v) * abFactor F.abCls j) := by
  obtain ⟨p, hp, h⟩ := C55_monte_carlo nnls hlen F.plain (Or.inl rfl) hnb Am hA z (abM F.abCls m) (abIv F.abCls iv) (by rw [abM_length]; exact hm)
    (by rw [abIv_length]; exact hiv) (abIv_nonneg _ _ hpos)
  refine ⟨p, fun i j a b h1 h2 h3 h4 h5 => ?_, fun mc hmc noise out ho => ?_⟩
  · obtain ⟨a1, a2⟩ := abIv_pos (cls := F.abCls) h1 h3
    obtain ⟨b1, b2⟩ := abIv_pos (cls := F.abCls) h2 h4
    exact hp i j _ _ a1 b1 a2 b2 h5
  · rw [fit_eff nnls F hr z m iv hm hiv] at ho ⊢
    obtain ⟨g1, cm, mm, g2, g3, g4, g5, g6, g7⟩ := h mc hmc noise out ho
    refine ⟨g1, cm, mm, g2, g3, g4, g5, g6, fun k hk => ?_⟩
    obtain ⟨k1, k2, k3⟩ := g7 k hk
    refine ⟨k1, fun j x hx hv => ?_, fun j x v hx hv h0 => ?_⟩
    · exact k2 j _ (by rw [abM_get, hx]; rfl) (by rw [abIv_get, hv]; simp)
    · obtain ⟨b1, b2⟩ := abIv_pos (cls := F.abCls) hv h0
      have hf := abFactor_pos F.abCls j
      rw [k3 j _ _ (by rw [abM_get, hx]; rfl) b1 b2, Real.sqrt_div h0.le, Real.sqrt_sq hf.le]
      simp only [Option.some.injEq]
      have := (Real.sqrt_pos.mpr h0).ne'
      field_simp

/-- C61, every class: maggies whose AB corrected values are those of a mixture of the templates are recovered. -/
theorem C61_ab (nnls : Nnls ℝ) (hn : NNLSOK nnls) (F : Fitter ℝ) (hr : AbReady F.abCls F.responses.length) (Am : AMat ℝ) (hR : Ready F Am) (z : ℝ)
    (hz : InRange Am.x z) (m iv c0 : List ℝ) (hml : m.length = F.responses.length) (hc0 : c0.length = F.templates.nsed) (hc0p : ∀ v ∈ c0, 0 ≤ v)
    (hm : F.reconstruct (some (.scalar z)) (some (.vec c0)) 0 = .ok (.vec (abM F.abCls m))) (hiv : iv.length = F.responses.length)
    (hpos : ∀ v ∈ iv, 0 ≤ v) (noise : Nat → Nat → Nat → ℝ) (out : FitOut ℝ)
    (h : F.fitCoeffs nnls (some (.scalar z)) (some (.vec m)) (some (.vec iv)) 0 noise = .ok out) :
    ∃ r, F.reconstruct (some (.scalar z)) (some out.coeffs) 0 = .ok (.vec r) ∧
      ∀ (j : Nat) v, iv[j]? = some v → 0 < v → r[j]? = (abM F.abCls m)[j]? := by
  rw [fit_eff nnls F hr z m iv hml hiv] at h
  rw [← recon_plain] at hm ⊢
  obtain ⟨r, h1, h2⟩ := C61_recovered nnls hn F.plain (Or.inl rfl) Am (ready_plain hR) z hz (abM F.abCls m) (abIv F.abCls iv) c0 hc0 hc0p hm
    (by rw [abIv_length]; exact hiv) (abIv_nonneg _ _ hpos) noise out h
  refine ⟨r, h1, fun j v hv h0 => ?_⟩
  obtain ⟨b1, b2⟩ := abIv_pos (cls := F.abCls) hv h0
  exact h2 j _ b1 b2

/-- C62, every class: scaled photometry. -/
theorem C62_ab (nnls : Nnls ℝ) (hn : NNLSOK nnls) (F : Fitter ℝ) (hr : AbReady F.abCls F.responses.length) (Am : AMat ℝ) (hR : Ready F Am) (z : ℝ)
    (hz : InRange Am.x z) (m iv : List ℝ) (hm : m.length = F.responses.length) (hiv : iv.length = F.responses.length)
    (hpos : ∀ v ∈ iv, 0 ≤ v) (s k : ℝ) (hs : 0 < s) (hk : 0 < k) (noise : Nat → Nat → Nat → ℝ) (out : FitOut ℝ)
    (h : F.fitCoeffs nnls (some (.scalar z)) (some (.vec (m.map (fun v => s * v)))) (some (.vec (iv.map (fun v => k * v)))) 0 noise = .ok out) :
    ∃ c, out = ⟨.vec (c.map (fun v => s * v)), none⟩ ∧ Optimal F z (abM F.abCls m) (abIv F.abCls iv) c := by
  rw [fit_eff nnls F hr z _ _ (by simpa using hm) (by simpa using hiv)] at h
  have e1 := abM_map F.abCls m s
  have e2 := abIv_map F.abCls iv k
  unfold abM at e1
  unfold abIv at e2
  rw [e1, e2] at h
  obtain ⟨c, h1, h2⟩ := C62_fit_scale nnls hn F.plain (Or.inl rfl) Am (ready_plain hR) z hz (abM F.abCls m) (abIv F.abCls iv)
    (by rw [abM_length]; exact hm) (by rw [abIv_length]; exact hiv) (abIv_nonneg _ _ hpos) s k hs hk noise out h
  exact ⟨c, h1, by rw [← optimal_plain]; exact h2⟩

/-- C71, every class: brighter by `s`. -/
theorem C71_ab_flux (K : Kc ℝ) (hr : AbReady K.abCls K.responses.length) (A Ao : AMat ℝ) (hA : K.Amatrix = some A) (hAo : K.AmatrixOut = some Ao)
    (z : ℝ) (m iv c : List ℝ) (hm : m.length = K.responses.length) (hiv : iv.length = K.responses.length)
    (hc : c.length = K.templates.nsed) (bs s : ℝ) (hs : 0 < s) (dist : Option ℝ) (hd : ∀ d ∈ dist, 0 < d) (a : NDA ℝ)
    (ha : K.absmag (some (.vec m)) (some (.vec iv)) (some (.scalar z)) (some (.vec c)) bs (dist.map .scalar) false false false = .ok (.one a)) :
    ∃ a', K.absmag (some (.vec (m.map (s * ·)))) (some (.vec iv)) (some (.scalar z)) (some (.vec c)) bs (dist.map .scalar) false false false =
        .ok (.one a') ∧ a'.shape = a.shape ∧
      ∀ (j i : Nat) mv v x, K.imap[j]? = some i → m[i]? = some mv → iv[i]? = some v → entry a 0 j = some x →
        entry a' 0 j = some (if 0 < mv ∧ 0 < v then x - 2.5 * Real.logb 10 s else x) := by
  rw [absmag_eff K hr z m iv c hm hiv hc] at ha
  rw [absmag_eff K hr z _ iv c (by simpa using hm) hiv hc]
  have e1 := abM_map K.abCls m s
  unfold abM at e1
  rw [e1]
  obtain ⟨a', h1, h2, h3⟩ := C71_flux K.plain (Or.inl rfl) A Ao hA hAo z (abM K.abCls m) (abIv K.abCls iv) c (by rw [abM_length]; exact hm)
    (by rw [abIv_length]; exact hiv) hc bs s hs dist hd a ha
  refine ⟨a', h1, h2, fun j i mv v x hj hmv hv hx => ?_⟩
  have hf := abFactor_pos K.abCls i
  rw [h3 j i (mv * abFactor K.abCls i) (v / abFactor K.abCls i ^ 2) x hj (by rw [abM_get, hmv]; rfl) (by rw [abIv_get, hv]; rfl) hx]
  simp only [mul_pos_iff_of_pos_right hf, div_pos_iff_of_pos_right (pow_pos hf 2)]

/-- C71, every class: further by `s`. -/
theorem C71_ab_distance (K : Kc ℝ) (hr : AbReady K.abCls K.responses.length) (A Ao : AMat ℝ) (hA : K.Amatrix = some A)
    (hAo : K.AmatrixOut = some Ao) (z : ℝ) (m iv c : List ℝ) (hm : m.length = K.responses.length) (hiv : iv.length = K.responses.length)
    (hc : c.length = K.templates.nsed) (bs s d : ℝ) (hs : 0 < s) (hd : 0 < d) (a : NDA ℝ)
    (ha : K.absmag (some (.vec m)) (some (.vec iv)) (some (.scalar z)) (some (.vec c)) bs (some (.scalar d)) false false false = .ok (.one a)) :
    ∃ a', K.absmag (some (.vec m)) (some (.vec iv)) (some (.scalar z)) (some (.vec c)) bs (some (.scalar (s * d))) false false false =
        .ok (.one a') ∧ a'.shape = a.shape ∧
      ∀ (j i : Nat) mv v x, K.imap[j]? = some i → m[i]? = some mv → iv[i]? = some v → entry a 0 j = some x →
        entry a' 0 j = some (if 0 < mv ∧ 0 < v then x - 5 * Real.logb 10 s else x) := by
  rw [absmag_eff K hr z m iv c hm hiv hc] at ha ⊢
  obtain ⟨a', h1, h2, h3⟩ := C71_distance K.plain (Or.inl rfl) A Ao hA hAo z (abM K.abCls m) (abIv K.abCls iv) c (by rw [abM_length]; exact hm)
    (by rw [abIv_length]; exact hiv) hc bs s d hs hd a ha
  refine ⟨a', h1, h2, fun j i mv v x hj hmv hv hx => ?_⟩
  have hf := abFactor_pos K.abCls i
  rw [h3 j i (mv * abFactor K.abCls i) (v / abFactor K.abCls i ^ 2) x hj (by rw [abM_get, hmv]; rfl) (by rw [abIv_get, hv]; rfl) hx]
  simp only [mul_pos_iff_of_pos_right hf, div_pos_iff_of_pos_right (pow_pos hf 2)]

/-- C72, every class: the correction does not enter the reconstructed magnitudes. -/
theorem C72_ab_partial (K : Kc ℝ) (hr : AbReady K.abCls K.responses.length) (A Ao : AMat ℝ) (hA : K.Amatrix = some A) (hAo : K.AmatrixOut = some Ao)
    (z : ℝ) (m iv c : List ℝ) (hm : m.length = K.responses.length) (hiv : iv.length = K.responses.length)
    (hc : c.length = K.templates.nsed) (bs : ℝ) (dist : Option ℝ) (hd : ∀ d ∈ dist, 0 < d) (ret : Ret ℝ)
    (h : K.absmag (some (.vec m)) (some (.vec iv)) (some (.scalar z)) (some (.vec c)) bs (dist.map .scalar) true false false = .ok ret) :
    ∃ a rc k o, ret = .tuple [a, rc] ∧ K.kcorrect (some (.scalar z)) (some (.vec c)) bs = .ok k ∧
      K.reconstructOut (some (.scalar z)) (some (.vec c)) bs = .ok o ∧ rc.shape = k.shape ∧
      ∀ (j : Nat) kv ov, entry k 0 j = some kv → entry o 0 j = some ov →
        entry rc 0 j = some (if 0 < ov then mag ov - dmSpec K.distmod z dist - kv else -9999) := by
  rw [absmag_eff K hr z m iv c hm hiv hc] at h
  rw [← kcorrect_plain, ← reconOut_plain]
  exact C72_actual K.plain (Or.inl rfl) A Ao hA hAo z (abM K.abCls m) (abIv K.abCls iv) c (by rw [abM_length]; exact hm)
    (by rw [abIv_length]; exact hiv) hc bs dist hd ret h

/-- C73, every class: the limit is that of the AB corrected error. -/
theorem C73_ab_partial (K : Kc ℝ) (hr : AbReady K.abCls K.responses.length) (A Ao : AMat ℝ) (hA : K.Amatrix = some A) (hAo : K.AmatrixOut = some Ao)
    (z : ℝ) (m iv c : List ℝ) (hm : m.length = K.responses.length) (hiv : iv.length = K.responses.length)
    (hc : c.length = K.templates.nsed) (bs : ℝ) (dist : Option ℝ) (hd : ∀ d ∈ dist, 0 < d) (ret : Ret ℝ)
    (h : K.absmag (some (.vec m)) (some (.vec iv)) (some (.scalar z)) (some (.vec c)) bs (dist.map .scalar) false true false = .ok ret) :
    ∃ a lm k, ret = .tuple [a, lm] ∧ K.kcorrect (some (.scalar z)) (some (.vec c)) bs = .ok k ∧ lm.shape = k.shape ∧
      ∀ (j i : Nat) v kv, K.imap[j]? = some i → iv[i]? = some v → entry k 0 j = some kv →
        entry lm 0 j = some (if 0 < v then mag (1 / Real.sqrt v) + abOffset K.abCls i - dmSpec K.distmod z dist - kv else -9999) := by
  rw [absmag_eff K hr z m iv c hm hiv hc] at h
  rw [← kcorrect_plain]
  obtain ⟨a, lm, k, h1, h2, h3, h4⟩ := C73_limit_partial K.plain (Or.inl rfl) A Ao hA hAo z (abM K.abCls m) (abIv K.abCls iv) c
    (by rw [abM_length]; exact hm) (by rw [abIv_length]; exact hiv) hc bs dist hd ret h
  refine ⟨a, lm, k, h1, h2, h3, fun j i v kv hj hv hk => ?_⟩
  have hf := abFactor_pos K.abCls i
  rw [h4 j i (v / abFactor K.abCls i ^ 2) kv hj (by rw [abIv_get, hv]; rfl) hk]
  by_cases h0 : 0 < v
  · rw [if_pos h0, if_pos (div_pos h0 (pow_pos hf 2)), Real.sqrt_div h0.le, Real.sqrt_sq hf.le]
    have hs := Real.sqrt_pos.mpr h0
    rw [show 1 / (Real.sqrt v / abFactor K.abCls i) = 1 / Real.sqrt v * abFactor K.abCls i by field_simp, mag_factor _ _ _ (by positivity)]
    rfl
  · rw [if_neg h0, if_neg (by rwa [div_pos_iff_of_pos_right (pow_pos hf 2)])]

/-- C46, every class: `absmag` refuses a redshift outside the grid. -/
theorem C46_ab (K : Kc ℝ) (hr : AbReady K.abCls K.responses.length) (A Ao : AMat ℝ) (hA : K.Amatrix = some A) (hAo : K.AmatrixOut = some Ao)
    (hne : A.x ≠ []) (hne' : Ao.x ≠ []) (z : ℝ) (hz : z < A.x.headD 0 ∨ A.x.getLastD 0 < z) (bs : ℝ) (r l kk : Bool) :
    (∀ m iv c (dist : Option ℝ), m.length = K.responses.length → iv.length = K.responses.length → c.length = K.templates.nsed →
      K.absmag (some (.vec m)) (some (.vec iv)) (some (.scalar z)) (some (.vec c)) bs (dist.map .scalar) r l kk = .error .valueError) ∧
    (∀ zs ms ivs cs (dist : Option (List ℝ)), z ∈ zs → ms.length = zs.length → ivs.length = zs.length → cs.length = zs.length →
      (∀ r ∈ ms, r.length = K.responses.length) → (∀ r ∈ ivs, r.length = K.responses.length) → (∀ ds ∈ dist, ds.length = zs.length) →
      K.absmag (some (.arr [zs.length] K.responses.length ms)) (some (.arr [zs.length] K.responses.length ivs)) (some (.vec zs))
        (some (.arr [zs.length] K.templates.nsed cs)) bs (dist.map .vec) r l kk = .error .valueError) := by
  obtain ⟨h1, h2⟩ := C46_absmag K.plain (Or.inl rfl) A Ao hA hAo hne hne' z hz bs r l kk
  constructor
  · intro m iv c dist hm hiv hc
    rw [absmag_eff K hr z m iv c hm hiv hc]
    exact h1 (abM K.abCls m) (abIv K.abCls iv) c dist (by rw [abM_length]; exact hm) (by rw [abIv_length]; exact hiv) hc
  · intro zs ms ivs cs dist hzs hm hiv hcs hmr hivr hd
    rw [absmag_batch_eff K hr zs ms ivs cs hm hiv hmr hivr]
    exact h2 zs _ _ cs dist hzs (by simpa using hm) (by simpa using hiv) hcs hd

/-- C94, every class: `absmag` on arrays is object by object. -/
theorem C94_ab_partial (K : Kc ℝ) (hr : AbReady K.abCls K.responses.length) (A Ao : AMat ℝ) (hA : K.Amatrix = some A) (hAo : K.AmatrixOut = some Ao)
    (zs : List ℝ) (ms ivs cs : List (List ℝ)) (hm : ms.length = zs.length) (hiv : ivs.length = zs.length) (hcs : cs.length = zs.length)
    (hml : ∀ m ∈ ms, m.length = K.responses.length) (hivl : ∀ m ∈ ivs, m.length = K.responses.length)
    (hcl : ∀ c ∈ cs, c.length = K.templates.nsed) (bs : ℝ) (dist : Option (List ℝ))
    (hd : ∀ ds ∈ dist, ds.length = zs.length) (r l kk : Bool) :
    ((∃ ret, K.absmag (some (.arr [zs.length] K.responses.length ms)) (some (.arr [zs.length] K.responses.length ivs)) (some (.vec zs))
        (some (.arr [zs.length] K.templates.nsed cs)) bs (dist.map .vec) r l kk = .ok ret) ↔
      ∀ (i : Nat) z m iv c, zs[i]? = some z → ms[i]? = some m → ivs[i]? = some iv → cs[i]? = some c →
        ∃ ret, K.absmag (some (.vec m)) (some (.vec iv)) (some (.scalar z)) (some (.vec c)) bs (dist.map (fun ds => .scalar (ent ds i))) r l kk = .ok ret) ∧
    ∀ ret, K.absmag (some (.arr [zs.length] K.responses.length ms)) (some (.arr [zs.length] K.responses.length ivs)) (some (.vec zs))
        (some (.arr [zs.length] K.templates.nsed cs)) bs (dist.map .vec) r l kk = .ok ret →
      ∀ (i : Nat) z m iv c, zs[i]? = some z → ms[i]? = some m → ivs[i]? = some iv → cs[i]? = some c →
        ∃ ret1, K.absmag (some (.vec m)) (some (.vec iv)) (some (.scalar z)) (some (.vec c)) bs (dist.map (fun ds => .scalar (ent ds i))) r l kk = .ok ret1 ∧
          ret.list.length = ret1.list.length ∧
          ∀ (t : Nat) x, ret.list[t]? = some x → x.shape = [zs.length, Ao.nrow] ∧ ∃ y, ret1.list[t]? = some y ∧ rowOf x i = some y := by
  obtain ⟨h1, h2⟩ := C94_absmag_batch_partial K.plain (Or.inl rfl) A Ao hA hAo zs (ms.map (abM K.abCls)) (ivs.map (abIv K.abCls)) cs (by simpa using hm)
    (by simpa using hiv) hcs (map_rows (abM_length _) hml) (map_rows (abIv_length _) hivl) hcl bs dist hd r l kk
  have ha : ∀ (i : Nat) z m iv c, ms[i]? = some m → ivs[i]? = some iv → cs[i]? = some c →
      K.absmag (some (.vec m)) (some (.vec iv)) (some (.scalar z)) (some (.vec c)) bs (dist.map (fun ds => .scalar (ent ds i))) r l kk =
      K.plain.absmag (some (.vec (abM K.abCls m))) (some (.vec (abIv K.abCls iv))) (some (.scalar z)) (some (.vec c)) bs
        (dist.map (fun ds => .scalar (ent ds i))) r l kk := by
    intro i z m iv c h2 h3 h4
    exact absmag_eff K hr z m iv c (hml m (List.mem_of_getElem? h2)) (hivl iv (List.mem_of_getElem? h3)) (hcl c (List.mem_of_getElem? h4)) bs _ r l kk
  have hg : ∀ {f : List ℝ → List ℝ} {l : List (List ℝ)} {i : Nat} {x : List ℝ}, l[i]? = some x → (l.map f)[i]? = some (f x) := by
    intro f l i x h
    rw [List.getElem?_map, h]; rfl
  rw [absmag_batch_eff K hr zs ms ivs cs hm hiv hml hivl]
  refine ⟨h1.trans ⟨fun h i z m iv c a1 a2 a3 a4 => ?_, fun h i z m iv c a1 a2 a3 a4 => ?_⟩, fun ret hret i z m iv c a1 a2 a3 a4 => ?_⟩
  · rw [ha i z m iv c a2 a3 a4]
    exact h i z _ _ c a1 (hg a2) (hg a3) a4
  · rw [List.getElem?_map, Option.map_eq_some_iff] at a2 a3
    obtain ⟨m', a2, rfl⟩ := a2
    obtain ⟨iv', a3, rfl⟩ := a3
    have := h i z m' iv' c a1 a2 a3 a4
    rw [ha i z m' iv' c a2 a3 a4] at this
    exact this
  · rw [ha i z m iv c a2 a3 a4]
    exact h2 ret hret i z _ _ c a1 (hg a2) (hg a3) a4

/-- C100, every class: photometry whose AB corrected values are those of a nonnegative mixture of the templates. -/
theorem C100_ab (nnls : Nnls ℝ) (hn : NNLSOK nnls) (K : Kc ℝ) (hr : AbReady K.abCls K.responses.length) (A Ao : AMat ℝ) (hR : Ready K.toFitter A)
    (hAo : K.AmatrixOut = some Ao) (z : ℝ) (hz : InRange A.x z) (m iv c0 : List ℝ) (hml : m.length = K.responses.length)
    (hc0 : c0.length = K.templates.nsed)
    (hc0p : ∀ v ∈ c0, 0 ≤ v) (hm : K.reconstruct (some (.scalar z)) (some (.vec c0)) 0 = .ok (.vec (abM K.abCls m)))
    (hiv : iv.length = K.responses.length) (hpos : ∀ v ∈ iv, 0 ≤ v)
    (hdet : Determined K.toFitter z (abM K.abCls m) (abIv K.abCls iv) c0)
    (noise : Nat → Nat → Nat → ℝ) (out : FitOut ℝ)
    (hfit : K.toFitter.fitCoeffs nnls (some (.scalar z)) (some (.vec m)) (some (.vec iv)) 0 noise = .ok out) :
    out.coeffs = .vec c0 ∧
    ∀ (bs : ℝ) (dist : Option ℝ) (a b : NDA ℝ), (∀ d ∈ dist, 0 < d) →
      K.absmag (some (.vec m)) (some (.vec iv)) (some (.scalar z)) (some out.coeffs) bs (dist.map .scalar) false false false = .ok (.one a) →
      K.reconstructOut (some (.scalar 0)) (some (.vec c0)) bs = .ok b →
      ∀ (j i : Nat) mv v fb, K.imap[j]? = some i → m[i]? = some mv → 0 < mv → iv[i]? = some v → 0 < v → entry b 0 j = some fb → 0 < fb →
        entry a 0 j = some (mag fb - dmSpec K.distmod z dist) := by
  rw [fit_eff nnls K.toFitter hr z m iv hml hiv] at hfit
  rw [← determined_plain] at hdet
  rw [← recon_plain] at hm
  obtain ⟨h1, h2⟩ := C100_true_absmag nnls hn K.plain (Or.inl rfl) A Ao (ready_plain hR) hAo z hz (abM K.abCls m) (abIv K.abCls iv) c0 hc0 hc0p hm
    (by rw [abIv_length]; exact hiv) (abIv_nonneg _ _ hpos) hdet noise out hfit
  refine ⟨h1, fun bs dist a b hd ha hb j i mv v fb hj hmv h0 hv hv0 hfb hfb0 => ?_⟩
  have ha' := ha
  rw [h1, absmag_eff K hr z m iv c0 hml hiv hc0] at ha'
  rw [← reconOut_plain] at hb
  obtain ⟨b1, b2⟩ := abIv_pos (cls := K.abCls) hv hv0
  exact h2 bs dist a b hd (by rw [h1]; exact ha') hb j i _ _ fb hj (by rw [abM_get, hmv]; rfl) (mul_pos h0 (abFactor_pos _ _)) b1 b2 hfb hfb0

/-- C102, every class: the fitted maggies do not depend on the solver. -/
theorem C102_ab (nnls nnls' : Nnls ℝ) (hn : NNLSOK nnls) (hn' : NNLSOK nnls') (F : Fitter ℝ) (hr : AbReady F.abCls F.responses.length) (Am : AMat ℝ)
    (hR : Ready F Am) (z : ℝ) (hz : InRange Am.x z) (m iv : List ℝ) (hm : m.length = F.responses.length)
    (hiv : iv.length = F.responses.length) (hpos : ∀ v ∈ iv, 0 ≤ v) (noise noise' : Nat → Nat → Nat → ℝ) (out out' : FitOut ℝ)
    (h : F.fitCoeffs nnls (some (.scalar z)) (some (.vec m)) (some (.vec iv)) 0 noise = .ok out)
    (h' : F.fitCoeffs nnls' (some (.scalar z)) (some (.vec m)) (some (.vec iv)) 0 noise' = .ok out') :
    ∃ r r', F.reconstruct (some (.scalar z)) (some out.coeffs) 0 = .ok (.vec r) ∧
      F.reconstruct (some (.scalar z)) (some out'.coeffs) 0 = .ok (.vec r') ∧
      ∀ (j : Nat) v, iv[j]? = some v → 0 < v → r[j]? = r'[j]? := by
  rw [fit_eff nnls F hr z m iv hm hiv] at h
  rw [fit_eff nnls' F hr z m iv hm hiv] at h'
  rw [← recon_plain]
  obtain ⟨r, r', h1, h2, h3⟩ := C102_solver nnls nnls' hn hn' F.plain (Or.inl rfl) Am (ready_plain hR) z hz (abM F.abCls m) (abIv F.abCls iv)
    (by rw [abM_length]; exact hm) (by rw [abIv_length]; exact hiv) (abIv_nonneg _ _ hpos) noise noise' out out' h h'
  refine ⟨r, r', h1, h2, fun j v hv h0 => ?_⟩
  obtain ⟨b1, b2⟩ := abIv_pos (cls := F.abCls) hv h0
  exact h3 j _ b1 b2

/-- C115, every class, batches: the samples have the mean and the variance of the AB corrected photometry and are independent. -/
theorem C115_ab_batch {Ω : Type} [MeasurableSpace Ω] (P : MeasureTheory.Measure Ω) (noise : Ω → Nat → Nat → Nat → ℝ) (hd : Deviates P noise) (nnls : Nnls ℝ)
    (hlen : NnlsLen nnls) (F : Fitter ℝ) (hr : AbReady F.abCls F.responses.length) (hnb : F.responses.length ≠ 1) (Am : AMat ℝ) (hA : F.Amatrix = some Am)
    (zs : List ℝ) (ms ivs : List (List ℝ)) (hn : zs.length ≠ 1) (hm : ms.length = zs.length) (hiv : ivs.length = zs.length)
    (hmr : ∀ r ∈ ms, r.length = F.responses.length) (hivr : ∀ r ∈ ivs, r.length = F.responses.length) (hpos : ∀ r ∈ ivs, ∀ v ∈ r, 0 ≤ v) :
    ∃ S : ℕ × ℕ × ℕ → Ω → ℝ,
      (∀ (mc : Nat), 0 < mc → ∀ ω out, F.fitCoeffs nnls (some (.vec zs)) (some (.arr [zs.length] F.responses.length ms))
          (some (.arr [zs.length] F.responses.length ivs)) mc (noise ω) = .ok out →
        ∃ cm mm, out.mc = some (cm, mm) ∧ mm.shape = [zs.length, F.responses.length, mc] ∧
          ∀ i j k, i < zs.length → j < F.responses.length → k < mc → entry mm (i * F.responses.length + j) k = some (S (i, j, k) ω)) ∧
      (∀ (i j k : Nat) m iv x v, ms[i]? = some m → ivs[i]? = some iv → m[j]? = some x → iv[j]? = some v → 0 < v →
        ProbabilityTheory.HasLaw (S (i, j, k))
          (ProbabilityTheory.gaussianReal (x * abFactor F.abCls j) (Real.toNNReal (abFactor F.abCls j ^ 2 / v))) P) ∧
      (∀ (i j k : Nat) m iv x, ms[i]? = some m → ivs[i]? = some iv → m[j]? = some x → iv[j]? = some 0 →
        ∀ ω, S (i, j, k) ω = x * abFactor F.abCls j) ∧
      ProbabilityTheory.iIndepFun S P := by
  obtain ⟨S, h1, h2, h3, h4⟩ := C115_batch P noise hd nnls hlen F.plain (Or.inl rfl) hnb Am hA zs (ms.map (abM F.abCls)) (ivs.map (abIv F.abCls)) hn
    (by simpa using hm) (by simpa using hiv) (map_rows (abM_length _) hmr) (map_rows (abIv_length _) hivr) (map_nonneg hpos)
  have hg : ∀ {f : List ℝ → List ℝ} {l : List (List ℝ)} {i : Nat} {x : List ℝ}, l[i]? = some x → (l.map f)[i]? = some (f x) := by
    intro f l i x h
    rw [List.getElem?_map, h]; rfl
  refine ⟨S, fun mc hmc ω out ho => ?_, fun i j k m iv x v a1 a2 a3 a4 a5 => ?_, fun i j k m iv x a1 a2 a3 a4 => ?_, h4⟩
  · rw [fit_batch_eff nnls F hr zs ms ivs hm hiv hmr hivr] at ho
    exact h1 mc hmc ω out ho
  · obtain ⟨b1, b2⟩ := abIv_pos (cls := F.abCls) a4 a5
    have := h2 i j k _ _ (x * abFactor F.abCls j) (v / abFactor F.abCls j ^ 2) (hg a1) (hg a2) (by rw [abM_get, a3]; rfl) b1 b2
    rwa [one_div_div] at this
  · exact h3 i j k _ _ _ (hg a1) (hg a2) (by rw [abM_get, a3]; rfl) (by rw [abIv_get, a4]; simp)

/-- `KcorrectSDSS(abcorrect=True)` at redshift 0: its projection matrices, bands and grid meet the hypotheses, and photometry of one unit of the template,
not yet AB corrected, is recovered. -/
example : AbReady demoSdss.abCls demoSdss.responses.length ∧ Ready demoSdss.toFitter demoAm5 ∧ InRange demoAm5.x 0 ∧
    ∃ m, m.length = 5 ∧ (∀ v ∈ m, 0 < v) ∧ demoSdss.reconstruct (some (.scalar 0)) (some (.vec [1])) 0 = .ok (.vec (abM demoSdss.abCls m)) ∧
      Determined demoSdss.toFitter 0 (abM demoSdss.abCls m) (abIv demoSdss.abCls [1, 0, 1, 1, 1]) [1] := by
  have hR : Ready demoSdss.toFitter demoAm5 := ⟨rfl, demoAm5_good, rfl, rfl⟩
  have hrec : ∀ c : List ℝ, c.length = 1 → demoSdss.reconstruct (some (.scalar 0)) (some (.vec c)) 0 =
      .ok (.vec (mulVec [[1], [1], [1], [1], [1]] c)) := fun c hc => recon_ready hR demoAm5_at0 hc
  have f : ∀ j, 0 < abFactor demoSdss.abCls j := abFactor_pos _
  have e : abM demoSdss.abCls ([1, 1, 1, 1, 1].mapIdx (fun j x => x / abFactor demoSdss.abCls j)) = [1, 1, 1, 1, 1] := by
    simp [abM, fun j => (f j).ne']
  refine ⟨rfl, hR, by norm_num [InRange, demoAm5], [1, 1, 1, 1, 1].mapIdx (fun j x => x / abFactor demoSdss.abCls j), rfl, ?_, ?_, ?_⟩
  · intro v hv
    simp at hv
    rcases hv with rfl | rfl | rfl | rfl | rfl <;> exact inv_pos.mpr (f _)
  · rw [e, hrec [1] rfl]
    simp [mulVec, dot, sumL_real]
  · rw [e]
    intro c r hc _ hcr hj
    match c, hc with
    | [x], _ =>
      have hcr' : demoSdss.reconstruct (some (.scalar 0)) (some (.vec [x])) 0 = .ok (.vec r) := hcr
      rw [hrec _ rfl] at hcr'
      simp only [Except.ok.injEq, NDA.vec, NDA.arr.injEq, List.cons.injEq, and_true] at hcr'
      obtain ⟨b1, b2⟩ := abIv_pos (cls := demoSdss.abCls) (iv := [1, 0, 1, 1, 1]) (j := 0) rfl one_pos
      have a := hj 0 _ b1 b2
      rw [← hcr'.2.2] at a
      simp [mulVec, dot, sumL_real] at a
      rw [a]

/-! ### More than five bands -/

noncomputable def demoAm6 : AMat ℝ := ⟨[0, 1], [[[1], [1], [1], [1], [1], [1]], [[2], [2], [2], [1], [1], [1]]], 6, 1⟩

theorem demoAm6_good : demoAm6.Good :=
  ⟨by simp [demoAm6], by simp [demoAm6], by simp [demoAm6], by simp [demoAm6, Shaped]⟩

theorem demoAm6_at0 : demoAm6.at 0 = .ok [[1], [1], [1], [1], [1], [1]] := at_node (k := 0) demoAm6_good (by simp [demoAm6])

/-- `KcorrectSDSS(responses=['u', 'g', 'r', 'i', 'z', 'J'], abcorrect=True, redshift_range=[0., 1.], nredshift=2)` with one template -/
noncomputable def demoSdss6 : Kc ℝ :=
  ⟨{ Fitter.mk' .sdss [['u'], ['g'], ['r'], ['i'], ['z'], ['J']] (.template demoTmpl5) 0 1 2 true with Amatrix := some demoAm6, redshifts := [0, 1] },
    [['u'], ['g'], ['r'], ['i'], ['z'], ['J']], [['u'], ['g'], ['r'], ['i'], ['z'], ['J']], some demoAm6, [0, 1, 2, 3, 4, 5], fun z => z⟩

theorem sdss_step (m : NDA ℝ) (iv : Option (NDA ℝ)) (f : List ℝ) (h : ∀ v ∈ iv.map (NDA.map f32), (m.map f32).shape = v.shape) (hf : f.length = 5) :
    sdssAbCorrect m iv f = abApply (m.map f32) (iv.map (NDA.map f32)) (abFac f) := by
  unfold sdssAbCorrect
  simp only [require]
  rw [if_pos h, if_pos hf]
  rfl

/-- C94 is false of `KcorrectSDSS(abcorrect=True)` with more than five bands: an object is refused alone and accepted in an array, where its sixth
magnitude is -9999 although it was measured. -/
theorem C94_false : ∃ (K : Kc ℝ) (m iv : List ℝ) (a : NDA ℝ), m.length = K.responses.length ∧ iv.length = K.responses.length ∧
    (∀ v ∈ m, 0 < v) ∧ (∀ v ∈ iv, 0 < v) ∧
    K.absmag (some (.vec m)) (some (.vec iv)) (some (.scalar 0)) (some (.vec [1])) 0 none false false false = .error .typeError ∧
    K.absmag (some (.arr [1] K.responses.length [m])) (some (.arr [1] K.responses.length [iv])) (some (.vec [0]))
      (some (.arr [1] K.templates.nsed [[1]])) 0 none false false false = .ok (.one a) ∧ entry a 0 5 = some (-9999) := by
  refine ⟨demoSdss6, [1, 1, 1, 1, 1, 1], [1, 1, 1, 1, 1, 1], ?_⟩
  have hs := C89_absmag_once demoSdss6 rfl (.vec [1, 1, 1, 1, 1, 1]) (some (.vec [1, 1, 1, 1, 1, 1])) (some (.scalar 0)) (some (.vec [1])) 0 none
    false false false (by intro a ha; cases ha; trivial) (shapes_one 0 [1, 1, 1, 1, 1, 1] [1, 1, 1, 1, 1, 1] (some [1]) rfl rfl (by intro l hl; cases hl; rfl))
  have hb := C89_absmag_once demoSdss6 rfl (.arr [1] 6 [[1, 1, 1, 1, 1, 1]]) (some (.arr [1] 6 [[1, 1, 1, 1, 1, 1]])) (some (.vec [0]))
    (some (.arr [1] 1 [[1]])) 0 none false false false (by intro a ha; cases ha; simp [NDA.vec, NDA.WF])
    (shapes_batch [0] [[1, 1, 1, 1, 1, 1]] [[1, 1, 1, 1, 1, 1]] (some [[1]]))
  have ht : toAb .sdss (.vec [(1 : ℝ), 1, 1, 1, 1, 1]) (some (.vec [1, 1, 1, 1, 1, 1])) = .error .typeError := by
    simp [toAb, sdssAbCorrect, require, NDA.vec, NDA.map, abApply, abfixDefault, ok_bind]
  obtain ⟨x, y, hx, htb⟩ : ∃ x y : List ℝ, x[5]? = some 0 ∧ toAb .sdss (.arr [1] 6 [[(1 : ℝ), 1, 1, 1, 1, 1]]) (some (.arr [1] 6 [[1, 1, 1, 1, 1, 1]])) =
      .ok ⟨.arr [1] 6 [x], some (.arr [1] 6 [y])⟩ := by
    refine ⟨[f32 (f32 1 * ent (abFac abfixDefault) 0), f32 (f32 1 * ent (abFac abfixDefault) 1), f32 (f32 1 * ent (abFac abfixDefault) 2),
        f32 (f32 1 * ent (abFac abfixDefault) 3), f32 (f32 1 * ent (abFac abfixDefault) 4), lit 0],
      [f32 (f32 1 / (ent (abFac abfixDefault) 0 * ent (abFac abfixDefault) 0)), f32 (f32 1 / (ent (abFac abfixDefault) 1 * ent (abFac abfixDefault) 1)),
        f32 (f32 1 / (ent (abFac abfixDefault) 2 * ent (abFac abfixDefault) 2)), f32 (f32 1 / (ent (abFac abfixDefault) 3 * ent (abFac abfixDefault) 3)),
        f32 (f32 1 / (ent (abFac abfixDefault) 4 * ent (abFac abfixDefault) 4)), lit 0], by simp [real_lit], ?_⟩
    · refine (sdss_step _ _ _ ?_ rfl).trans ?_
      · intro iv hiv; cases hiv; rfl
      · simp only [NDA.map, abApply]
        rw [if_neg (by decide)]
        rfl
  have hcls : demoSdss6.cls = .sdss := rfl
  rw [hcls, ht] at hs
  rw [hcls, htb, ok_bind] at hb
  have hk : kReal demoSdss6.imap demoAm6 demoAm6 0 0 [1] = .ok (kRow demoSdss6.imap id [1] (reconRow 0 [[1], [1], [1], [1], [1], [1]] [1])
      (reconRow 0 [[1], [1], [1], [1], [1], [1]] [1])) := by
    unfold kReal
    rw [demoAm6_at0]
    rfl
  have ha : absReal demoSdss6.imap demoAm6 demoAm6 false false false 0 (dm1 demoSdss6.plain 0 none) 0 x y [1] = .ok (absRows demoSdss6.imap false false
      (dm1 demoSdss6.plain 0 none) (kRow demoSdss6.imap id [1] (reconRow 0 [[1], [1], [1], [1], [1], [1]] [1])
      (reconRow 0 [[1], [1], [1], [1], [1], [1]] [1])) x y none) := by
    unfold absReal
    rw [hk]
    rfl
  have hall := (absmag_array_real (K := demoSdss6.plain) (Or.inl rfl) (A := demoAm6) (Ao := demoAm6) rfl rfl [0] [x] [y] [[1]] rfl rfl rfl 0 none (by simp)
    false false false _).mpr ⟨[_], .cons ha .nil, rfl⟩
  refine ⟨_, rfl, rfl, by simp, by simp, hs, hb.trans hall, ?_⟩
  simp [absRows, entry]
  obtain ⟨kv, hkv⟩ : ∃ kv, (kRow demoSdss6.imap id [(1 : ℝ)] (reconRow 0 [[1], [1], [1], [1], [1], [1]] [1])
      (reconRow 0 [[1], [1], [1], [1], [1], [1]] [1]))[5]? = some kv := by
    unfold kRow
    split <;> exact ⟨_, rfl⟩
  have g5 : ∀ l : List ℝ, (gather l demoSdss6.imap)[5]? = some (l.getD 5 (lit 0)) := fun l => rfl
  rw [zip3_get _ _ _ _ hkv (g5 x) (g5 y), absEntry_real, if_neg]
  rw [List.getD_eq_getElem?_getD, hx]
  simp

/-! ### C56, C57 for every class -/

/-- C56 is false of every class: a one-element array with `mc > 0` never returns. -/
theorem C56_ab_false (nnls : Nnls ℝ) (F : Fitter ℝ) (hr : AbReady F.abCls F.responses.length) (z : ℝ) (m iv : List ℝ) (hm : m.length = F.responses.length)
    (hiv : iv.length = F.responses.length) (mc : Nat) (hmc : 0 < mc) (noise : Nat → Nat → Nat → ℝ) :
    ∃ e, F.fitCoeffs nnls (some (.vec [z])) (some (.arr [1] F.responses.length [m])) (some (.arr [1] F.responses.length [iv])) mc noise = .error e := by
  have h := fit_batch_eff nnls F hr [z] [m] [iv] rfl rfl (by simpa using hm) (by simpa using hiv) mc noise
  have h2 := C56_false nnls F.plain (Or.inl rfl) z (abM F.abCls m) (abIv F.abCls iv) ((by simp [abM] : (abM F.abCls m).length = m.length).trans hm)
    ((by simp [abIv] : (abIv F.abCls iv).length = iv.length).trans hiv) mc hmc noise
  simp only [List.length_singleton, List.map_cons, List.map_nil] at h
  rw [h]
  exact h2

/-- C57, every class: with the bands of the class (five or more) the fit returns whenever the solver does. -/
theorem C57_ab_partial (nnls : Nnls ℝ) (F : Fitter ℝ) (hr : AbReady F.abCls F.responses.length) (Am : AMat ℝ) (hA : F.Amatrix = some Am)
    (hnb : F.responses.length ≠ 1) (z : ℝ) (m iv : List ℝ) (hm : m.length = F.responses.length) (hiv : iv.length = F.responses.length)
    (M : List (List ℝ)) (hz : Am.at (f32 z) = .ok M) (hM : M.length = F.responses.length)
    (hs : ∀ A b, ∃ x, nnls F.templates.nsed A b none = .ok x) (noise : Nat → Nat → Nat → ℝ) :
    ∃ c, F.fitCoeffs nnls (some (.scalar z)) (some (.vec m)) (some (.vec iv)) 0 noise = .ok ⟨.vec c, none⟩ := by
  rw [fit_eff nnls F hr z m iv hm hiv]
  exact C57_partial nnls F.plain (Or.inl rfl) Am hA hnb z _ _ (List.length_mapIdx.trans hm) (List.length_mapIdx.trans hiv) M hz hM hs noise

/-- Not vacuous (C56, C57): `KcorrectSDSS` with its five bands. -/
example : AbReady demoSdss.abCls demoSdss.responses.length ∧ demoSdss.Amatrix = some demoAm5 ∧ demoSdss.responses.length ≠ 1 :=
  ⟨rfl, rfl, by decide⟩

end KC
