import Verif.Props.AbClasses
import Verif.Props.Batches
import Verif.Props.Response2

/-!
Fits of arrays of any length, one included (C49, C50, C52, C61, C62), and the AB source in bands whose ends are not covered (C23).
-/

namespace KC
open Spec

/-! ### C23 -/

/-- C23 for every curve: whatever the response is at its ends and whatever its sign, a spectrum equal to the AB reference at the wavelengths of the spectrum and of
the band projects to exactly 1, among any other spectra, unless the integral the code divides by (which is not the photon integral of the AB source when the ends
are not covered) is zero. -/
theorem C23_every_curve (lib : Lib ℝ) (wave resp : List ℝ) (R : Resp ℝ) (hR : mkResponse lib wave resp = .ok R) (sw : List ℝ) (hs : sw.Pairwise (· < ·))
    (rows : List (List ℝ)) (m : NDA ℝ) (hm : Projects lib R.toCurve sw rows m) (hov : ∃ w ∈ sw, R.wave.headD 0 ≤ w ∧ w ≤ R.wave.getLastD 0) :
    ∃ g, UnionGrid sw R.wave g ∧
      (photonInt g (curveFn lib.spline R.wave R.resp) abFlux ≠
          g.getLastD 0 * (g.getLastD 0 * curveFn lib.spline R.wave R.resp (g.getLastD 0) * abFlux (g.getLastD 0)) -
            g.headD 0 * (g.headD 0 * curveFn lib.spline R.wave R.resp (g.headD 0) * abFlux (g.headD 0)) →
        ∀ (i : Nat) y, rows[i]? = some y → (∀ w ∈ R.wave ++ sw, curveFn lib.spline sw y w = abFlux w) → m.flat[i]? = some 1) := by
  have hc := mkResponse_good hR
  obtain ⟨g, hg, hf⟩ := C18_project_exact lib wave resp R hR sw hs rows m hm hov
  refine ⟨g, hg, fun hne i y hy hab => ?_⟩
  have hgm : ∀ w ∈ g, curveFn lib.spline sw y w = abFlux w := fun w hw => hab w (List.mem_append.mpr (hg.only w hw))
  have hgne := union_ne_nil hg (ne_nil_of_four hc.four)
  have e : photonInt g (curveFn lib.spline R.wave R.resp) (curveFn lib.spline sw y) = photonInt g (curveFn lib.spline R.wave R.resp) abFlux := by
    unfold photonInt
    congr 1
    exact List.map_congr_left (fun w hw => by rw [hgm w hw])
  have e1 : curveFn lib.spline sw y (g.headD 0) = abFlux (g.headD 0) := hgm _ (by
    obtain ⟨a, l, rfl⟩ := List.exists_cons_of_ne_nil hgne
    simp)
  have e2 : curveFn lib.spline sw y (g.getLastD 0) = abFlux (g.getLastD 0) := hgm _ (by
    rw [List.getLastD_eq_getLast?, List.getLast?_eq_some_getLast hgne]
    exact List.getLast_mem hgne)
  rw [hf, List.getElem?_map, hy, Option.map_some]
  simp only [e, e1, e2]
  rw [div_self (sub_ne_zero.mpr hne)]

/-- A band that does not vanish at its ends, with the AB source and another spectrum on its own wavelengths: the integral divided by is not zero. -/
example : ∃ R m, mkResponse demoLib [1, 2, 3, 4] [1, -1, 5, 1] = .ok R ∧
    Projects demoLib R.toCurve [1, 2, 3, 4] [[abFlux 1, abFlux 2, abFlux 3, abFlux 4]] m ∧ m.flat[0]? = some 1 := by
  obtain ⟨R, hR⟩ := demo_response (wave := [1, 2, 3, 4]) (resp := [1, -1, 5, 1]) (by norm_num) (by simp) rfl
    ⟨1, by simp, by norm_num⟩
  obtain ⟨m, hm⟩ := projects_exists demoLib R.toCurve [1, 2, 3, 4] [abFlux 1, abFlux 2, abFlux 3, abFlux 4] sorted1234
    (by simp) rfl
  obtain ⟨h1, h2⟩ := mkResponse_sorted (sorted1234.imp le_of_lt) (by rfl) hR
  obtain ⟨a1, a2, a3, a4⟩ := knots1234 demo_knot 1 (-1) 5 1
  obtain ⟨b1, b2, b3, b4⟩ := knots1234 demo_knot (abFlux 1) (abFlux 2) (abFlux 3) (abFlux 4)
  obtain ⟨g, hg, h⟩ := C23_every_curve demoLib _ _ R hR [1, 2, 3, 4] sorted1234 _ m hm ⟨1, by simp, by simp [h1]⟩
  rw [h1] at hg
  have e : g = [1, 2, 3, 4] := by
    refine ((List.perm_ext_iff_of_nodup (hg.incr.imp ne_of_lt) (sorted1234.imp ne_of_lt)).mpr fun w => ?_).eq_of_pairwise
      (fun a b _ _ x y => absurd x (lt_asymm y)) hg.incr sorted1234
    exact ⟨fun hw => (hg.only w hw).elim id id, hg.band w⟩
  refine ⟨R, m, hR, hm, h ?_ 0 _ rfl ?_⟩
  · subst e
    simp only [h1, h2, photonInt, trapRule, List.map_cons, List.map_nil, a1, a2, a3, a4, List.getLastD, List.headD, List.getLast, abFlux]
    norm_num [trapRule]
  · simp [h1, b1, b2, b3, b4]

/-! ### arrays of every length -/

/-- a fit of one object without Monte Carlo returns one coefficient per template and nothing else, and does not look at the noise -/
theorem fit_one_out {nnls : Nnls ℝ} (hlen : NnlsLen nnls) {F : Fitter ℝ} (hr : AbReady F.abCls F.responses.length) (hnb : F.responses.length ≠ 1) {z : ℝ}
    {m iv : List ℝ} (hm : m.length = F.responses.length) (hiv : iv.length = F.responses.length) (noise noise' : Nat → Nat → Nat → ℝ) :
    F.fitCoeffs nnls (some (.scalar z)) (some (.vec m)) (some (.vec iv)) 0 noise = F.fitCoeffs nnls (some (.scalar z)) (some (.vec m)) (some (.vec iv)) 0 noise' ∧
    ∀ out, F.fitCoeffs nnls (some (.scalar z)) (some (.vec m)) (some (.vec iv)) 0 noise = .ok out →
      ∃ c, out = ⟨.vec c, none⟩ ∧ c.length = F.templates.nsed := by
  have hm' : (m.mapIdx (fun j x => x * abFactor F.abCls j)).length = F.plain.responses.length := by rw [List.length_mapIdx]; exact hm
  have hiv' : (iv.mapIdx (fun j x => x / abFactor F.abCls j ^ 2)).length = F.plain.responses.length := by rw [List.length_mapIdx]; exact hiv
  rw [fit_eff nnls F hr z m iv hm hiv, fit_eff nnls F hr z m iv hm hiv,
    fit_scalar nnls (F := F.plain) (Or.inl rfl) hnb z _ _ hm' hiv', fit_scalar nnls (F := F.plain) (Or.inl rfl) hnb z _ _ hm' hiv']
  refine ⟨by rw [fitU_noise nnls F.plain _ _ _ (noise' 0) (noise 0)], fun out h => ?_⟩
  cases hf : fitU nnls F.plain (f32 z) ((m.mapIdx (fun j x => x * abFactor F.abCls j)).map f32) ((iv.mapIdx (fun j x => x / abFactor F.abCls j ^ 2)).map f32) 0 (noise 0) with
  | error e => rw [hf] at h; cases h
  | ok r =>
    rw [hf] at h
    simp only [Except.map, outOne, if_true, Except.ok.injEq] at h
    exact ⟨r.1, h.symm, fitU_len hlen hf⟩

/-- C52, every class, arrays of every length without Monte Carlo: the array is fitted exactly when every object alone is, and row `k` is what object `k` alone gives. -/
theorem C52_every_length_partial (nnls : Nnls ℝ) (hlen : NnlsLen nnls) (F : Fitter ℝ) (hr : AbReady F.abCls F.responses.length) (hnb : F.responses.length ≠ 1)
    (zs : List ℝ) (ms ivs : List (List ℝ)) (hm : ms.length = zs.length) (hiv : ivs.length = zs.length)
    (hmr : ∀ r ∈ ms, r.length = F.responses.length) (hivr : ∀ r ∈ ivs, r.length = F.responses.length) (noise noise' : Nat → Nat → Nat → ℝ) :
    ((∃ out, F.fitCoeffs nnls (some (.vec zs)) (some (.arr [zs.length] F.responses.length ms)) (some (.arr [zs.length] F.responses.length ivs)) 0 noise = .ok out) ↔
      ∀ (k : Nat) z m iv, zs[k]? = some z → ms[k]? = some m → ivs[k]? = some iv →
        ∃ o, F.fitCoeffs nnls (some (.scalar z)) (some (.vec m)) (some (.vec iv)) 0 noise' = .ok o) ∧
    ∀ out, F.fitCoeffs nnls (some (.vec zs)) (some (.arr [zs.length] F.responses.length ms)) (some (.arr [zs.length] F.responses.length ivs)) 0 noise = .ok out →
      ∃ cs, out = ⟨.arr [zs.length] F.templates.nsed cs, none⟩ ∧ cs.length = zs.length ∧
        ∀ (k : Nat) z m iv c, zs[k]? = some z → ms[k]? = some m → ivs[k]? = some iv → cs[k]? = some c →
          F.fitCoeffs nnls (some (.scalar z)) (some (.vec m)) (some (.vec iv)) 0 noise' = .ok ⟨.vec c, none⟩ := by
  by_cases hn : zs.length = 1
  · obtain ⟨z, rfl⟩ := List.length_eq_one_iff.mp hn
    obtain ⟨m, rfl⟩ := List.length_eq_one_iff.mp hm
    obtain ⟨iv, rfl⟩ := List.length_eq_one_iff.mp hiv
    have hm1 := hmr m (by simp)
    have hiv1 := hivr iv (by simp)
    obtain ⟨he, hc⟩ := C52_ab_batch_of_one_partial nnls F hr hnb z m iv hm1 hiv1 noise
    obtain ⟨e1, e2⟩ := fit_one_out hlen hr hnb (z := z) hm1 hiv1 noise noise'
    have hone : ∀ (k : Nat) z' m' iv', [z][k]? = some z' → [m][k]? = some m' → [iv][k]? = some iv' → z' = z ∧ m' = m ∧ iv' = iv := by
      intro k z' m' iv' h1 h2 h3
      cases k with
      | zero => simp at h1 h2 h3; exact ⟨h1.symm, h2.symm, h3.symm⟩
      | succ k => simp at h1
    cases ha : F.fitCoeffs nnls (some (.scalar z)) (some (.vec m)) (some (.vec iv)) 0 noise with
    | error e =>
      have hb := (he e).mpr ha
      simp only [List.length_singleton]
      rw [hb]
      refine ⟨⟨fun ⟨_, h⟩ => (by cases h), fun h => ?_⟩, fun out h => (by cases h)⟩
      obtain ⟨o, ho⟩ := h 0 z m iv rfl rfl rfl
      rw [← e1, ha] at ho; cases ho
    | ok o =>
      obtain ⟨c, rfl, hcl⟩ := e2 o ha
      have hb := (hc c).mpr ha
      simp only [List.length_singleton]
      rw [hb]
      refine ⟨⟨fun _ k z' m' iv' h1 h2 h3 => ?_, fun _ => ⟨_, rfl⟩⟩, fun out h => ?_⟩
      · obtain ⟨rfl, rfl, rfl⟩ := hone k z' m' iv' h1 h2 h3
        exact ⟨_, e1.symm.trans ha⟩
      · cases h
        refine ⟨[c], by rw [hcl], rfl, fun k z' m' iv' c' h1 h2 h3 h4 => ?_⟩
        obtain ⟨rfl, rfl, rfl⟩ := hone k z' m' iv' h1 h2 h3
        have : c' = c := by
          cases k with
          | zero => simp at h4; exact h4.symm
          | succ k => simp at h4
        rw [this]
        exact e1.symm.trans ha
  · obtain ⟨h1, h2⟩ := C52_ab_partial nnls hlen F hr hnb zs ms ivs hn hm hiv hmr hivr 0 noise
    have hent : ∀ (k : Nat) z m iv, zs[k]? = some z → ms[k]? = some m → ivs[k]? = some iv → ent zs k = z ∧ ms.getD k [] = m ∧ ivs.getD k [] = iv := by
      intro k z m iv a b c
      exact ⟨ent_eq a, by rw [List.getD_eq_getElem?_getD, b]; rfl, by rw [List.getD_eq_getElem?_getD, c]; rfl⟩
    have hnoise : ∀ (k : Nat) z m iv, zs[k]? = some z → ms[k]? = some m → ivs[k]? = some iv →
        F.fitCoeffs nnls (some (.scalar z)) (some (.vec m)) (some (.vec iv)) 0 (fun _ => noise k) =
          F.fitCoeffs nnls (some (.scalar z)) (some (.vec m)) (some (.vec iv)) 0 noise' := fun k z m iv _ b c =>
      (fit_one_out hlen hr hnb (hmr m (List.mem_of_getElem? b)) (hivr iv (List.mem_of_getElem? c)) _ _).1
    refine ⟨h1.trans ⟨fun h k z m iv a b c => ?_, fun h k hk => ?_⟩, fun out hout => ?_⟩
    · have hk : k < zs.length := (List.getElem?_eq_some_iff.mp a).1
      obtain ⟨e1, e2, e3⟩ := hent k z m iv a b c
      obtain ⟨o, ho⟩ := h k hk
      beta_reduce at ho
      rw [e1, e2, e3, hnoise k z m iv a b c] at ho
      exact ⟨o, ho⟩
    · have a := List.getElem?_eq_getElem hk
      have b := List.getElem?_eq_getElem (by omega : k < ms.length)
      have c := List.getElem?_eq_getElem (by omega : k < ivs.length)
      obtain ⟨e1, e2, e3⟩ := hent k _ _ _ a b c
      beta_reduce
      rw [e1, e2, e3, hnoise k _ _ _ a b c]
      exact h k _ _ _ a b c
    · obtain ⟨cs, l, ha, hco, hmc⟩ := h2 out hout
      have hc2 : out = ⟨.arr [zs.length] F.templates.nsed (cs.map (fun r => r.1)), none⟩ := by
        cases out; simp only [if_true] at hco hmc; rw [hco, hmc]
      refine ⟨_, hc2, by simpa using l, fun k z m iv c a b c' d => ?_⟩
      rw [List.getElem?_map, Option.map_eq_some_iff] at d
      obtain ⟨r, hr', rfl⟩ := d
      obtain ⟨e1, e2, e3⟩ := hent k z m iv a b c'
      have := ha k r hr'
      beta_reduce at this
      rw [e1, e2, e3, hnoise k z m iv a b c', if_pos rfl] at this
      exact this

/-- C49, every class, arrays of every length: the coefficients of every object in the range are the nonnegative optimum for its AB corrected photometry. -/
theorem C49_every_length (nnls : Nnls ℝ) (hn : NNLSOK nnls) (F : Fitter ℝ) (hr : AbReady F.abCls F.responses.length) (hnb : F.responses.length ≠ 1)
    (Am : AMat ℝ) (hR : Ready F Am) (zs : List ℝ) (ms ivs : List (List ℝ)) (hm : ms.length = zs.length)
    (hiv : ivs.length = zs.length) (hmr : ∀ r ∈ ms, r.length = F.responses.length) (hivr : ∀ r ∈ ivs, r.length = F.responses.length)
    (hpos : ∀ r ∈ ivs, ∀ v ∈ r, 0 ≤ v) (noise : Nat → Nat → Nat → ℝ) (out : FitOut ℝ)
    (h : F.fitCoeffs nnls (some (.vec zs)) (some (.arr [zs.length] F.responses.length ms))
      (some (.arr [zs.length] F.responses.length ivs)) 0 noise = .ok out) :
    ∃ cs, out = ⟨.arr [zs.length] F.templates.nsed cs, none⟩ ∧ cs.length = zs.length ∧
      ∀ (k : Nat) z m iv c, zs[k]? = some z → ms[k]? = some m → ivs[k]? = some iv → cs[k]? = some c → InRange Am.x z →
        Optimal F z (abM F.abCls m) (abIv F.abCls iv) c := by
  obtain ⟨cs, rfl, hl, hk⟩ := (C52_every_length_partial nnls hn.len F hr hnb zs ms ivs hm hiv hmr hivr noise noise).2 out h
  refine ⟨cs, rfl, hl, fun k z m iv c a b c' d hz => ?_⟩
  have hivm := List.mem_of_getElem? c'
  obtain ⟨c0, e, ho⟩ := C49_ab nnls hn F hr Am hR z hz m iv (hmr m (List.mem_of_getElem? b)) (hivr iv hivm) (hpos iv hivm) noise _ (hk k z m iv c a b c' d)
  simp only [FitOut.mk.injEq, NDA.vec, NDA.arr.injEq, List.cons.injEq, and_true] at e
  rw [e.2.2]
  exact ho

/-- C50, every class, arrays of every length: the maggies of bands with zero inverse variance change neither the coefficients nor whether the fit returns. -/
theorem C50_every_length_partial (nnls : Nnls ℝ) (hlen : NnlsLen nnls) (F : Fitter ℝ) (hr : AbReady F.abCls F.responses.length) (hnb : F.responses.length ≠ 1)
    (zs : List ℝ) (ms ms' ivs : List (List ℝ)) (hm : ms.length = zs.length) (hm' : ms'.length = zs.length)
    (hiv : ivs.length = zs.length) (hmr : ∀ r ∈ ms, r.length = F.responses.length) (hmr' : ∀ r ∈ ms', r.length = F.responses.length)
    (hivr : ∀ r ∈ ivs, r.length = F.responses.length)
    (h : ∀ (k j : Nat) iv v, ivs[k]? = some iv → iv[j]? = some v → v ≠ 0 →
      (ms[k]?).bind (fun r => r[j]?) = (ms'[k]?).bind (fun r => r[j]?)) (noise : Nat → Nat → Nat → ℝ) (out : FitOut ℝ) :
    F.fitCoeffs nnls (some (.vec zs)) (some (.arr [zs.length] F.responses.length ms)) (some (.arr [zs.length] F.responses.length ivs)) 0 noise = .ok out ↔
    F.fitCoeffs nnls (some (.vec zs)) (some (.arr [zs.length] F.responses.length ms')) (some (.arr [zs.length] F.responses.length ivs)) 0 noise = .ok out := by
  by_cases hn : zs.length = 1
  · obtain ⟨z, rfl⟩ := List.length_eq_one_iff.mp hn
    obtain ⟨m, rfl⟩ := List.length_eq_one_iff.mp hm
    obtain ⟨m', rfl⟩ := List.length_eq_one_iff.mp hm'
    obtain ⟨iv, rfl⟩ := List.length_eq_one_iff.mp hiv
    have hm1 := hmr m (by simp)
    have hm1' := hmr' m' (by simp)
    have hiv1 := hivr iv (by simp)
    have e := C50_ab_partial nnls F hr hnb z m m' iv hm1 hm1' hiv1 (fun j v a b => by simpa using h 0 j iv v rfl a b) noise
    obtain ⟨a1, a2⟩ := C52_ab_batch_of_one_partial nnls F hr hnb z m iv hm1 hiv1 noise
    obtain ⟨b1, b2⟩ := C52_ab_batch_of_one_partial nnls F hr hnb z m' iv hm1' hiv1 noise
    simp only [List.length_singleton]
    cases ha : F.fitCoeffs nnls (some (.scalar z)) (some (.vec m)) (some (.vec iv)) 0 noise with
    | error x => rw [(a1 x).mpr ha, (b1 x).mpr (e ▸ ha)]
    | ok o =>
      obtain ⟨c, rfl, _⟩ := (fit_one_out hlen hr hnb (z := z) hm1 hiv1 noise noise).2 o ha
      rw [(a2 c).mpr ha, (b2 c).mpr (e ▸ ha)]
  · rw [C50_ab_batch_partial nnls F hr zs ms ms' ivs hn hm hm' hiv hmr hmr' hivr h noise]

/-- C61, every class, arrays of every length: where the AB corrected maggies of an object are those of a mixture of the templates, its coefficients reproduce them in
every band with positive inverse variance, whatever the other objects are. -/
theorem C61_every_length (nnls : Nnls ℝ) (hn : NNLSOK nnls) (F : Fitter ℝ) (hr : AbReady F.abCls F.responses.length) (hnb : F.responses.length ≠ 1)
    (Am : AMat ℝ) (hR : Ready F Am) (zs : List ℝ) (ms ivs : List (List ℝ)) (hm : ms.length = zs.length)
    (hiv : ivs.length = zs.length) (hmr : ∀ r ∈ ms, r.length = F.responses.length) (hivr : ∀ r ∈ ivs, r.length = F.responses.length)
    (hpos : ∀ r ∈ ivs, ∀ v ∈ r, 0 ≤ v) (noise : Nat → Nat → Nat → ℝ) (out : FitOut ℝ)
    (h : F.fitCoeffs nnls (some (.vec zs)) (some (.arr [zs.length] F.responses.length ms))
      (some (.arr [zs.length] F.responses.length ivs)) 0 noise = .ok out) :
    ∃ cs, out = ⟨.arr [zs.length] F.templates.nsed cs, none⟩ ∧ cs.length = zs.length ∧
      ∀ (k : Nat) z m iv c c0, zs[k]? = some z → ms[k]? = some m → ivs[k]? = some iv → cs[k]? = some c → InRange Am.x z → c0.length = F.templates.nsed →
        (∀ v ∈ c0, 0 ≤ v) → F.reconstruct (some (.scalar z)) (some (.vec c0)) 0 = .ok (.vec (abM F.abCls m)) →
        ∃ r, F.reconstruct (some (.scalar z)) (some (.vec c)) 0 = .ok (.vec r) ∧ ∀ (j : Nat) v, iv[j]? = some v → 0 < v → r[j]? = (abM F.abCls m)[j]? := by
  obtain ⟨cs, rfl, hl, hk⟩ := (C52_every_length_partial nnls hn.len F hr hnb zs ms ivs hm hiv hmr hivr noise noise).2 out h
  refine ⟨cs, rfl, hl, fun k z m iv c c0 a b c' d hz hc0 hc0p hrec => ?_⟩
  have hivm := List.mem_of_getElem? c'
  exact C61_ab nnls hn F hr Am hR z hz m iv c0 (hmr m (List.mem_of_getElem? b)) hc0 hc0p hrec (hivr iv hivm) (hpos iv hivm) noise _ (hk k z m iv c a b c' d)

/-- C62, every class, arrays of every length, with factors of their own for every object: the coefficients of object `k` are `s k` times a nonnegative optimum for its
unscaled photometry. -/
theorem C62_every_length (nnls : Nnls ℝ) (hn : NNLSOK nnls) (F : Fitter ℝ) (hr : AbReady F.abCls F.responses.length) (hnb : F.responses.length ≠ 1)
    (Am : AMat ℝ) (hR : Ready F Am) (zs : List ℝ) (ms ivs : List (List ℝ)) (hm : ms.length = zs.length)
    (hiv : ivs.length = zs.length) (hmr : ∀ r ∈ ms, r.length = F.responses.length) (hivr : ∀ r ∈ ivs, r.length = F.responses.length)
    (hpos : ∀ r ∈ ivs, ∀ v ∈ r, 0 ≤ v) (s t : Nat → ℝ) (hs : ∀ k, 0 < s k) (ht : ∀ k, 0 < t k) (noise : Nat → Nat → Nat → ℝ) (out : FitOut ℝ)
    (h : F.fitCoeffs nnls (some (.vec zs)) (some (.arr [zs.length] F.responses.length (ms.mapIdx (fun k r => r.map (fun v => s k * v)))))
      (some (.arr [zs.length] F.responses.length (ivs.mapIdx (fun k r => r.map (fun v => t k * v))))) 0 noise = .ok out) :
    ∃ cs, out = ⟨.arr [zs.length] F.templates.nsed cs, none⟩ ∧ cs.length = zs.length ∧
      ∀ (k : Nat) z m iv c, zs[k]? = some z → ms[k]? = some m → ivs[k]? = some iv → cs[k]? = some c → InRange Am.x z →
        ∃ c', c = c'.map (fun v => s k * v) ∧ Optimal F z (abM F.abCls m) (abIv F.abCls iv) c' := by
  have hmem : ∀ (l : List (List ℝ)) (q : Nat → ℝ), (∀ r ∈ l, r.length = F.responses.length) →
      ∀ r ∈ l.mapIdx (fun k r => r.map (fun v => q k * v)), r.length = F.responses.length := by
    intro l q hl r hr'
    obtain ⟨i, hi, rfl⟩ := List.mem_mapIdx.mp hr'
    rw [List.length_map]
    exact hl _ (List.getElem_mem _)
  obtain ⟨cs, rfl, hl, hk⟩ := (C52_every_length_partial nnls hn.len F hr hnb zs _ _ (by simpa using hm) (by simpa using hiv)
    (hmem ms s hmr) (hmem ivs t hivr) noise noise).2 out h
  refine ⟨cs, rfl, hl, fun k z m iv c a b c' d hz => ?_⟩
  have hivm := List.mem_of_getElem? c'
  obtain ⟨c0, e, ho⟩ := C62_ab nnls hn F hr Am hR z hz m iv (hmr m (List.mem_of_getElem? b)) (hivr iv hivm) (hpos iv hivm) (s k) (t k) (hs k) (ht k) noise _
    (hk k z _ _ c a (by rw [List.getElem?_mapIdx, b]; rfl) (by rw [List.getElem?_mapIdx, c']; rfl) d)
  simp only [FitOut.mk.injEq, NDA.vec, NDA.arr.injEq, List.cons.injEq, and_true] at e
  exact ⟨c0, e.2.2, ho⟩

/-- An array of one object with noise free photometry meets the hypotheses; the coefficients are the true ones. -/
example : ∃ m out, demoKc2.toFitter.fitCoeffs demoNnls (some (.vec [2])) (some (.arr [1] 2 [m])) (some (.arr [1] 2 [[1, 4]])) 0 (fun _ _ _ => 0) = .ok out ∧
    AbReady demoKc2.abCls demoKc2.responses.length ∧ demoKc2.responses.length ≠ 1 ∧ Ready demoKc2.toFitter demoAm2 ∧ InRange demoAm2.x 2 ∧
    demoKc2.reconstruct (some (.scalar 2)) (some (.vec [1, 5])) 0 = .ok (.vec (abM demoKc2.abCls m)) ∧
    ∃ c, out = ⟨.arr [1] 2 [c], none⟩ ∧ Optimal demoKc2.toFitter 2 (abM demoKc2.abCls m) (abIv demoKc2.abCls [1, 4]) c := by
  obtain ⟨m, o, hR, hz, hm, hdet, hfit, hmp⟩ := demo_noise_free
  have hml : m.length = 2 := by
    have := hm
    rw [show demoKc2.reconstruct (some (.scalar 2)) (some (.vec [1, 5])) 0 = .ok (.vec (mulVec [[1, 2], [3 / 2, 3 / 2]] [1, 5])) from
      recon_ready demo_ready demoAm2_at2 rfl] at this
    simp only [Except.ok.injEq, NDA.vec, NDA.arr.injEq, List.cons.injEq, and_true] at this
    rw [← this.2.2]; rfl
  have h1 : ∀ r ∈ [m], r.length = demoKc2.responses.length := by
    intro r hr; rw [List.mem_singleton.mp hr]; exact hml
  have h2 : ∀ r ∈ [([1, 4] : List ℝ)], r.length = demoKc2.responses.length := by
    intro r hr; rw [List.mem_singleton.mp hr]; rfl
  have hab : abM demoKc2.abCls m = m := by rw [show demoKc2.abCls = .base from rfl, abM_base]
  obtain ⟨out, hout⟩ := (C52_every_length_partial demoNnls demoNnls_ok.len demoKc2.toFitter trivial (by decide) [2] [m] [[1, 4]] rfl rfl h1 h2
    (fun _ _ _ => 0) (fun _ _ _ => 0)).1.mpr (by
      intro k z m' iv a b c
      cases k with
      | zero => simp at a b c; subst a b c; exact ⟨o, hfit⟩
      | succ k => simp at a)
  obtain ⟨cs, rfl, hl, hk⟩ := C49_every_length demoNnls demoNnls_ok demoKc2.toFitter trivial (by decide) demoAm2 hR [2] [m] [[1, 4]] rfl rfl h1 h2 (by
    intro r hr v hv
    rw [List.mem_singleton.mp hr] at hv
    simp only [List.mem_cons, List.not_mem_nil, or_false] at hv
    rcases hv with rfl | rfl <;> norm_num) (fun _ _ _ => 0) out hout
  obtain ⟨c, rfl⟩ := List.length_eq_one_iff.mp hl
  exact ⟨m, _, hout, trivial, by decide, hR, hz, by rw [hab]; exact hm, c, rfl, hk 0 2 m _ c rfl rfl rfl rfl hz⟩

end KC
