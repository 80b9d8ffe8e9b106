import Verif.Lemmas.Fwhm

/-!
# Properties of `Response` (C17–C28, C91)

`KnotExact`, `SplineLinear`, `SplineUnits`, `BrentqOK` are the contracts of scipy's cubic spline and `brentq`
(`Lemmas/Project.lean`); `demoLib` (`Lemmas/Demo.lean`) meets all of them.
-/

namespace KC
open Spec

/-- `m` is what a call of `project` on the band `c` returns for spectra `rows` sampled at `sw`: either
`project(sed=s)` for an SED object carrying its interpolator, or `project(wave=sw, flux=rows)`. -/
inductive Projects (lib : Lib ℝ) (c : Curve ℝ) (sw : List ℝ) (rows : List (List ℝ)) (m : NDA ℝ) : Prop
  | sed (s : Sed ℝ) (i : Interp ℝ) (hw : s.wave = sw) (hf : s.flux = rows) (hm : mkInterp s.wave s.flux = .ok i)
      (hi : s.interp = some i) (h : projectSed lib c s = .ok m)
  | arrays (lead : List Nat) (n : Nat) (h : projectArr lib c sw (.arr lead n rows) = .ok m)

theorem projects_eq {lib : Lib ℝ} {c : Curve ℝ} {sw : List ℝ} {rows : List (List ℝ)} {m : NDA ℝ}
    (hs : sw.Pairwise (· < ·)) (h : Projects lib c sw rows m) :
    m = projectWith lib c sw ⟨sw, rows⟩ ∧ 4 ≤ sw.length ∧ ∀ r ∈ rows, r.length = sw.length := by
  have hs' : sw.Pairwise (· ≤ ·) := hs.imp le_of_lt
  cases h with
  | sed s i hw hf hm hi h =>
    subst hw; subst hf
    obtain ⟨h1, _, h3, h4⟩ := mkInterp_ok_sorted hs' hm
    subst h1
    simp only [projectSed, hi, Except.ok.injEq] at h
    exact ⟨h.symm, h3, h4⟩
  | arrays lead n h =>
    have e1 : sw.map (f32 : ℝ → ℝ) = sw := list_f32_real sw
    have e2 : (NDA.arr lead n rows).map (f32 : ℝ → ℝ) = .arr lead n rows := by
      simp only [NDA.map]
      congr 1
      conv_rhs => rw [← List.map_id rows]
      exact List.map_congr_left (fun r _ => by simpa using list_f32_real r)
    simp only [projectArr, e1, e2] at h
    split at h
    · simp at h
    · split at h
      · simp at h
      · simp only [ok_bind] at h
        cases hi : mkInterp sw rows with
        | error e => rw [hi] at h; simp at h
        | ok i =>
          rw [hi] at h
          obtain ⟨h1, _, h3, h4⟩ := mkInterp_ok_sorted hs' hi
          subst h1
          simp only [ok_bind, pure_py, Except.ok.injEq] at h
          exact ⟨h.symm, h3, h4⟩

/-- For every increasing grid, rows of the right length and band, `project` can be called. -/
theorem projects_exists (lib : Lib ℝ) (c : Curve ℝ) (sw y : List ℝ) (hs : sw.Pairwise (· < ·)) (h4 : 4 ≤ sw.length)
    (hy : y.length = sw.length) : ∃ m, Projects lib c sw [y] m := by
  refine ⟨projectWith lib c sw ⟨sw, [y]⟩, .arrays [] sw.length ?_⟩
  have e1 : sw.map (f32 : ℝ → ℝ) = sw := list_f32_real sw
  have e2 : (NDA.arr [] sw.length [y]).map (f32 : ℝ → ℝ) = .arr [] sw.length [y] := by
    simp only [NDA.map, List.map_cons, List.map_nil, list_f32_real]
  simp only [projectArr, e1, e2, ne_eq, not_true_eq_false, if_false, List.length_nil, Nat.not_lt_zero, ok_bind,
    mkInterp_strict sw [y] hs h4 (by simpa using hy), pure_py]

/-! ## C17 -/

/-- C17: the stored wavelengths are in nondecreasing order and the (wavelength, response) pairs are those given,
rearranged. -/
theorem C17_curve_sorted (lib : Lib ℝ) (wave resp : List ℝ) (R : Resp ℝ) (hl : wave.length = resp.length)
    (h : mkResponse lib wave resp = .ok R) :
    R.wave.Pairwise (· ≤ ·) ∧ R.wave.length = R.resp.length ∧
      (List.zip R.wave R.resp).Perm (List.zip wave resp) := by
  obtain ⟨_, h1, h2, _⟩ := mkResponse_ok h
  refine ⟨by rw [h1]; exact gather_sorted wave, by rw [h1, h2, gather_length, gather_length], ?_⟩
  rw [h1, h2, gather_eq_map, gather_eq_map, List.zip_map']
  have hp := (argsort_perm wave).map (fun i => (ent wave i, ent resp i))
  refine hp.trans ?_
  have e : (List.range wave.length).map (fun i => (ent wave i, ent resp i)) = List.zip wave resp := by
    rw [← List.zip_map']
    congr 1
    · exact map_ent_range wave
    · rw [hl]; exact map_ent_range resp
  rw [e]

/-- An unsorted curve is accepted. -/
example : ∃ R, mkResponse demoLib [3, 1, 2, 4] [0, 0, 1, 0] = .ok R :=
  demo_response (by norm_num) (by simp) rfl ⟨1, by simp, by norm_num⟩

/-! ## C91 -/

/-- C91: every curve with at least four distinct wavelengths, in any order, and a positive response somewhere
builds a Response. -/
theorem C91_response_builds (lib : Lib ℝ) (hk : KnotExact lib) (hb : BrentqOK lib) (hsun : StarOK lib.sun)
    (hvega : StarOK lib.vega) (wave resp : List ℝ) (hw : wave.Nodup) (h4 : 4 ≤ wave.length)
    (hl : resp.length = wave.length) (hpos : ∃ v ∈ resp, 0 < v) : ∃ R, Returns (mkResponse lib wave resp) R :=
  mkResponse_succeeds hk hb hsun hvega hw h4 hl hpos

/-- The contracts are consistent and the shape conditions can be met. -/
example : KnotExact demoLib ∧ BrentqOK demoLib ∧ StarOK demoLib.sun ∧ StarOK demoLib.vega ∧ SplineLinear demoLib ∧
    SplineUnits demoLib := ⟨demo_knot, demo_brentq, demo_star, demo_star, demo_linear, demo_units⟩

/-! ## C18 -/

/-- What `project` returns, with no condition on the ends of the band: the ratio of two integrals, each of
which is the trapezoid-rule photon integral minus the boundary terms `w (w R f)` at the ends of the grid. -/
theorem C18_project_exact (lib : Lib ℝ) (wave resp : List ℝ) (R : Resp ℝ) (hR : mkResponse lib wave resp = .ok R)
    (sw : List ℝ) (hs : sw.Pairwise (· < ·)) (rows : List (List ℝ)) (m : NDA ℝ) (hm : Projects lib R.toCurve sw rows m)
    (hov : ∃ w ∈ sw, R.wave.headD 0 ≤ w ∧ w ≤ R.wave.getLastD 0) : ∃ g, UnionGrid sw R.wave g ∧
      m.flat = rows.map (fun y =>
        let r := curveFn lib.spline R.wave R.resp
        let edge := fun f : ℝ → ℝ => g.getLastD 0 * (g.getLastD 0 * r (g.getLastD 0) * f (g.getLastD 0)) -
          g.headD 0 * (g.headD 0 * r (g.headD 0) * f (g.headD 0))
        (photonInt g r (curveFn lib.spline sw y) - edge (curveFn lib.spline sw y)) /
          (photonInt g r abFlux - edge abFlux)) := by
  have hc := mkResponse_good hR
  obtain ⟨rfl, _, _⟩ := projects_eq hs hm
  cases hg : projGrid sw R.wave with
  | none => exact absurd hov ((projGrid_none _ _).mp hg)
  | some g =>
    have hu := projGrid_union hg
    have hne := union_ne_nil hu (ne_nil_of_four hc.four)
    refine ⟨g, hu, ?_⟩
    rw [projectWith_some hc hg]
    apply List.map_congr_left
    intro y _
    rw [bandIntegral_eq g hne, bandIntegral_eq g hne, ← neg_div_neg_eq]
    simp only [neg_sub]

theorem project_ratio {lib : Lib ℝ} (hk : KnotExact lib) {c : Curve ℝ} (hc : GoodCurve c) {sw g : List ℝ}
    (hs : sw.Pairwise (· < ·)) (hends : EndsCovered sw c.wave c.resp) (hg : projGrid sw c.wave = some g)
    (rows : List (List ℝ)) : (projectWith lib c sw ⟨sw, rows⟩).flat = rows.map (fun y =>
      photonInt g (curveFn lib.spline c.wave c.resp) (curveFn lib.spline sw y) /
        photonInt g (curveFn lib.spline c.wave c.resp) abFlux) := by
  have hu := projGrid_union hg
  have hne := union_ne_nil hu (ne_nil_of_four hc.four)
  have h0 : curveFn lib.spline c.wave c.resp (g.headD 0) = 0 := by
    refine resp_head_zero hk hc hu ?_
    rcases hends.1 with h | h
    · exact Or.inl h
    · exact Or.inr (grid_below hs hg h)
  have h1 : curveFn lib.spline c.wave c.resp (g.getLastD 0) = 0 := by
    refine resp_last_zero hk hc hu ?_
    rcases hends.2 with h | h
    · exact Or.inl h
    · exact Or.inr (grid_above hs hg h)
  rw [projectWith_some hc hg]
  apply List.map_congr_left
  intro y _
  rw [bandIntegral_eq g hne, bandIntegral_eq g hne, h0, h1]
  simp only [mul_zero, zero_mul, sub_zero, zero_sub, neg_div_neg_eq]

/-- C18 (partial): if at each end of the band the response is zero or the spectrum extends beyond the band,
`project` returns, for every spectrum, the ratio of the trapezoid-rule photon integrals of the spectrum and of
the AB source on the union grid.  Missing: bands cut off by the end of the spectrum with nonzero response there; for
those the claim is false (`C18_false`). -/
theorem C18_project_ratio_partial (lib : Lib ℝ) (hk : KnotExact lib) (wave resp : List ℝ) (R : Resp ℝ)
    (hR : mkResponse lib wave resp = .ok R) (sw : List ℝ) (hs : sw.Pairwise (· < ·)) (rows : List (List ℝ)) (m : NDA ℝ)
    (hm : Projects lib R.toCurve sw rows m) (hov : ∃ w ∈ sw, R.wave.headD 0 ≤ w ∧ w ≤ R.wave.getLastD 0)
    (hends : EndsCovered sw R.wave R.resp) : ∃ g, UnionGrid sw R.wave g ∧
      m.flat = rows.map (fun y => photonInt g (curveFn lib.spline R.wave R.resp) (curveFn lib.spline sw y) /
        photonInt g (curveFn lib.spline R.wave R.resp) abFlux) := by
  have hc := mkResponse_good hR
  obtain ⟨rfl, _, _⟩ := projects_eq hs hm
  cases hg : projGrid sw R.wave with
  | none => exact absurd hov ((projGrid_none _ _).mp hg)
  | some g => exact ⟨g, projGrid_union hg, project_ratio hk hc hs hends hg rows⟩

/-- A concrete band and spectrum meet the conditions. -/
example : ∃ R m, mkResponse demoLib [2, 3, 4, 5] [1, 1, 1, 1] = .ok R ∧
    Projects demoLib R.toCurve [1, 2, 5, 6] [[1, 1, 1, 1]] m ∧ EndsCovered [1, 2, 5, 6] R.wave R.resp := by
  obtain ⟨R, hR⟩ := demo_response (wave := [2, 3, 4, 5]) (resp := [1, 1, 1, 1]) (by norm_num) (by simp) rfl
    ⟨1, by simp, by norm_num⟩
  obtain ⟨m, hm⟩ := projects_exists demoLib R.toCurve [1, 2, 5, 6] [1, 1, 1, 1] (by norm_num) (by simp) rfl
  refine ⟨R, m, hR, hm, ?_⟩
  obtain ⟨_, h1, _, _⟩ := mkResponse_ok hR
  rw [argsort_of_sorted _ (by norm_num), gather_range _ _ rfl] at h1
  refine ⟨Or.inr ⟨1, by simp, ?_⟩, Or.inr ⟨6, by simp, ?_⟩⟩ <;> rw [h1] <;> norm_num

/-- The only union grid of a spectrum and a band sampled at the same wavelengths. -/
theorem union_same {x g : List ℝ} (hx : x.Pairwise (· < ·)) (h : UnionGrid x x g) : g = x := by
  refine strict_ext h.incr hx (fun w => ⟨fun hw => ?_, h.band w⟩)
  rcases h.only w hw with h | h <;> exact h

theorem photonInt_1234 (r f : ℝ → ℝ) : photonInt [1, 2, 3, 4] r f =
    (1 * r 1 * f 1 + 2 * r 2 * f 2) / 2 + (2 * r 2 * f 2 + 3 * r 3 * f 3) / 2 + (3 * r 3 * f 3 + 4 * r 4 * f 4) / 2 := by
  simp only [photonInt, List.map_cons, List.map_nil, trapRule]
  ring

theorem sorted1234 : ([1, 2, 3, 4] : List ℝ).Pairwise (· < ·) := by norm_num

theorem knots1234 {lib : Lib ℝ} (hk : KnotExact lib) (a b c d : ℝ) :
    curveFn lib.spline [1, 2, 3, 4] [a, b, c, d] 1 = a ∧ curveFn lib.spline [1, 2, 3, 4] [a, b, c, d] 2 = b ∧
    curveFn lib.spline [1, 2, 3, 4] [a, b, c, d] 3 = c ∧ curveFn lib.spline [1, 2, 3, 4] [a, b, c, d] 4 = d :=
  ⟨curve_at_knot (y := [a, b, c, d]) hk sorted1234 (by simp) rfl (i := 0) rfl rfl, curve_at_knot (y := [a, b, c, d]) hk sorted1234 (by simp) rfl (i := 1) rfl rfl,
   curve_at_knot (y := [a, b, c, d]) hk sorted1234 (by simp) rfl (i := 2) rfl rfl, curve_at_knot (y := [a, b, c, d]) hk sorted1234 (by simp) rfl (i := 3) rfl rfl⟩

/-- The top-hat band on [1, 4] with a spectrum ending where the band ends. -/
theorem tophat_project {lib : Lib ℝ} (hk : KnotExact lib) {R : Resp ℝ}
    (hR : mkResponse lib [1, 2, 3, 4] [1, 1, 1, 1] = .ok R) {m : NDA ℝ}
    (hm : Projects lib R.toCurve [1, 2, 3, 4] [[0, 0, 0, 1]] m) : R.wave = [1, 2, 3, 4] ∧ R.resp = [1, 1, 1, 1] ∧
    ∃ v, m.flat = [v] ∧ v < 0 := by
  obtain ⟨h1, h2⟩ := mkResponse_sorted (sorted1234.imp le_of_lt) (by rfl) hR
  refine ⟨h1, h2, ?_⟩
  obtain ⟨g, hg, hf⟩ := C18_project_exact lib _ _ R hR _ sorted1234 _ m hm (by rw [h1]; exact ⟨1, by simp, by norm_num⟩)
  rw [h1] at hg
  have := union_same sorted1234 hg
  subst this
  refine ⟨_, hf, ?_⟩
  obtain ⟨a1, a2, a3, a4⟩ := knots1234 hk 1 1 1 1
  obtain ⟨b1, b2, b3, b4⟩ := knots1234 hk 0 0 0 1
  simp only [h1, h2, photonInt_1234, List.getLastD_cons, List.headD_cons, List.getLastD_nil, a1, a2, a3, a4, b1, b2, b3, b4,
    abFlux]
  norm_num

/-- C18 fails as stated: for a top-hat band and a spectrum that ends at the same wavelength, the value returned
is negative although the photon-weighted ratio is positive. -/
theorem C18_false (lib : Lib ℝ) (hk : KnotExact lib) (R : Resp ℝ)
    (hR : mkResponse lib [1, 2, 3, 4] [1, 1, 1, 1] = .ok R) (m : NDA ℝ)
    (hm : Projects lib R.toCurve [1, 2, 3, 4] [[0, 0, 0, 1]] m) :
    ¬ ∃ g, UnionGrid [1, 2, 3, 4] R.wave g ∧
      m.flat = [[0, 0, 0, 1]].map (fun y =>
        photonInt g (curveFn lib.spline R.wave R.resp) (curveFn lib.spline [1, 2, 3, 4] y) /
        photonInt g (curveFn lib.spline R.wave R.resp) abFlux) := by
  obtain ⟨h1, h2, v, hv, hneg⟩ := tophat_project hk hR hm
  rintro ⟨g, hg, hf⟩
  rw [h1] at hg
  have := union_same sorted1234 hg
  subst this
  rw [hv] at hf
  simp only [List.map_cons, List.map_nil, List.cons.injEq, and_true] at hf
  obtain ⟨a1, a2, a3, a4⟩ := knots1234 hk 1 1 1 1
  obtain ⟨b1, b2, b3, b4⟩ := knots1234 hk 0 0 0 1
  simp only [h1, h2, photonInt_1234, a1, a2, a3, a4, b1, b2, b3, b4, abFlux] at hf
  norm_num at hf
  rw [hf] at hneg
  norm_num at hneg

/-- The witness exists. -/
example : ∃ R m, mkResponse demoLib [1, 2, 3, 4] [1, 1, 1, 1] = .ok R ∧
    Projects demoLib R.toCurve [1, 2, 3, 4] [[0, 0, 0, 1]] m := by
  obtain ⟨R, hR⟩ := demo_response (wave := [1, 2, 3, 4]) (resp := [1, 1, 1, 1]) (by norm_num) (by simp) rfl
    ⟨1, by simp, by norm_num⟩
  obtain ⟨m, hm⟩ := projects_exists demoLib R.toCurve [1, 2, 3, 4] [0, 0, 0, 1] sorted1234 (by simp) rfl
  exact ⟨R, m, hR, hm⟩

/-! ## C23, C24 -/

theorem photonInt_nonneg {g : List ℝ} (hg : g.Pairwise (· < ·)) {r f : ℝ → ℝ} (hw : ∀ w ∈ g, 0 ≤ w)
    (hr : ∀ w ∈ g, 0 ≤ r w) (hf : ∀ w ∈ g, 0 ≤ f w) : 0 ≤ photonInt g r f := by
  refine trapRule_nonneg _ _ (hg.imp le_of_lt) ?_
  intro v hv
  simp only [List.mem_map] at hv
  obtain ⟨w, hwg, rfl⟩ := hv
  exact mul_nonneg (mul_nonneg (hw w hwg) (hr w hwg)) (hf w hwg)

theorem abFlux_pos {w : ℝ} (hw : 0 < w) : 0 < abFlux w := by
  unfold abFlux; positivity

theorem photonInt_ab_pos {g : List ℝ} (hg : g.Pairwise (· < ·)) (h2 : 2 ≤ g.length) {r : ℝ → ℝ} (hw : ∀ w ∈ g, 0 < w)
    (hr : ∀ w ∈ g, 0 ≤ r w) (hp : ∃ w ∈ g, 0 < r w) : 0 < photonInt g r abFlux := by
  refine trapRule_pos _ _ hg (by simp) ?_ (by simpa using h2) ?_
  · intro v hv
    simp only [List.mem_map] at hv
    obtain ⟨w, hwg, rfl⟩ := hv
    exact mul_nonneg (mul_nonneg (hw w hwg).le (hr w hwg)) (abFlux_pos (hw w hwg)).le
  · obtain ⟨w, hwg, hrw⟩ := hp
    exact ⟨_, List.mem_map_of_mem hwg, mul_pos (mul_pos (hw w hwg) hrw) (abFlux_pos (hw w hwg))⟩

theorem union_two {sw rw g : List ℝ} (h : UnionGrid sw rw g) (hr : rw.Pairwise (· < ·)) (h4 : 4 ≤ rw.length) :
    2 ≤ g.length := by
  have : rw.length ≤ g.length := by
    have hsub : rw ⊆ g := h.band
    exact (List.Nodup.subperm (hr.imp (fun h => h.ne)) hsub).length_le
  omega

/-- C23: a spectrum equal to the AB reference at the spectrum's and the band's sample wavelengths projects to
exactly 1, for positive wavelengths and a response that is nonnegative, not identically zero, and zero at
the ends of the band or covered by the spectrum there. -/
theorem C23_ab_is_one (lib : Lib ℝ) (hk : KnotExact lib) (wave resp : List ℝ) (R : Resp ℝ)
    (hR : mkResponse lib wave resp = .ok R) (sw : List ℝ) (hs : sw.Pairwise (· < ·)) (y : List ℝ) (m : NDA ℝ)
    (hm : Projects lib R.toCurve sw [y] m) (hov : ∃ w ∈ sw, R.wave.headD 0 ≤ w ∧ w ≤ R.wave.getLastD 0)
    (hends : EndsCovered sw R.wave R.resp) (hpos : ∀ w ∈ R.wave ++ sw, 0 < w)
    (hresp : ∀ w ∈ R.wave ++ sw, 0 ≤ curveFn lib.spline R.wave R.resp w) (hnz : ∃ v ∈ R.resp, 0 < v)
    (hab : ∀ w ∈ R.wave ++ sw, curveFn lib.spline sw y w = abFlux w) : m.flat = [1] := by
  have hc := mkResponse_good hR
  obtain ⟨g, hg, hf⟩ := C18_project_ratio_partial lib hk wave resp R hR sw hs [y] m hm hov hends
  have hgm : ∀ w ∈ g, w ∈ R.wave ++ sw := fun w hw => List.mem_append.mpr (hg.only w hw)
  rw [hf]
  have e : photonInt g (curveFn lib.spline R.wave R.resp) (curveFn lib.spline sw y) =
      photonInt g (curveFn lib.spline R.wave R.resp) abFlux := by
    unfold photonInt
    congr 1
    exact List.map_congr_left (fun w hw => by rw [hab w (hgm w hw)])
  have hp : 0 < photonInt g (curveFn lib.spline R.wave R.resp) abFlux := by
    refine photonInt_ab_pos hg.incr (union_two hg hc.incr hc.four) (fun w hw => hpos w (hgm w hw))
      (fun w hw => hresp w (hgm w hw)) ?_
    obtain ⟨v, hv, hv0⟩ := hnz
    obtain ⟨i, hi⟩ := List.mem_iff_getElem?.mp hv
    obtain ⟨hil, _⟩ := List.getElem?_eq_some_iff.mp hi
    have e1 : R.wave[i]? = some (R.wave[i]'(by have := hc.len; omega)) := List.getElem?_eq_getElem _
    refine ⟨_, hg.band _ (List.mem_of_getElem? e1), ?_⟩
    rw [curve_at_knot hk hc.incr hc.four hc.len e1 hi]; exact hv0
  simp only [List.map_cons, List.map_nil, e, div_self hp.ne']

/-- An AB spectrum sampled at the band's wavelengths meets the hypotheses. -/
example : ∃ R m, mkResponse demoLib [1, 2, 3, 4] [0, 1, 1, 0] = .ok R ∧
    Projects demoLib R.toCurve [1, 2, 3, 4] [[abFlux 1, abFlux 2, abFlux 3, abFlux 4]] m ∧
    EndsCovered [1, 2, 3, 4] R.wave R.resp ∧ (∀ w ∈ R.wave ++ [1, 2, 3, 4], 0 < w) ∧
    (∀ w ∈ R.wave ++ [1, 2, 3, 4], 0 ≤ curveFn demoLib.spline R.wave R.resp w) ∧ (∃ v ∈ R.resp, 0 < v) ∧
    (∀ w ∈ R.wave ++ [1, 2, 3, 4],
      curveFn demoLib.spline [1, 2, 3, 4] [abFlux 1, abFlux 2, abFlux 3, abFlux 4] w = abFlux w) := by
  obtain ⟨R, hR⟩ := demo_response (wave := [1, 2, 3, 4]) (resp := [0, 1, 1, 0]) (by norm_num) (by simp) rfl
    ⟨1, by simp, by norm_num⟩
  obtain ⟨m, hm⟩ := projects_exists demoLib R.toCurve [1, 2, 3, 4] [abFlux 1, abFlux 2, abFlux 3, abFlux 4] sorted1234
    (by simp) rfl
  obtain ⟨h1, h2⟩ := mkResponse_sorted (sorted1234.imp le_of_lt) (by rfl) hR
  obtain ⟨a1, a2, a3, a4⟩ := knots1234 demo_knot 0 1 1 0
  obtain ⟨b1, b2, b3, b4⟩ := knots1234 demo_knot (abFlux 1) (abFlux 2) (abFlux 3) (abFlux 4)
  refine ⟨R, m, hR, hm, ?_, ?_, ?_, ?_, ?_⟩ <;> simp only [h1, h2]
  · exact ⟨Or.inl rfl, Or.inl rfl⟩
  · simp
  · simp [a1, a2, a3, a4]
  · exact ⟨1, by simp, by norm_num⟩
  · simp [b1, b2, b3, b4]

/-- C24: for nonnegative spectra and a nonnegative response that vanishes at its ends (or is covered by the spectrum
there), every value returned is nonnegative. -/
theorem C24_project_nonneg (lib : Lib ℝ) (hk : KnotExact lib) (wave resp : List ℝ) (R : Resp ℝ)
    (hR : mkResponse lib wave resp = .ok R) (sw : List ℝ) (hs : sw.Pairwise (· < ·)) (rows : List (List ℝ)) (m : NDA ℝ)
    (hm : Projects lib R.toCurve sw rows m) (hends : EndsCovered sw R.wave R.resp) (hpos : ∀ w ∈ R.wave ++ sw, 0 < w)
    (hresp : ∀ w ∈ R.wave ++ sw, 0 ≤ curveFn lib.spline R.wave R.resp w)
    (hsed : ∀ y ∈ rows, ∀ w ∈ R.wave ++ sw, 0 ≤ curveFn lib.spline sw y w) : ∀ v ∈ m.flat, 0 ≤ v := by
  by_cases hov : ∃ w ∈ sw, R.wave.headD 0 ≤ w ∧ w ≤ R.wave.getLastD 0
  · obtain ⟨g, hg, hf⟩ := C18_project_ratio_partial lib hk wave resp R hR sw hs rows m hm hov hends
    have hgm : ∀ w ∈ g, w ∈ R.wave ++ sw := fun w hw => List.mem_append.mpr (hg.only w hw)
    intro v hv
    rw [hf, List.mem_map] at hv
    obtain ⟨y, hy, rfl⟩ := hv
    refine div_nonneg ?_ ?_
    · exact photonInt_nonneg hg.incr (fun w hw => (hpos w (hgm w hw)).le) (fun w hw => hresp w (hgm w hw))
        (fun w hw => hsed y hy w (hgm w hw))
    · exact photonInt_nonneg hg.incr (fun w hw => (hpos w (hgm w hw)).le) (fun w hw => hresp w (hgm w hw))
        (fun w hw => (abFlux_pos (hpos w (hgm w hw))).le)
  · obtain ⟨rfl, _, _⟩ := projects_eq hs hm
    rw [projectWith_none ((projGrid_none _ _).mpr hov)]
    simp [NDA.flat]

/-- The same band with a spectrum that is not flat in AB magnitudes meets the hypotheses of C24. -/
example : ∃ R m, mkResponse demoLib [1, 2, 3, 4] [0, 1, 1, 0] = .ok R ∧
    Projects demoLib R.toCurve [1, 2, 3, 4] [[3, 0, 5, 1]] m ∧
    EndsCovered [1, 2, 3, 4] R.wave R.resp ∧ (∀ w ∈ R.wave ++ [1, 2, 3, 4], 0 < w) ∧
    (∀ w ∈ R.wave ++ [1, 2, 3, 4], 0 ≤ curveFn demoLib.spline R.wave R.resp w) ∧
    (∀ y ∈ [[3, 0, 5, 1]], ∀ w ∈ R.wave ++ [1, 2, 3, 4], 0 ≤ curveFn demoLib.spline [1, 2, 3, 4] y w) := by
  obtain ⟨R, hR⟩ := demo_response (wave := [1, 2, 3, 4]) (resp := [0, 1, 1, 0]) (by norm_num) (by simp) rfl
    ⟨1, by simp, by norm_num⟩
  obtain ⟨m, hm⟩ := projects_exists demoLib R.toCurve [1, 2, 3, 4] [3, 0, 5, 1] sorted1234 (by simp) rfl
  obtain ⟨h1, h2⟩ := mkResponse_sorted (sorted1234.imp le_of_lt) (by rfl) hR
  obtain ⟨a1, a2, a3, a4⟩ := knots1234 demo_knot 0 1 1 0
  obtain ⟨b1, b2, b3, b4⟩ := knots1234 demo_knot 3 0 5 1
  refine ⟨R, m, hR, hm, ?_, ?_, ?_, ?_⟩ <;> simp only [h1, h2]
  · exact ⟨Or.inl rfl, Or.inl rfl⟩
  · simp
  · simp [a1, a2, a3, a4]
  · simp [b1, b2, b3, b4]

/-- The conditions of C24 on the ends cannot be dropped: nonnegative spectrum, nonnegative response, negative
maggies. -/
theorem C24_ends_needed (lib : Lib ℝ) (hk : KnotExact lib) (R : Resp ℝ)
    (hR : mkResponse lib [1, 2, 3, 4] [1, 1, 1, 1] = .ok R) (m : NDA ℝ)
    (hm : Projects lib R.toCurve [1, 2, 3, 4] [[0, 0, 0, 1]] m) :
    (∀ w ∈ R.wave ++ [1, 2, 3, 4], 0 ≤ curveFn lib.spline R.wave R.resp w ∧
      0 ≤ curveFn lib.spline [1, 2, 3, 4] [0, 0, 0, 1] w) ∧ ∃ v ∈ m.flat, v < 0 := by
  obtain ⟨h1, h2, v, hv, hneg⟩ := tophat_project hk hR hm
  refine ⟨?_, v, by rw [hv]; simp, hneg⟩
  obtain ⟨a1, a2, a3, a4⟩ := knots1234 hk 1 1 1 1
  obtain ⟨b1, b2, b3, b4⟩ := knots1234 hk 0 0 0 1
  rw [h1, h2]
  simp [a1, a2, a3, a4, b1, b2, b3, b4]

/-! ## C25, C26 -/

/-- C25 (partial): `project` returns exactly 0 when the spectrum has no sample inside the band; otherwise it
returns the integral ratio of `C18_project_exact`, one value per spectrum.  Missing: the second half of the
property, which is false (`C25_false`). -/
theorem C25_no_overlap_zero_partial (lib : Lib ℝ) (wave resp : List ℝ) (R : Resp ℝ)
    (hR : mkResponse lib wave resp = .ok R) (sw : List ℝ) (hs : sw.Pairwise (· < ·)) (rows : List (List ℝ)) (m : NDA ℝ)
    (hm : Projects lib R.toCurve sw rows m) :
    ((¬ ∃ w ∈ sw, R.wave.headD 0 ≤ w ∧ w ≤ R.wave.getLastD 0) → m = .scalar 0) ∧
    ((∃ w ∈ sw, R.wave.headD 0 ≤ w ∧ w ≤ R.wave.getLastD 0) → m.flat.length = rows.length) := by
  refine ⟨fun h => ?_, fun h => ?_⟩
  · obtain ⟨rfl, _, _⟩ := projects_eq hs hm
    exact projectWith_none ((projGrid_none _ _).mpr h)
  · obtain ⟨g, _, hf⟩ := C18_project_exact lib wave resp R hR sw hs rows m hm h
    rw [hf, List.length_map]

/-- C25 fails as stated: a spectrum of constant flux 1 whose wavelength range contains the band projects to 0,
because none of its samples falls inside the band. -/
theorem C25_false (lib : Lib ℝ) (resp : List ℝ) (R : Resp ℝ) (hR : mkResponse lib [4, 5, 6, 7] resp = .ok R) (m : NDA ℝ)
    (hm : Projects lib R.toCurve [1, 2, 10, 11] [[1, 1, 1, 1]] m) :
    (∃ w ∈ ([1, 2, 10, 11] : List ℝ), w < R.wave.headD 0) ∧ (∃ w ∈ ([1, 2, 10, 11] : List ℝ), R.wave.getLastD 0 < w) ∧
      m = .scalar 0 := by
  obtain ⟨_, h1, _, _⟩ := mkResponse_ok hR
  have hs : ([4, 5, 6, 7] : List ℝ).Pairwise (· ≤ ·) := by norm_num
  rw [argsort_of_sorted _ hs, gather_range _ _ rfl] at h1
  refine ⟨⟨1, by simp, by rw [h1]; norm_num⟩, ⟨11, by simp, by rw [h1]; norm_num⟩, ?_⟩
  refine (C25_no_overlap_zero_partial lib _ _ R hR _ (by norm_num) _ m hm).1 ?_
  rw [h1]
  norm_num

/-- The witness exists, with a positive response. -/
example : ∃ R m, mkResponse demoLib [4, 5, 6, 7] [1, 1, 1, 1] = .ok R ∧
    Projects demoLib R.toCurve [1, 2, 10, 11] [[1, 1, 1, 1]] m := by
  obtain ⟨R, hR⟩ := demo_response (wave := [4, 5, 6, 7]) (resp := [1, 1, 1, 1]) (by norm_num) (by simp) rfl
    ⟨1, by simp, by norm_num⟩
  obtain ⟨m, hm⟩ := projects_exists demoLib R.toCurve [1, 2, 10, 11] [1, 1, 1, 1] (by norm_num) (by simp) rfl
  exact ⟨R, m, hR, hm⟩

/-- C26: the grid is strictly increasing and consists exactly of the band's wavelengths, the spectrum's
wavelengths inside the band, the spectrum's closest wavelength below the band and its closest one above. -/
theorem C26_grid_complete (sw rw g : List ℝ) (hs : sw.Pairwise (· ≤ ·)) (hg : projGrid sw rw = some g) :
    g.Pairwise (· < ·) ∧ ∀ w, w ∈ g ↔ w ∈ rw ∨ (w ∈ sw ∧ rw.headD 0 ≤ w ∧ w ≤ rw.getLastD 0) ∨
      IsGreatest {v | v ∈ sw ∧ v < rw.headD 0} w ∨ IsLeast {v | v ∈ sw ∧ rw.getLastD 0 < v} w :=
  ⟨(projGrid_union hg).incr, projGrid_mem hs hg⟩

/-- The grid exists exactly when the spectrum has a sample in the band. -/
theorem C26_grid_exists (sw rw : List ℝ) :
    (∃ g, projGrid sw rw = some g) ↔ ∃ w ∈ sw, rw.headD 0 ≤ w ∧ w ≤ rw.getLastD 0 := by
  rw [← Option.isSome_iff_exists, Option.isSome_iff_ne_none, ne_eq, projGrid_none, not_not]

example : ∃ g, projGrid ([1, 2, 3, 6, 7] : List ℝ) [2, 3, 4, 5] = some g := by
  rw [C26_grid_exists]; exact ⟨2, by simp, by norm_num⟩

/-! ## C27 -/

/-- C27: for a response with a positive maximum the half-maximum limits are ordered and inside the band, the
width is their difference and is nonnegative, and each limit is an end of the curve or a crossing of half the maximum. -/
theorem C27_fwhm (lib : Lib ℝ) (hk : KnotExact lib) (hb : BrentqOK lib) (wave resp : List ℝ) (R : Resp ℝ)
    (hR : mkResponse lib wave resp = .ok R) (mx : ℝ) (hmx : MaxOf R.resp mx) (hpos : 0 < mx) :
    R.wave.headD 0 ≤ R.fwhmLow ∧ R.fwhmLow ≤ R.fwhmHigh ∧ R.fwhmHigh ≤ R.wave.getLastD 0 ∧
    R.fwhm = R.fwhmHigh - R.fwhmLow ∧ 0 ≤ R.fwhm ∧
    (R.fwhmLow = R.wave.headD 0 ∨
      CrossesHalf (curveFn lib.spline R.wave R.resp) mx (R.wave.headD 0) (R.wave.getLastD 0) R.fwhmLow) ∧
    (R.fwhmHigh = R.wave.getLastD 0 ∨
      CrossesHalf (curveFn lib.spline R.wave R.resp) mx (R.wave.headD 0) (R.wave.getLastD 0) R.fwhmHigh) := by
  obtain ⟨_, h1, _, h3⟩ := mkResponse_ok hR
  obtain ⟨_, _, hc, _, _, _, hf, hw⟩ := respSetup_ok (by rw [h1]; exact gather_sorted wave) h3
  obtain ⟨lo, hi, h4, h5, h6, h7, h8, h9⟩ := fwhmLimits_ok hk hb hc hmx hpos
  rw [h4] at hf
  simp only [Except.ok.injEq, Prod.mk.injEq] at hf
  obtain ⟨rfl, rfl⟩ := hf
  exact ⟨h5, h6, h7, hw, by rw [hw]; linarith, h8, h9⟩

example : ∃ R, mkResponse demoLib [1, 2, 3, 4] [0, 1, 1, 0] = .ok R ∧ MaxOf R.resp 1 := by
  obtain ⟨R, hR⟩ := demo_response (wave := [1, 2, 3, 4]) (resp := [0, 1, 1, 0]) (by norm_num) (by simp) rfl
    ⟨1, by simp, by norm_num⟩
  obtain ⟨_, h2⟩ := mkResponse_sorted (sorted1234.imp le_of_lt) (by rfl) hR
  exact ⟨R, hR, by rw [h2]; exact ⟨by simp, by simp⟩⟩

end KC
