import Verif.Props.Response2
import Verif.Props.Sed

/-! Responses: order of the samples, normalisation, units; spectra given as an SED or as arrays. -/

namespace KC
open Spec

/-! ### order of the samples -/

theorem map_pair_range (w r : List ℝ) (h : r.length = w.length) :
    (List.range w.length).map (fun i => (ent w i, ent r i)) = List.zip w r := by
  apply List.ext_getElem
  · simp [h]
  · intro i h1 h2
    simp only [List.length_map, List.length_range] at h1
    simp only [List.getElem_map, List.getElem_range, List.getElem_zip]
    rw [ent, ent, List.getD, List.getD, List.getElem?_eq_getElem h1, List.getElem?_eq_getElem (by omega)]
    rfl

theorem sorted_pairs (w r : List ℝ) (h : r.length = w.length) :
    ((argsort w).map (fun i => (ent w i, ent r i))).Perm (List.zip w r) := by
  rw [← map_pair_range w r h]
  exact (argsort_perm w).map _

/-- C119: `Response(wave, response)` depends on the set of samples (wavelength, response) only, not on the order in which they are listed:
both raise the same exception or both give the same object. -/
theorem C119_sample_order (lib : Lib ℝ) (wave resp wave' resp' : List ℝ) (hl : resp.length = wave.length) (hl' : resp'.length = wave'.length)
    (hd : wave.Nodup) (hp : (List.zip wave resp).Perm (List.zip wave' resp')) :
    mkResponse lib wave resp = mkResponse lib wave' resp' := by
  have hw : wave.Perm wave' := by
    have := hp.map Prod.fst
    rwa [List.map_fst_zip (by omega), List.map_fst_zip (by omega)] at this
  have key : (argsort wave).map (fun i => (ent wave i, ent resp i)) = (argsort wave').map (fun i => (ent wave' i, ent resp' i)) := by
    have strict : ∀ w r : List ℝ, w.Nodup →
        ((argsort w).map (fun i => (ent w i, ent r i))).Pairwise (fun a b => a.1 < b.1) := by
      intro w r hw
      rw [List.pairwise_map]
      have h1 := argsort_pairwise w
      have h2 : (argsort w).Pairwise (fun i j => ent w i ≠ ent w j) := by
        have : (gather w (argsort w)).Nodup := (gather_perm w).nodup_iff.mpr hw
        rw [gather_eq_map, List.Nodup, List.pairwise_map] at this
        exact this
      exact (h1.and h2).imp (fun h => lt_of_le_of_ne h.1 h.2)
    refine List.Perm.eq_of_pairwise (le := fun a b : ℝ × ℝ => a.1 < b.1) ?_ (strict _ _ hd) (strict _ _ (hw.nodup_iff.mp hd))
      (((sorted_pairs wave resp hl).trans hp).trans (sorted_pairs wave' resp' hl').symm)
    intro a b _ _ h1 h2
    exact absurd h1 (not_lt.mpr h2.le)
  have e1 := congrArg (List.map Prod.fst) key
  have e2 := congrArg (List.map Prod.snd) key
  simp only [List.map_map, Function.comp_def] at e1 e2
  unfold mkResponse sortCurve
  rw [if_pos (by omega), if_pos (by omega), gather_eq_map, gather_eq_map, gather_eq_map, gather_eq_map, e1]
  rw [e2]

example : ∃ R, mkResponse demoLib [1, 2, 3, 4] [0, 1, 1, 0] = .ok R ∧ mkResponse demoLib [3, 1, 4, 2] [1, 0, 0, 1] = .ok R := by
  obtain ⟨R, hR⟩ := demo_response (wave := [1, 2, 3, 4]) (resp := [0, 1, 1, 0]) (by norm_num) (by simp) rfl ⟨1, by simp, by norm_num⟩
  refine ⟨R, hR, ?_⟩
  rw [← hR]
  refine C119_sample_order _ _ _ _ _ rfl rfl (by norm_num) ?_
  simp only [List.zip_cons_cons, List.zip_nil_right]
  refine (List.perm_iff_count).mpr ?_
  intro a
  simp only [List.count_cons, List.count_nil]
  omega

/-! ### normalisation -/

theorem npMax_scale (l : List ℝ) (hl : l ≠ []) (k : ℝ) (hk : 0 < k) : npMax (l.map (fun v => k * v)) = k * npMax l := by
  have h1 := npMax_maxOf l hl
  refine maxOf_unique (npMax_maxOf _ (by simpa using hl)) ⟨List.mem_map.mpr ⟨_, h1.1, rfl⟩, ?_⟩
  intro v hv
  obtain ⟨u, hu, rfl⟩ := List.mem_map.mp hv
  exact mul_le_mul_of_nonneg_left (h1.2 u hu) hk.le

/-- the curve with all responses multiplied by `k` -/
def scaleCurve (c : Curve ℝ) (k : ℝ) : Curve ℝ :=
  ⟨c.wave, c.resp.map (fun v => k * v), ⟨c.wave, [c.resp.map (fun v => k * v)]⟩⟩

theorem scaleCurve_at {lib : Lib ℝ} (hL : SplineLinear lib) {c : Curve ℝ} (hc : GoodCurve c) (k q : ℝ) :
    (scaleCurve c k).at lib q = k * c.at lib q := by
  rw [hc.at_eq]
  simp only [scaleCurve, Curve.at, List.headD_cons, interpRow_real]
  exact curveFn_smul hL _ _ _ hc.len _

theorem scaleCurve_project {lib : Lib ℝ} (hL : SplineLinear lib) {c : Curve ℝ} (hc : GoodCurve c) (k : ℝ) (hk : k ≠ 0) (s : Sed ℝ) :
    projectSed lib (scaleCurve c k) s = projectSed lib c s := by
  have hw : (scaleCurve c k).wave = c.wave := rfl
  unfold projectSed
  cases s.interp with
  | none => simp only [hw]
  | some itp =>
    simp only [projectWith, hw]
    cases projGrid s.wave c.wave with
    | none => rfl
    | some g =>
      simp only [Interp.eval]
      have e : g.map ((scaleCurve c k).at lib) = g.map (fun w => k * c.at lib w) := List.map_congr_left (fun w _ => scaleCurve_at hL hc k w)
      rw [e, projOnGrid_resp _ _ _ _ _ hk]

theorem scaleCurve_fwhm {lib : Lib ℝ} (hL : SplineLinear lib) {c : Curve ℝ} (hc : GoodCurve c) (k : ℝ) (hk : 0 < k) :
    fwhmLimits lib (scaleCurve c k) = fwhmLimits lib c := by
  have hw : (scaleCurve c k).wave = c.wave := rfl
  have hf : (scaleCurve c k).at lib = fun q => k * c.at lib q := funext (scaleCurve_at hL hc k)
  have hne : c.wave.map (c.at lib) ≠ [] := by
    have := hc.four
    intro h
    rw [List.map_eq_nil_iff] at h
    rw [h] at this
    simp at this
  have hm : npMax (c.wave.map (fun q => k * c.at lib q)) = k * npMax (c.wave.map (c.at lib)) := by
    rw [← npMax_scale _ hne _ hk, List.map_map]; rfl
  have hn : (c.wave.map (fun q => k * c.at lib q)).map (fun v => v / (k * npMax (c.wave.map (c.at lib)))) =
      (c.wave.map (c.at lib)).map (fun v => v / npMax (c.wave.map (c.at lib))) := by
    rw [List.map_map, List.map_map]
    apply List.map_congr_left
    intro q _
    simp only [Function.comp_apply]
    rw [mul_div_mul_left _ _ hk.ne']
  have hh : (fun x => k * c.at lib x / (k * npMax (c.wave.map (c.at lib))) - lit 0.5) =
      (fun x => c.at lib x / npMax (c.wave.map (c.at lib)) - lit 0.5) := by
    funext x
    rw [mul_div_mul_left _ _ hk.ne']
  unfold fwhmLimits
  simp only [hw, hf, hm, hn, hh]

/-- C120: multiplying all responses by a positive number changes no attribute of the response other than the response values: the effective wavelength,
the solar magnitude, the Vega to AB offset and the half-maximum limits stay the same. -/
theorem C120_normalisation (lib : Lib ℝ) (hL : SplineLinear lib) (wave resp : List ℝ) (k : ℝ) (hk : 0 < k) (R : Resp ℝ)
    (hR : mkResponse lib wave resp = .ok R) :
    ∃ R', mkResponse lib wave (resp.map (fun v => k * v)) = .ok R' ∧ R'.wave = R.wave ∧ R'.resp = R.resp.map (fun v => k * v) ∧
      R'.lambdaEff = R.lambdaEff ∧ R'.solarMag = R.solarMag ∧ R'.vega2ab = R.vega2ab ∧ R'.fwhmLow = R.fwhmLow ∧ R'.fwhmHigh = R.fwhmHigh ∧
      R'.fwhm = R.fwhm := by
  obtain ⟨hl, hw, hr, h3⟩ := mkResponse_ok hR
  obtain ⟨_, _, hg, hle, hs, hv, hf, hfw⟩ := respSetup_ok (by rw [hw]; exact gather_sorted wave) h3
  have hrr : gather (resp.map (fun v => k * v)) (argsort wave) = R.resp.map (fun v => k * v) := by
    rw [hr, gather_map _ _ _ (fun i hi => lt_of_lt_of_le (argsort_lt wave i hi) hl)]
  have hi : mkInterp R.wave [R.resp.map (fun v => k * v)] = .ok ⟨R.wave, [R.resp.map (fun v => k * v)]⟩ :=
    mkInterp_strict _ _ hg.incr hg.four (by simp [hg.len])
  have key : mkResponse lib wave (resp.map (fun v => k * v)) =
      .ok { wave := R.wave, resp := R.resp.map (fun v => k * v), itp := ⟨R.wave, [R.resp.map (fun v => k * v)]⟩,
            lambdaEff := lambdaEffOf R.wave (R.resp.map (fun v => k * v)), solarMag := R.solarMag, vega2ab := R.vega2ab,
            fwhmLow := R.fwhmLow, fwhmHigh := R.fwhmHigh, fwhm := R.fwhm } := by
    have es : solarMagOf lib (scaleCurve R.toCurve k) = .ok R.solarMag := by
      rw [← hs]; unfold solarMagOf; simp only [scaleCurve_project hL hg k hk.ne']
    have ev : vega2abOf lib (scaleCurve R.toCurve k) = .ok R.vega2ab := by
      rw [← hv]; unfold vega2abOf; simp only [scaleCurve_project hL hg k hk.ne']
    have ef : fwhmLimits lib (scaleCurve R.toCurve k) = .ok (R.fwhmLow, R.fwhmHigh) := by
      rw [← hf]; exact scaleCurve_fwhm hL hg k hk
    unfold scaleCurve at es ev ef
    unfold mkResponse sortCurve
    rw [if_pos (by simpa using hl), hrr, ← hw]
    simp only [ok_bind, respSetup, hi, es, ev, ef, pure_py, hfw]
  refine ⟨_, key, rfl, rfl, ?_, rfl, rfl, rfl, rfl, rfl⟩
  exact C20_lambda_eff_scale lib wave resp k hk.ne' R _ hR key

example : ∃ R, mkResponse demoLib [1, 2, 3, 4] [0, 1, 1, 0] = .ok R ∧ SplineLinear demoLib := by
  obtain ⟨R, hR⟩ := demo_response (wave := [1, 2, 3, 4]) (resp := [0, 1, 1, 0]) (by norm_num) (by simp) rfl ⟨1, by simp, by norm_num⟩
  exact ⟨R, hR, demo_linear⟩

/-! ### two ways of giving the spectrum -/

/-- C121: at any redshift reached by any history of `set_redshift` calls, `project(sed=sed)` is `project(wave=sed.wave, flux=sed.flux)`. -/
theorem C121_sed_or_arrays (lib : Lib ℝ) (c : Curve ℝ) (wave : List ℝ) (flux : NDA ℝ) (s : Sed ℝ) (hs : Sed.mk' wave flux true = .ok s)
    (zs : List ℝ) (hz : ∀ z ∈ zs, z ≠ -1) :
    projectSed lib c (shifts s zs) =
      projectArr lib c (shifts s zs).wave (.arr [(shifts s zs).flux.length] (shifts s zs).wave.length (shifts s zs).flux) := by
  obtain ⟨i, h1, h2⟩ := (C39_interp_current_partial wave flux s true hs zs hz).1 rfl
  have e1 : ∀ l : List ℝ, l.map (f32 : ℝ → ℝ) = l := by
    intro l
    conv_rhs => rw [← List.map_id l]
    exact List.map_congr_left (fun _ _ => rfl)
  have e2 : ∀ l : List (List ℝ), l.map (List.map (f32 : ℝ → ℝ)) = l := by
    intro l
    conv_rhs => rw [← List.map_id l]
    exact List.map_congr_left (fun _ _ => e1 _)
  unfold projectSed projectArr
  simp only [h1, NDA.map, e1, e2, ne_eq, not_true_eq_false, if_false, List.length_cons, List.length_nil, lt_self_iff_false, ok_bind, h2, pure_py]

/-- C121 applies to a spectrum that is shifted twice. -/
example : ∃ s, Sed.mk' [1, 2, 3, 4] (.vec [3, 0, 5, (1 : ℝ)]) true = .ok s ∧ ∀ z ∈ [(1 : ℝ), 1 / 2], z ≠ -1 := by
  obtain ⟨s, hs, -⟩ := (C42_vector_flux [1, 2, 3, 4] [3, 0, 5, 1] rfl).2 (by simp) (by norm_num)
  exact ⟨s, hs, by norm_num⟩

/-! ### unit of wavelength -/

theorem trapRule_units (w g : List ℝ) (k : ℝ) (hk : k ≠ 0) (hl : w.length = g.length) :
    trapRule (w.map (fun v => v * k)) (g.map (fun v => v / k)) = trapRule w g := by
  induction w generalizing g with
  | nil => cases g <;> simp [trapRule]
  | cons a w ih =>
    cases g with
    | nil => simp at hl
    | cons b g =>
      cases w with
      | nil => cases g with
        | nil => simp [trapRule]
        | cons _ _ => simp at hl
      | cons a' w =>
        cases g with
        | nil => simp at hl
        | cons b' g =>
          have := ih (b' :: g) (by simpa using hl)
          simp only [List.map_cons, trapRule] at this ⊢
          rw [this]
          congr 1
          field_simp

/-- C122: for a nonnegative curve that vanishes at both ends, the effective wavelength is in the unit of the wavelengths: if all wavelengths are
multiplied by `k`, so is the effective wavelength. -/
theorem C122_units (lib : Lib ℝ) (hK : KnotExact lib) (wave resp : List ℝ) (k : ℝ) (hk : 0 < k) (R R' : Resp ℝ)
    (hR : mkResponse lib wave resp = .ok R) (hR' : mkResponse lib (wave.map (fun w => w * k)) resp = .ok R') (hpos : ∀ w ∈ wave, 0 < w)
    (hl : resp.length = wave.length) (hnn : ∀ v ∈ resp, 0 ≤ v) (h0 : R.resp.headD 0 = 0) (h1 : R.resp.getLastD 0 = 0) :
    R'.lambdaEff = R.lambdaEff * k := by
  obtain ⟨_, hw, hr, h3⟩ := mkResponse_ok hR
  obtain ⟨_, hw', hr', h3'⟩ := mkResponse_ok hR'
  obtain ⟨_, _, hc, hle, _⟩ := respSetup_ok (by rw [hw]; exact gather_sorted wave) h3
  obtain ⟨_, _, hc', hle', _⟩ := respSetup_ok (by rw [hw']; exact gather_sorted _) h3'
  have ek : ∀ i, ent (wave.map (fun w => w * k)) i = ent wave i * k := by
    intro i
    simp only [ent, List.getD, List.getElem?_map]
    cases wave[i]? <;> simp
  have ea : argsort (wave.map (fun w => w * k)) = argsort wave := by
    unfold argsort
    rw [List.length_map]
    congr 1
    funext i j
    rw [ek, ek, Bool.eq_iff_iff, real_leb, real_leb, decide_eq_true_iff, decide_eq_true_iff]
    exact mul_le_mul_iff_left₀ hk
  have ew : R'.wave = R.wave.map (fun w => w * k) := by
    rw [hw', hw, ea, gather_eq_map, gather_eq_map, List.map_map]
    exact List.map_congr_left (fun i _ => ek i)
  have er : R'.resp = R.resp := by rw [hr', hr, ea]
  have hpos' : ∀ w ∈ R.wave, 0 < w := by
    intro w hw'; rw [hw] at hw'
    exact hpos w (gather_subset (argsort_lt wave) hw')
  have hnn' : ∀ v ∈ R.resp, 0 ≤ v := by
    intro v hv; rw [hr] at hv
    exact hnn v (gather_subset (by rw [hl]; exact argsort_lt wave) hv)
  obtain ⟨v, hv, hv0⟩ := mkResponse_pos hK hR hnn'
  have hne := ne_nil_of_four hc.four
  rw [hle, hle', ew, er, lambdaEff_ends _ _ hc.len hne h0 h1,
    lambdaEff_ends _ _ (by rw [List.length_map]; exact hc.len) (by simpa using hne) h0 h1]
  set w := R.wave
  set r := R.resp
  have hlen : r.length = w.length := hc.len
  set h := List.zipWith (fun w r : ℝ => r / w) w r with hh
  set g := List.zipWith (fun w r : ℝ => Real.log w * r / w) w r with hg
  have hhl : h.length = w.length := by simp [hh, hlen]
  have hgl : g.length = w.length := by simp [hg, hlen]
  have hw4 : 4 ≤ w.length := hc.four
  have hD : 0 < trapRule w h := by
    refine trapRule_pos w h hc.incr hhl.symm ?_ (by omega) ?_
    · intro u hu
      obtain ⟨i, hi, rfl⟩ := List.mem_iff_getElem.mp hu
      simp only [hh, List.getElem_zipWith]
      exact div_nonneg (hnn' _ (List.getElem_mem _)) (hpos' _ (List.getElem_mem _)).le
    · obtain ⟨i, hi, hiv⟩ := List.mem_iff_getElem.mp hv
      refine ⟨h[i]'(by omega), List.getElem_mem _, ?_⟩
      simp only [hh, List.getElem_zipWith, hiv]
      exact div_pos hv0 (hpos' _ (List.getElem_mem _))
  have e1 : List.zipWith (fun w r : ℝ => r / w) (w.map (fun w => w * k)) r = h.map (fun v => v / k) := by
    apply List.ext_getElem
    · simp [hh]
    · intro i _ _
      simp only [hh, List.getElem_zipWith, List.getElem_map, div_div]
  have e2 : List.zipWith (fun w r : ℝ => Real.log w * r / w) (w.map (fun w => w * k)) r =
      (List.zipWith (fun u v => u + v) g (h.map (fun v => Real.log k * v))).map (fun v => v / k) := by
    apply List.ext_getElem
    · simp [hh, hg]
    · intro i q1 q2
      simp only [List.length_zipWith, List.length_map] at q1
      have hwi : 0 < w[i]'(by omega) := hpos' _ (List.getElem_mem _)
      simp only [hh, hg, List.getElem_zipWith, List.getElem_map]
      rw [Real.log_mul hwi.ne' hk.ne']
      field_simp
  rw [e1, e2, trapRule_units _ _ _ hk.ne' hhl.symm, trapRule_units _ _ _ hk.ne' (by simp [hhl, hgl]), trapRule_add _ _ _ (by simp [hhl, hgl]), trapRule_smul,
    add_div, mul_div_assoc, div_self hD.ne', mul_one, Real.exp_add, Real.exp_log hk]

example : ∃ R R', mkResponse demoLib [1, 2, 3, 4] [0, 1, 1, 0] = .ok R ∧
    mkResponse demoLib ([1, 2, 3, 4].map (fun w : ℝ => w * 10)) [0, 1, 1, 0] = .ok R' ∧ R.resp.headD 0 = 0 ∧ R.resp.getLastD 0 = 0 := by
  obtain ⟨R, hR⟩ := demo_response (wave := [1, 2, 3, 4]) (resp := [0, 1, 1, 0]) (by norm_num) (by simp) rfl ⟨1, by simp, by norm_num⟩
  obtain ⟨R', hR'⟩ := demo_response (wave := [1, 2, 3, 4].map (fun w : ℝ => w * 10)) (resp := [0, 1, 1, 0]) (by norm_num) (by simp) rfl
    ⟨1, by simp, by norm_num⟩
  obtain ⟨_, h2⟩ := mkResponse_sorted (sorted1234.imp le_of_lt) (by rfl) hR
  exact ⟨R, R', hR, hR', by rw [h2]; rfl, by rw [h2]; rfl⟩

end KC
