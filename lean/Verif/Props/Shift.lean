import Verif.Props.Response2
import Verif.Lemmas.Sed

/-!
# Redshifting a spectrum is blueshifting the band (C28)
-/

namespace KC
open Spec

theorem keepMask_scale (sw rw : List ℝ) (k : ℝ) (hk : 0 < k) (hne : rw ≠ []) :
    keepMask (sw.map (fun w => w * k)) (rw.map (fun w => w * k)) = keepMask sw rw := by
  unfold keepMask
  rw [List.map_map]
  apply List.map_congr_left
  intro w _
  simp only [real_lit, Rat.cast_zero]
  rw [map_headD _ _ hne, map_getLastD _ _ hne]
  simp only [Function.comp_apply, geb, real_leb, mul_le_mul_iff_left₀ hk]

theorem maskSel_map (mask : List Bool) (xs : List ℝ) (f : ℝ → ℝ) : maskSel mask (xs.map f) = (maskSel mask xs).map f := by
  simp only [maskSel, List.zip_map_right, List.filter_map, List.map_map]
  rfl

theorem projGrid_scale (sw rw : List ℝ) (k : ℝ) (hk : 0 < k) (hne : rw ≠ []) :
    projGrid (sw.map (fun w => w * k)) (rw.map (fun w => w * k)) =
      (projGrid sw rw).map (List.map (fun w => w * k)) := by
  unfold projGrid
  simp only [keepMask_scale sw rw k hk hne, List.length_map]
  cases (maskIdx (keepMask sw rw)).head? with
  | none => rfl
  | some first =>
    cases (maskIdx (keepMask sw rw)).getLast? with
    | none => rfl
    | some last =>
      simp only [Option.map_some, maskSel_map, ← List.map_append, npUnique_scale _ _ hk]

theorem curveFn_units {lib : Lib ℝ} (hu : SplineUnits lib) (x y : List ℝ) (k q : ℝ) (hk : 0 < k) (hne : x ≠ []) :
    curveFn lib.spline (x.map (fun v => v * k)) y (q * k) = curveFn lib.spline x y q := by
  unfold curveFn
  rw [map_headD _ _ hne, map_getLastD _ _ hne, hu x y k q hk]
  simp only [mul_lt_mul_iff_left₀ hk]

theorem argsort_scale (xs : List ℝ) (k : ℝ) (hk : 0 < k) : argsort (xs.map (fun v => v * k)) = argsort xs := by
  unfold argsort
  rw [List.length_map]
  congr 1
  funext i j
  have e : ∀ i, ent (xs.map (fun v => v * k)) i = ent xs i * k := by
    intro i
    simp only [ent, List.getD_eq_getElem?_getD, List.getElem?_map, real_lit]
    cases xs[i]? <;> simp
  rw [e, e]
  simp only [real_leb, mul_le_mul_iff_left₀ hk]

/-- The code's integral on a stretched grid. -/
theorem bandIntegral_stretch (g : List ℝ) (f r f' r' : ℝ → ℝ) (k a : ℝ)
    (hf : ∀ w, f' (w * k) * r' (w * k) * (w * k) = a * (f w * r w * w)) :
    bandIntegral (g.map (fun w => w * k)) ((g.map (fun w => w * k)).map f') ((g.map (fun w => w * k)).map r') =
      a * k * bandIntegral g (g.map f) (g.map r) := by
  by_cases hg : g = []
  · subst hg; simp [bandIntegral]
  · have hg' : g.map (fun w => w * k) ≠ [] := by simpa using hg
    rw [bandIntegral_eq _ hg', bandIntegral_eq g hg, map_headD _ _ hg, map_getLastD _ _ hg]
    have e : photonInt (g.map (fun w => w * k)) r' f' = a * k * photonInt g r f := by
      unfold photonInt
      rw [trapRule_scale_x, mul_comm a k, mul_assoc, ← trapRule_smul a, List.map_map, List.map_map]
      congr 2
      apply List.map_congr_left
      intro w _
      have := hf w
      simp only [Function.comp_apply]
      linear_combination this
    rw [e]
    have h1 := hf (g.headD 0)
    have h2 := hf (g.getLastD 0)
    linear_combination g.getLastD 0 * k * h2 - g.headD 0 * k * h1

/-- The projection of a redshifted spectrum. -/
theorem projectWith_shift {lib : Lib ℝ} (hu : SplineUnits lib) (hlin : SplineLinear lib) {c c' : Curve ℝ}
    (hc : GoodCurve c) (hc' : GoodCurve c') {k : ℝ} (hk : 0 < k) (hw : c.wave = c'.wave.map (fun w => w * k))
    (hr : c.resp = c'.resp) {sw : List ℝ} (hsw : sw ≠ []) {rows : List (List ℝ)} (hrows : ∀ y ∈ rows, y.length = sw.length) :
    projectWith lib c (sw.map (fun w => w * k)) ⟨sw.map (fun w => w * k), rows.map (List.map (fun v => v / k))⟩ =
      (projectWith lib c' sw ⟨sw, rows⟩).map (fun v => k * v) := by
  have hne' := ne_nil_of_four hc'.four
  unfold projectWith
  rw [hw, projGrid_scale sw c'.wave k hk hne']
  cases projGrid sw c'.wave with
  | none => simp [NDA.map]
  | some g =>
    simp only [Option.map_some]
    have er : ∀ w, c.at lib (w * k) = c'.at lib w := by
      intro w
      rw [hc.at_eq, hc'.at_eq, hw, hr, curveFn_units hu _ _ _ _ hk hne']
    have ef : ∀ y ∈ rows, ∀ w, interpRow lib (sw.map (fun w => w * k)) (y.map (fun v => v / k)) (w * k) =
        interpRow lib sw y w / k := by
      intro y hy w
      rw [interpRow_real, interpRow_real, curveFn_units hu _ _ _ _ hk hsw]
      have : y.map (fun v => v / k) = y.map (fun v => k⁻¹ * v) := List.map_congr_left (fun v _ => by ring)
      rw [this, curveFn_smul hlin _ _ _ (hrows y hy)]
      ring
    have hkne := hk.ne'
    have hden : bandIntegral (g.map (fun w => w * k)) ((g.map (fun w => w * k)).map sedAbAt)
        ((g.map (fun w => w * k)).map (c.at lib)) = bandIntegral g (g.map sedAbAt) (g.map (c'.at lib)) := by
      rw [bandIntegral_stretch g sedAbAt (c'.at lib) sedAbAt (c.at lib) k k⁻¹]
      · rw [inv_mul_cancel₀ hkne, one_mul]
      · intro w
        rw [er, sedAbAt_real, sedAbAt_real]
        unfold abFlux
        by_cases hw0 : w = 0
        · subst hw0; simp
        · field_simp
    have hnum : ∀ y ∈ rows, bandIntegral (g.map (fun w => w * k))
        ((g.map (fun w => w * k)).map (interpRow lib (sw.map (fun w => w * k)) (y.map (fun v => v / k))))
        ((g.map (fun w => w * k)).map (c.at lib)) = k * bandIntegral g (g.map (interpRow lib sw y)) (g.map (c'.at lib)) := by
      intro y hy
      rw [bandIntegral_stretch g (interpRow lib sw y) (c'.at lib) _ (c.at lib) k 1, one_mul]
      intro w
      rw [er, ef y hy]
      field_simp
    simp only [List.map_map] at hden
    simp only [projOnGrid, Interp.eval, List.map_map, hden]
    match rows, hnum with
    | [], _ => simp [NDA.map, NDA.vec]
    | [y], hnum =>
      have := hnum y (by simp)
      simp only [List.map_map] at this
      simp only [List.map_cons, List.map_nil, Function.comp_apply, NDA.map, List.map_map, this, mul_div_assoc]
    | y1 :: y2 :: l, hnum =>
      simp only [List.map_cons, NDA.map, NDA.vec, List.map_map, Function.comp_apply, List.length_cons, List.length_map,
        List.map_nil]
      congr 1
      have e : ∀ y ∈ y1 :: y2 :: l, f32 (bandIntegral (g.map (fun w => w * k))
          (g.map (interpRow lib (sw.map (fun w => w * k)) (y.map (fun v => v / k)) ∘ fun w => w * k))
          (g.map (c.at lib ∘ fun w => w * k))) / bandIntegral g (g.map sedAbAt) (g.map (c'.at lib)) =
          k * (f32 (bandIntegral g (g.map (interpRow lib sw y)) (g.map (c'.at lib))) /
            bandIntegral g (g.map sedAbAt) (g.map (c'.at lib))) := by
        intro y hy
        have := hnum y hy
        simp only [List.map_map] at this
        rw [this, real_f32, real_f32, mul_div_assoc]
      rw [e y1 (by simp), e y2 (by simp)]
      congr 3
      exact List.map_congr_left (fun y hy => e y (by simp [hy]))

/-- C28: projecting a spectrum at redshift `z > -1` onto a band gives `1 + z` times the projection of the
rest-frame spectrum onto the band with its wavelengths divided by `1 + z`. -/
theorem C28_redshift_is_blueshift (lib : Lib ℝ) (hu : SplineUnits lib) (hlin : SplineLinear lib) (wave resp : List ℝ)
    (z : ℝ) (hz : -1 < z) (R R' : Resp ℝ) (hR : mkResponse lib wave resp = .ok R)
    (hR' : mkResponse lib (wave.map (fun w => w / (1 + z))) resp = .ok R')
    (sw : List ℝ) (hs : sw.Pairwise (· < ·)) (flux : NDA ℝ) (s s' : Sed ℝ) (hsed : Sed.mk' sw flux true = .ok s)
    (hshift : s.setRedshift z = (s', .ok ())) (m m' : NDA ℝ) (hm : projectSed lib R'.toCurve s = .ok m)
    (hm' : projectSed lib R.toCurve s' = .ok m') : m' = m.map (fun v => (1 + z) * v) := by
  have hk : (0 : ℝ) < 1 + z := by linarith
  have hc := mkResponse_good hR
  have hc' := mkResponse_good hR'
  obtain ⟨hl, hw, hr, _⟩ := mkResponse_ok hR
  obtain ⟨_, hw', hr', _⟩ := mkResponse_ok hR'
  have ediv : wave.map (fun w => w / (1 + z)) = wave.map (fun w => w * (1 + z)⁻¹) :=
    List.map_congr_left (fun w _ => by rw [div_eq_mul_inv])
  rw [ediv, argsort_scale _ _ (inv_pos.mpr hk), gather_map _ _ _ (argsort_lt wave)] at hw'
  rw [ediv, argsort_scale _ _ (inv_pos.mpr hk)] at hr'
  have hww : R.wave = R'.wave.map (fun w => w * (1 + z)) := by
    rw [hw, hw', List.map_map]
    conv_lhs => rw [← List.map_id (gather wave (argsort wave))]
    apply List.map_congr_left
    intro w _
    simp only [Function.comp_apply, id]
    field_simp
  have hrr : R.resp = R'.resp := by rw [hr, hr']
  -- the spectrum
  have hs' : sw.Pairwise (· ≤ ·) := hs.imp le_of_lt
  obtain ⟨rows, oi, _, rfl, ⟨h, _⟩ | ⟨_, i, rfl, hi⟩⟩ := setup_ok hsed
  · cases h
  obtain ⟨rfl, _, h4, hrows⟩ := mkInterp_ok_sorted hs' hi
  have hi' : mkInterp (sw.map (fun w => w * (1 + z))) (rows.map (List.map (fun v => v / (1 + z)))) =
      .ok ⟨sw.map (fun w => w * (1 + z)), rows.map (List.map (fun v => v / (1 + z)))⟩ := by
    refine mkInterp_strict _ _ ?_ (by simpa using h4) ?_
    · rw [List.pairwise_map]
      exact hs.imp (fun h => mul_lt_mul_of_pos_right h hk)
    · intro y hy
      simp only [List.mem_map] at hy
      obtain ⟨y0, hy0, rfl⟩ := hy
      simp [hrows y0 hy0]
  simp only [Sed.setRedshift, Sed.setInterp, if_true, real_lit, Rat.cast_one, hi', Prod.mk.injEq, and_true] at hshift
  subst hshift
  simp only [projectSed, Except.ok.injEq] at hm hm'
  subst hm; subst hm'
  exact projectWith_shift hu hlin hc hc' hk hww hrr (ne_nil_of_four h4) hrows

/-- A band, its blueshifted copy and a spectrum meeting the hypotheses. -/
example : ∃ R R' s s' m m', mkResponse demoLib [1, 2, 3, 4] [0, 1, 1, 0] = .ok R ∧
    mkResponse demoLib ([1, 2, 3, 4].map (fun w => w / (1 + 1))) [0, 1, 1, 0] = .ok R' ∧
    Sed.mk' [1, 2, 3, 4] (.vec [1, 1, 1, 1]) true = .ok s ∧ s.setRedshift 1 = (s', .ok ()) ∧
    projectSed demoLib R'.toCurve s = .ok m ∧ projectSed demoLib R.toCurve s' = .ok m' := by
  obtain ⟨R, hR⟩ := demo_response (wave := [1, 2, 3, 4]) (resp := [0, 1, 1, 0]) (by norm_num) (by simp) rfl
    ⟨1, by simp, by norm_num⟩
  obtain ⟨R', hR'⟩ := demo_response (wave := [1, 2, 3, 4].map (fun w => w / (1 + 1))) (resp := [0, 1, 1, 0]) (by norm_num)
    (by simp) rfl ⟨1, by simp, by norm_num⟩
  have hi := mkInterp_strict [1, 2, 3, 4] [[1, 1, 1, 1]] sorted1234 (by simp) (by simp)
  have hs := setup_of_rows_interp (wave := ([1, 2, 3, 4] : List ℝ)) (flux := .vec [1, 1, 1, 1]) (Or.inl (by rfl)) false hi
  have hi' := mkInterp_strict ([1, 2, 3, 4].map (fun w : ℝ => w * (lit 1 + 1)))
    ([[1, 1, 1, 1]].map (List.map (fun f => f / (lit 1 + 1)))) (by norm_num) (by simp) (by simp)
  have h2 := (setRedshift_interp_on (⟨[1, 2, 3, 4], [[1, 1, 1, 1]], [1, 2, 3, 4], [[1, 1, 1, 1]], lit 0, true,
    some ⟨[1, 2, 3, 4], [[1, 1, 1, 1]]⟩, false⟩ : Sed ℝ) 1 rfl).1 _ (by rw [(setRedshift_fields _ _).2.2.1, (setRedshift_fields _ _).2.2.2.1]; exact hi')
  obtain ⟨m, hm⟩ : ∃ m, projectSed demoLib R'.toCurve (⟨[1, 2, 3, 4], [[1, 1, 1, 1]], [1, 2, 3, 4], [[1, 1, 1, 1]], lit 0,
    true, some ⟨[1, 2, 3, 4], [[1, 1, 1, 1]]⟩, false⟩ : Sed ℝ) = .ok m := by unfold projectSed; exact ⟨_, rfl⟩
  obtain ⟨m', hm'⟩ : ∃ m, projectSed demoLib R.toCurve ((⟨[1, 2, 3, 4], [[1, 1, 1, 1]], [1, 2, 3, 4], [[1, 1, 1, 1]], lit 0,
    true, some ⟨[1, 2, 3, 4], [[1, 1, 1, 1]]⟩, false⟩ : Sed ℝ).setRedshift 1).1 = .ok m := by
    unfold projectSed; rw [h2.2]; exact ⟨_, rfl⟩
  exact ⟨R, R', _, _, m, m', hR, hR', hs, Prod.ext rfl h2.1, hm, hm'⟩

end KC
