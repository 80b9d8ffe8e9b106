import Verif.Props.Scripts

/-!
# What the photometry of the example scripts means (C211)
-/

namespace KC
open Spec

theorem bad_real {y w : ℝ} (hw : 0 ≤ w) : badEntry y w = false := by
  simp [badEntry, finb, hw]

theorem floor_nonneg (c y v : ℝ) (hv : 0 ≤ v) : 0 ≤ floorEntry f32 c y v := by
  unfold floorEntry
  split_ifs
  · show (0 : ℝ) ≤ ((1 : ℚ) : ℝ) / ((|y| * c) * (|y| * c))
    have : (0 : ℝ) ≤ (|y| * c) * (|y| * c) := mul_self_nonneg _
    push_cast
    positivity
  · exact hv
  · exact hv

theorem fracErr_units (x v k : ℝ) (hk : 0 < k) : fracErr (x * k) (v / k ^ 2) = fracErr x v := by
  unfold fracErr
  rw [Real.sqrt_div' _ (by positivity), Real.sqrt_sq hk.le, abs_mul, abs_of_pos hk]
  congr 1
  field_simp

/-- One entry after the change of units and the floor. -/
theorem script_entry (k c x v : ℝ) (hk : 0 < k) (hc : 0 < c) :
    (v = 0 → floorEntry f32 c (x * k) (v / k ^ 2) = 0) ∧
    (0 < v → x ≠ 0 → 0 < floorEntry f32 c (x * k) (v / k ^ 2) ∧ fracErr (x * k) (floorEntry f32 c (x * k) (v / k ^ 2)) = max (fracErr x v) c) := by
  constructor
  · rintro rfl
    rw [zero_div]
    exact floorEntry_skip (by simp)
  · intro hv hx
    have hy : x * k ≠ 0 := mul_ne_zero hx hk.ne'
    have hv' : 0 < v / k ^ 2 := by positivity
    have hy' : 0 < |x * k| := abs_pos.mpr hy
    rw [show floorEntry f32 c (x * k) (v / k ^ 2) = min (v / k ^ 2) (1 / (|x * k| * c) ^ 2) from floorEntry_real c (x * k) _ hy hv' hc]
    have h1 : 0 < 1 / (|x * k| * c) ^ 2 := by positivity
    refine ⟨lt_min hv' h1, ?_⟩
    have e1 : fracErr (x * k) (1 / (|x * k| * c) ^ 2) = c := by
      unfold fracErr
      rw [Real.sqrt_div' _ (by positivity), Real.sqrt_one, Real.sqrt_sq (by positivity)]
      field_simp
    have anti : ∀ a b : ℝ, 0 < a → a ≤ b → fracErr (x * k) b ≤ fracErr (x * k) a := by
      intro a b ha hab
      unfold fracErr
      exact one_div_le_one_div_of_le (mul_pos hy' (Real.sqrt_pos.mpr ha)) (mul_le_mul_of_nonneg_left (Real.sqrt_le_sqrt hab) hy'.le)
    rw [← fracErr_units x v k hk]
    rcases le_total (v / k ^ 2) (1 / (|x * k| * c) ^ 2) with h | h
    · rw [min_eq_left h, max_eq_left]
      have := anti _ _ hv' h
      rwa [e1] at this
    · rw [min_eq_right h, e1, max_eq_right]
      have := anti _ _ h1 h
      rwa [e1] at this

theorem pow_split (a b : ℝ) : (10 : ℝ) ^ (a + b) = 10 ^ a * 10 ^ b := Real.rpow_add (by norm_num) a b

theorem nano : (10 : ℝ) ^ (-0.4 * 22.5 : ℝ) = 1e-9 := by
  rw [show (-0.4 * 22.5 : ℝ) = ((-9 : ℤ) : ℝ) by norm_num, Real.rpow_intCast]
  norm_num

/-- The SDSS columns after the correction to AB, the change of units and the correction for `a` magnitudes of extinction. -/
theorem sdss_units (φ a x v : ℝ) :
    sdssM φ x * (10 : ℝ) ^ (0.4 * a) = x * (10 : ℝ) ^ (-0.4 * (22.5 + φ - a)) ∧
    sdssV φ v * (10 : ℝ) ^ (-0.8 * a) = v / ((10 : ℝ) ^ (-0.4 * (22.5 + φ - a))) ^ 2 := by
  have e : (10 : ℝ) ^ (-0.4 * (22.5 + φ - a)) = 1e-9 * (10 : ℝ) ^ (-0.4 * φ) * (10 : ℝ) ^ (0.4 * a) := by
    rw [← nano, ← pow_split, ← pow_split]
    congr 1
    ring
  have e2 : (10 : ℝ) ^ (-0.8 * a) * ((10 : ℝ) ^ (0.4 * a)) ^ 2 = 1 := by
    rw [pow_two, ← pow_split, ← pow_split, show -0.8 * a + (0.4 * a + 0.4 * a) = 0 by ring, Real.rpow_zero]
  have hp : (0 : ℝ) < (10 : ℝ) ^ (-0.4 * φ) := by positivity
  have hq : (0 : ℝ) < (10 : ℝ) ^ (0.4 * a) := by positivity
  have f1 : sdssM φ x = x * (10 : ℝ) ^ (-0.4 * φ) * 1e-9 := by
    show x * (10 : ℝ) ^ (-((0.4 : ℚ) : ℝ) * φ) * ((1e-9 : ℚ) : ℝ) = _
    norm_num
  have f2 : sdssV φ v = v / ((10 : ℝ) ^ (-0.4 * φ)) ^ 2 * 1e18 := by
    show v / ((10 : ℝ) ^ (-((0.4 : ℚ) : ℝ) * φ) * (10 : ℝ) ^ (-((0.4 : ℚ) : ℝ) * φ)) * ((1e18 : ℚ) : ℝ) = _
    rw [pow_two]
    norm_num
  rw [f1, f2, e]
  refine ⟨by ring, ?_⟩
  have e3 : (10 : ℝ) ^ (-0.8 * a) = 1 / ((10 : ℝ) ^ (0.4 * a)) ^ 2 := by
    rw [eq_div_iff (by positivity)]; exact e2
  rw [e3]
  field_simp
  norm_num
  ring

/-- C211: the photometry that `k_plot_test_mtol` fits.  A flux `x` in nanomaggies with inverse variance `v`, extinction `a` and AB offset `φ` of the band becomes the flux in maggies of
magnitude `22.5 - 2.5 log10 x + φ - a`, its fractional error is that of the catalogue or the floor of the band, whichever is larger, and weight zero stays zero. -/
theorem C211_mtol (N : Nat) (flux ivar ext : NDA ℝ) (hf : flux.WF) (hv : ivar.WF) (he : ext.WF) (sf : flux.shape = [N, 5]) (sv : ivar.shape = [N, 5]) (se : ext.shape = [N, 5]) :
    ∃ p, mtolPhotometry flux ivar ext = .ok p ∧ ∀ (r j : Nat) (x v a φ c : ℝ), entry flux r j = some x → entry ivar r j = some v → entry ext r j = some a →
      [-0.036, 0.012, 0.010, 0.028, 0.040][j]? = some φ → [0.05, 0.02, 0.02, 0.02, 0.03][j]? = some c → 0 ≤ v →
      ∃ w, entry p.maggies r j = some (x * (10 : ℝ) ^ (-0.4 * (22.5 + φ - a))) ∧ entry p.ivar r j = some w ∧ (v = 0 → w = 0) ∧
        (0 < v → x ≠ 0 → 0 < w ∧ fracErr (x * (10 : ℝ) ^ (-0.4 * (22.5 + φ - a))) w = max (fracErr x v) c) := by
  obtain ⟨fl, rfl, f1, f2⟩ := shape_arr (lead := [N]) hf sf
  obtain ⟨iv, rfl, v1, v2⟩ := shape_arr (lead := [N]) hv sv
  obtain ⟨ex, rfl, e1, e2⟩ := shape_arr (lead := [N]) he se
  obtain ⟨m, w, e, t1, t2, h⟩ := mtol_table (N := N) (fl := fl) (iv := iv) (ex := ex) ⟨by simpa using f1, f2⟩ ⟨by simpa using v1, v2⟩ ⟨by simpa using e1, e2⟩
  refine ⟨_, e, fun r j x v a φ c hx hv ha hφ hc hv0 => ?_⟩
  have hφ' : (abfixDefault : List ℝ)[j]? = some φ := by rw [← hφ]; congr 1; norm_num [abfixDefault]
  have hc' : ((mtolFloor : List ℝ).map f32)[j]? = some c := by rw [← hc]; simp [mtolFloor]
  have hc0 : 0 < c := by
    have := List.mem_of_getElem? hc
    simp only [List.mem_cons, List.not_mem_nil, or_false] at this
    rcases this with rfl | rfl | rfl | rfl | rfl <;> norm_num
  obtain ⟨g1, g2⟩ := h r j x v a φ c hx hv ha hφ' hc'
  have eM : mtolM φ a x = x * (10 : ℝ) ^ (-0.4 * (22.5 + φ - a)) := by
    rw [← (sdss_units φ a x v).1]
    show sdssM φ x * (10 : ℝ) ^ (((0.4 : ℚ) : ℝ) * a) = _
    norm_num
  have eV : mtolV φ a c x v = floorEntry f32 c (x * (10 : ℝ) ^ (-0.4 * (22.5 + φ - a))) (v / ((10 : ℝ) ^ (-0.4 * (22.5 + φ - a))) ^ 2) := by
    rw [← (sdss_units φ a x v).2, ← eM]
    show floorEntry f32 c (mtolM φ a x) (sdssV φ v * (10 : ℝ) ^ (-((0.8 : ℚ) : ℝ) * a)) = _
    norm_num
  have hk : (0 : ℝ) < (10 : ℝ) ^ (-0.4 * (22.5 + φ - a)) := by positivity
  rw [eM, eV, bad_real (floor_nonneg _ _ _ (by positivity))] at g1 g2
  exact ⟨_, g1, g2, script_entry _ c x v hk hc0⟩

/-- One entry of the photometry of `k_plot_test_gst`, given a flux `x` with inverse variance `v` in units `k0`. -/
theorem gst_entry (a r c k0 x v : ℝ) (p : ℝ × ℝ) (hk0 : 0 < k0) (hc : 0 < c) (hv : 0 ≤ v) (h1 : p.1 = x * k0) (h2 : p.2 = v / k0 ^ 2) :
    gstM a r p = x * (k0 * (10 : ℝ) ^ (0.4 * a * r)) ∧ badEntry (gstM a r p) (gstV a r c p) = false ∧ (v = 0 → gstV a r c p = 0) ∧
      (0 < v → x ≠ 0 → 0 < gstV a r c p ∧ fracErr (x * (k0 * (10 : ℝ) ^ (0.4 * a * r))) (gstV a r c p) = max (fracErr x v) c) := by
  have hq : (0 : ℝ) < (10 : ℝ) ^ (0.4 * a * r) := by positivity
  have e2 : (10 : ℝ) ^ (-0.8 * a * r) * ((10 : ℝ) ^ (0.4 * a * r)) ^ 2 = 1 := by
    rw [pow_two, ← pow_split, ← pow_split, show -0.8 * a * r + (0.4 * a * r + 0.4 * a * r) = 0 by ring, Real.rpow_zero]
  have e3 : (10 : ℝ) ^ (-0.8 * a * r) = 1 / ((10 : ℝ) ^ (0.4 * a * r)) ^ 2 := by
    rw [eq_div_iff (by positivity)]; exact e2
  have eM : gstM a r p = x * (k0 * (10 : ℝ) ^ (0.4 * a * r)) := by
    show p.1 * (10 : ℝ) ^ (((0.4 : ℚ) : ℝ) * a * r) = _
    rw [h1]
    push_cast
    norm_num
    ring
  have eV : gstV a r c p = floorEntry f32 c (x * (k0 * (10 : ℝ) ^ (0.4 * a * r))) (v / (k0 * (10 : ℝ) ^ (0.4 * a * r)) ^ 2) := by
    rw [← eM]
    show floorEntry f32 c (gstM a r p) (p.2 * (10 : ℝ) ^ (-((0.8 : ℚ) : ℝ) * a * r)) = _
    rw [h2, show (-((0.8 : ℚ) : ℝ)) = -0.8 by norm_num, e3]
    congr 1
    field_simp
  rw [eM, eV]
  exact ⟨rfl, bad_real (floor_nonneg _ _ _ (by positivity)), script_entry _ c x v (by positivity) hc⟩

namespace Spec

/-- Extinction in the ten bands, relative to that in r (Schlegel, Finkbeiner and Davis 1998 for the SDSS bands). -/
noncomputable def bandExt : List ℝ := [8.29, 8.18, 5.155, 3.793, 2.751, 2.086, 1.479, 0.902, 0.576, 0.367].map (· / 2.751)

/-- Error floors of the ten bands. -/
noncomputable def bandFloor : List ℝ := [0.03, 0.03, 0.02, 0.02, 0.02, 0.02, 0.02, 0.04, 0.04, 0.04]

/-- The measurement of a row of the catalogue in a band: flux and inverse variance in the units of the catalogue, and the magnitude of a source of flux 1 in these units on the AB system. -/
inductive Measured (vJ vH vK : ℝ) (g : GstRow ℝ) : Nat → ℝ → ℝ → ℝ → Prop
  | fuv : g.fuv ≠ -99 → g.fuv ≠ 0 → g.fuvErr ≠ -99 → g.fuvErr ≠ 0 → Measured vJ vH vK g 0 g.fuv (1 / g.fuvErr ^ 2) 18.82
  | nuv : g.nuv ≠ -99 → g.nuv ≠ 0 → g.nuvErr ≠ -99 → g.nuvErr ≠ 0 → Measured vJ vH vK g 1 g.nuv (1 / g.nuvErr ^ 2) 20.08
  | sdss {j x v φ} : g.model[j]? = some x → g.modelIvar[j]? = some v → [-0.036, 0.012, 0.010, 0.028, 0.040][j]? = some φ →
      Measured vJ vH vK g (j + 2) x v (22.5 + φ)
  | j : g.jMag ≠ 0 → 0 < g.jSig → Measured vJ vH vK g 7 ((10 : ℝ) ^ (-0.4 * g.jMag)) (1 / ((10 : ℝ) ^ (-0.4 * g.jMag) * (Real.log 10 / 2.5 * g.jSig)) ^ 2) vJ
  | h : g.hMag ≠ 0 → 0 < g.hSig → Measured vJ vH vK g 8 ((10 : ℝ) ^ (-0.4 * g.hMag)) (1 / ((10 : ℝ) ^ (-0.4 * g.hMag) * (Real.log 10 / 2.5 * g.hSig)) ^ 2) vH
  | k : g.kMag ≠ 0 → 0 < g.kSig → Measured vJ vH vK g 9 ((10 : ℝ) ^ (-0.4 * g.kMag)) (1 / ((10 : ℝ) ^ (-0.4 * g.kMag) * (Real.log 10 / 2.5 * g.kSig)) ^ 2) vK

end Spec

theorem neqb_real (a b : ℝ) : neqb a b = decide (a ≠ b) := by
  unfold neqb
  by_cases h : a = b
  · subst h; simp
  · have : ¬ (a ≤ b ∧ b ≤ a) := fun ⟨h1, h2⟩ => h (le_antisymm h1 h2)
    simp only [real_leb, ne_eq, h, not_false_eq_true, decide_true, Bool.not_eq_true', Bool.and_eq_false_iff, decide_eq_false_iff_not]
    by_contra hc
    push Not at hc
    exact this hc

theorem galex_real (zp flux err : ℝ) (h1 : flux ≠ -99) (h2 : flux ≠ 0) (h3 : err ≠ -99) (h4 : err ≠ 0) :
    (galexBand zp flux err).1 = flux * (10 : ℝ) ^ (-0.4 * zp) ∧ (galexBand zp flux err).2 = 1 / err ^ 2 / ((10 : ℝ) ^ (-0.4 * zp)) ^ 2 := by
  have e : -((0.4 : ℚ) : ℝ) = -0.4 := by norm_num
  unfold galexBand
  simp only [neqb_real, real_lit, real_pow10, real_f32, e]
  push_cast
  have hk : (0 : ℝ) < (10 : ℝ) ^ (-0.4 * zp) := by positivity
  rw [if_pos (by simp [h1, h2, h3, h4])]
  refine ⟨rfl, ?_⟩
  simp only
  field_simp

theorem twomass_real (v mag sig : ℝ) (h1 : mag ≠ 0) (h2 : 0 < sig) :
    (twomassBand v mag sig).1 = (10 : ℝ) ^ (-0.4 * mag) * (10 : ℝ) ^ (-0.4 * v) ∧
    (twomassBand v mag sig).2 = 1 / ((10 : ℝ) ^ (-0.4 * mag) * (Real.log 10 / 2.5 * sig)) ^ 2 / ((10 : ℝ) ^ (-0.4 * v)) ^ 2 := by
  have e : -((0.4 : ℚ) : ℝ) = -0.4 := by norm_num
  have e2 : (10 : ℝ) ^ (-0.4 * (mag + v)) = (10 : ℝ) ^ (-0.4 * mag) * (10 : ℝ) ^ (-0.4 * v) := by rw [mul_add, pow_split]
  unfold twomassBand
  simp only [neqb_real, real_lit, real_pow10, real_f32, real_gtb, real_log, e]
  push_cast
  rw [if_pos (by simp [h1, h2]), e2]
  have hk : (0 : ℝ) < (10 : ℝ) ^ (-0.4 * v) := by positivity
  have hm : (0 : ℝ) < (10 : ℝ) ^ (-0.4 * mag) := by positivity
  have hl : 0 < Real.log 10 := Real.log_pos (by norm_num)
  refine ⟨rfl, ?_⟩
  simp only
  field_simp

/-- C211 for `k_plot_test_gst`: a measurement of flux `x` and inverse variance `v`, whose unit has AB magnitude `zp`, becomes a flux in maggies of magnitude `zp - 2.5 log10 x - a`, where `a`
is the extinction in r times the relative extinction of the band; the fractional error is that of the catalogue or the floor of the band, whichever is larger. -/
theorem C211_gst (vJ vH vK : ℝ) (cat : List (GstRow ℝ)) (hc : ∀ g ∈ cat, g.model.length = 5 ∧ g.modelIvar.length = 5) :
    ∃ p, gstPhotometry (some vJ) (some vH) (some vK) cat = .ok p ∧ ∀ (r j : Nat) (g : GstRow ℝ) (x v zp a R c : ℝ), cat[r]? = some g → Measured vJ vH vK g j x v zp →
      g.extinction[2]? = some a → bandExt[j]? = some R → bandFloor[j]? = some c → 0 ≤ v →
      ∃ w, entry p.maggies r j = some (x * (10 : ℝ) ^ (-0.4 * (zp - a * R))) ∧ entry p.ivar r j = some w ∧ (v = 0 → w = 0) ∧
        (0 < v → x ≠ 0 → 0 < w ∧ fracErr (x * (10 : ℝ) ^ (-0.4 * (zp - a * R))) w = max (fracErr x v) c) := by
  obtain ⟨m, w, e, t1, t2, h⟩ := gst_table vJ vH vK cat hc
  refine ⟨_, e, fun r j g x v zp a R c hg hm ha hR hcf hv0 => ?_⟩
  have hR' : (redFac : List ℝ)[j]? = some R := by rw [← hR]; congr 1
  have hc' : ((gstFloor : List ℝ).map f32)[j]? = some c := by rw [← hcf]; simp [gstFloor, bandFloor]
  have hc0 : 0 < c := by
    have := List.mem_of_getElem? hcf
    simp only [bandFloor, List.mem_cons, List.not_mem_nil, or_false] at this
    rcases this with rfl | rfl | rfl | rfl | rfl | rfl | rfl | rfl | rfl | rfl <;> norm_num
  have hx : ent g.extinction 2 = a := ent_eq ha
  have hp : ∃ p, gstBand vJ vH vK g j = some p ∧ p.1 = x * (10 : ℝ) ^ (-0.4 * zp) ∧ p.2 = v / ((10 : ℝ) ^ (-0.4 * zp)) ^ 2 := by
    cases hm with
    | fuv h1 h2 h3 h4 => exact ⟨_, rfl, by simpa using galex_real ((18.82 : ℚ) : ℝ) _ _ h1 h2 h3 h4⟩
    | nuv h1 h2 h3 h4 => exact ⟨_, rfl, by simpa using galex_real ((20.08 : ℚ) : ℝ) _ _ h1 h2 h3 h4⟩
    | @sdss k _ _ φ h1 h2 h3 =>
      have h3' : (abfixDefault : List ℝ)[k]? = some φ := by rw [← h3]; congr 1; norm_num [abfixDefault]
      have hk : k < 5 := by simpa using (List.getElem?_eq_some_iff.mp h3).1
      have hb : gstBand vJ vH vK g (k + 2) = some (sdssM φ x, sdssV φ v) := by
        have : (g.model[k]?).bind (fun x => (g.modelIvar[k]?).bind fun v => ((abfixDefault : List ℝ)[k]?).map fun φ => (sdssM φ x, sdssV φ v)) = some (sdssM φ x, sdssV φ v) := by
          rw [h1, h2, h3']; rfl
        rw [← this]
        match k, hk with
        | 0, _ => rfl
        | 1, _ => rfl
        | 2, _ => rfl
        | 3, _ => rfl
        | 4, _ => rfl
      exact ⟨_, hb, by simpa using sdss_units φ 0 x v⟩
    | j h1 h2 => exact ⟨_, rfl, twomass_real _ _ _ h1 h2⟩
    | h h1 h2 => exact ⟨_, rfl, twomass_real _ _ _ h1 h2⟩
    | k h1 h2 => exact ⟨_, rfl, twomass_real _ _ _ h1 h2⟩
  obtain ⟨p, p1, p2, p3⟩ := hp
  obtain ⟨g1, g2⟩ := h r j g p R c hg p1 hR' hc'
  rw [hx] at g1 g2
  have hk0 : (0 : ℝ) < (10 : ℝ) ^ (-0.4 * zp) := by positivity
  obtain ⟨q1, q2, q3⟩ := gst_entry a R c _ x v p hk0 hc0 hv0 p2 p3
  have ek : (10 : ℝ) ^ (-0.4 * (zp - a * R)) = (10 : ℝ) ^ (-0.4 * zp) * (10 : ℝ) ^ (0.4 * a * R) := by
    rw [← pow_split]; congr 1; ring
  rw [q2] at g1 g2
  rw [ek]
  exact ⟨_, by rw [← q1]; exact g1, g2, q3⟩

/-- Not vacuous: a row with a measurement in every band. -/
noncomputable def demoGstR : GstRow ℝ := ⟨3, 1, 4, 2, [1, 2, 3, 4, 5], [1, 1, 1, 1, 0], 15, 0.1, 14, 0.1, 13, 0.2, [0.2, 0.1, 0.1, 0.1, 0.1]⟩

example : (∀ g ∈ [demoGstR], g.model.length = 5 ∧ g.modelIvar.length = 5) ∧ demoGstR.extinction[2]? = some (0.1 : ℝ) ∧ Measured 0.9 1.4 1.85 demoGstR 0 3 (1 / 1 ^ 2) 18.82 ∧
    Measured 0.9 1.4 1.85 demoGstR 6 5 0 (22.5 + 0.040) ∧
    Measured 0.9 1.4 1.85 demoGstR 7 ((10 : ℝ) ^ (-0.4 * 15 : ℝ)) (1 / ((10 : ℝ) ^ (-0.4 * 15 : ℝ) * (Real.log 10 / 2.5 * 0.1)) ^ 2) 0.9 :=
  ⟨by simp [demoGstR], rfl, .fuv (by norm_num [demoGstR]) (by norm_num [demoGstR]) (by norm_num [demoGstR]) (by norm_num [demoGstR]), .sdss (j := 4) rfl rfl rfl,
    .j (by norm_num [demoGstR]) (by norm_num [demoGstR])⟩

example : let a : NDA ℝ := .arr [2] 5 [[1, 2, 3, 4, 5], [1, 2, 3, 0, -5]]
    a.WF ∧ a.shape = [2, 5] ∧ entry a 1 4 = some (-5) := by
  simp [NDA.WF, NDA.shape, entry]

end KC
