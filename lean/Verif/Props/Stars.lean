import Verif.Lemmas.Fwhm
import Verif.Lemmas.Local
import Verif.Props.Response3

/-!
# C136, C137: the magnitudes of the Sun and of Vega; what `project` accepts
-/

namespace KC
open Spec

namespace Spec

/-- Flux density, in erg/s/cm²/Å at the wavelength `l` in Å, of a star of `radius` centimetres and `d` parsecs away whose tabulated surface flux
(Eddington flux per unit frequency) is `H`. -/
noncomputable def starFlux (radius d H l : ℝ) : ℝ := 4 * Real.pi * H * (2.99792e18 / l ^ 2) * (radius / (d * 3.086e18)) ^ 2

/-- magnitude of a flux, defined only for positive ones -/
noncomputable def magOf (x : ℝ) : Option ℝ := if 0 < x then some (mag x) else none

end Spec

theorem magOrNone_real (x : ℝ) : magOrNone (.scalar x) = .ok (magOf x) := by
  have e : (-(lit 2.5) * log10 x : ℝ) = mag x := by
    unfold mag
    simp only [real_lit, Arith.log10, Real.logb]
    norm_num
  simp only [magOrNone, magOf, e]
  simp [gtb, real_ltb, real_lit]

/-- A single spectrum: projecting the star is projecting the two arrays, and the result is a number. -/
theorem starMag_arr {lib : Lib ℝ} {c : Curve ℝ} {b : Basel ℝ} {fl : List ℝ} (hf : b.flux = [fl]) (hl : fl.length = b.wave.length) {radius d : ℝ} {s : Sed ℝ}
    (hs : starSed b radius d = .ok s) {m : NDA ℝ} (hm : projectSed lib c s = .ok m) :
    ∃ x, m = .scalar x ∧ projectArr lib c (b.wave.map (· * 10)) (.vec (List.zipWith (starFlux radius d) fl (b.wave.map (· * 10)))) = .ok (.scalar x) := by
  unfold starSed at hs
  rw [hf] at hs
  simp only [real_lit, real_f32] at hs
  have ew : b.wave.map (fun w => w * (((10 : ℚ)) : ℝ)) = b.wave.map (· * 10) := by
    apply List.map_congr_left; intro w _; norm_num
  have ef : List.zipWith (fun f w => Arith.pi * (((4 : ℚ)) : ℝ) * f * (((2.99792e18 : ℚ)) : ℝ) / (w * w) * (radius / (d * (((3.086e18 : ℚ)) : ℝ)) * (radius / (d * (((3.086e18 : ℚ)) : ℝ))))) fl (b.wave.map (· * 10)) =
      List.zipWith (starFlux radius d) fl (b.wave.map (· * 10)) := by
    congr 1
    funext f w
    unfold starFlux
    have hpi : (Arith.pi : ℝ) = Real.pi := rfl
    rw [hpi]
    push_cast
    ring
  rw [ew, ef] at hs
  generalize b.wave.map (· * 10) = wv at *
  have hlw : wv.length = b.wave.length := by
    have := congrArg List.length ew
    simpa using this.symm
  have hfx : (List.zipWith (starFlux radius d) fl wv).length = wv.length := by simp [hl, hlw]
  generalize List.zipWith (starFlux radius d) fl wv = fx at *
  unfold Sed.mk' at hs
  cases hi : mkInterp wv [fx] with
  | error e => simp [Sed.setup, Sed.setInterp, hi] at hs
  | ok i =>
    have hs' := sed_mk_ok (k := 1) (n := fx.length) hi
    unfold Sed.mk' at hs'
    rw [hs'] at hs
    cases hs
    unfold projectSed at hm
    simp only [Except.ok.injEq] at hm
    have hys : ∃ row, i.ys = [row] := by
      obtain ⟨h1, _⟩ := mkInterp_eq hi
      exact ⟨_, by rw [h1]; rfl⟩
    obtain ⟨row, hrow⟩ := hys
    have hx : ∃ x, projectWith lib c wv i = .scalar x := by
      unfold projectWith
      split
      · exact ⟨_, rfl⟩
      · simp only [Interp.eval, hrow, List.map_cons, List.map_nil, projOnGrid]
        exact ⟨_, rfl⟩
    obtain ⟨x, hx⟩ := hx
    refine ⟨x, by rw [← hm, hx], ?_⟩
    unfold projectArr
    simp only [NDA.vec, NDA.map, list_f32_real, hfx, ne_eq, not_true_eq_false, if_false, List.length_nil, Nat.not_lt_zero, List.map_cons, List.map_nil, ok_bind, hi,
      hx, pure_py]

/-- **C136.** `solar_magnitude` of a response is the AB magnitude of the spectrum of the Sun as seen from 10 parsecs, `vega2ab` the AB magnitude of the spectrum of Vega
as seen from Earth, and both are `None` exactly when the projected flux is not positive. -/
theorem C136_star_magnitudes {lib : Lib ℝ} {wave resp : List ℝ} {R : Resp ℝ} (h : mkResponse lib wave resp = .ok R) {sun vega : Basel ℝ} {fs fv : List ℝ}
    (hsun : lib.sun = .ok sun) (hfs : sun.flux = [fs]) (hls : fs.length = sun.wave.length)
    (hvega : lib.vega = .ok vega) (hfv : vega.flux = [fv]) (hlv : fv.length = vega.wave.length) :
    (∃ x, projectArr lib R.toCurve (sun.wave.map (· * 10)) (.vec (List.zipWith (starFlux 6.960e10 10) fs (sun.wave.map (· * 10)))) = .ok (.scalar x) ∧
      R.solarMag = magOf x) ∧
    (∃ x, projectArr lib R.toCurve (vega.wave.map (· * 10)) (.vec (List.zipWith (starFlux 1.91144e11 7.68) fv (vega.wave.map (· * 10)))) = .ok (.scalar x) ∧
      R.vega2ab = magOf x) := by
  obtain ⟨_, hw, _, hset⟩ := mkResponse_ok h
  obtain ⟨_, _, _, _, h1, h2, _⟩ := respSetup_ok (by rw [hw]; exact gather_sorted wave) hset
  constructor
  · unfold solarMagOf at h1
    rw [hsun, ok_bind] at h1
    have e1 : (lit 6.960e10 : ℝ) = 6.960e10 := by rw [real_lit]; norm_num
    have e2 : (lit 10 : ℝ) = 10 := by rw [real_lit]; norm_num
    rw [e1, e2] at h1
    cases hs : starSed sun (6.960e10 : ℝ) 10 with
    | error e => rw [hs] at h1; simp at h1
    | ok s =>
      rw [hs, ok_bind] at h1
      cases hp : projectSed lib R.toCurve s with
      | error e => rw [hp] at h1; simp at h1
      | ok m =>
        rw [hp, ok_bind] at h1
        obtain ⟨x, rfl, hx⟩ := starMag_arr hfs hls hs hp
        rw [magOrNone_real] at h1
        exact ⟨x, hx, (Except.ok.inj h1).symm⟩
  · unfold vega2abOf at h2
    rw [hvega, ok_bind] at h2
    have e1 : (lit 1.91144e11 : ℝ) = 1.91144e11 := by rw [real_lit]; norm_num
    have e2 : (lit 7.68 : ℝ) = 7.68 := by rw [real_lit]; norm_num
    rw [e1, e2] at h2
    cases hs : starSed vega (1.91144e11 : ℝ) 7.68 with
    | error e => rw [hs] at h2; simp at h2
    | ok s =>
      rw [hs, ok_bind] at h2
      cases hp : projectSed lib R.toCurve s with
      | error e => rw [hp] at h2; simp at h2
      | ok m =>
        rw [hp, ok_bind] at h2
        obtain ⟨x, rfl, hx⟩ := starMag_arr hfv hlv hs hp
        rw [magOrNone_real] at h2
        exact ⟨x, hx, (Except.ok.inj h2).symm⟩

/-- the flux of a star falls with the square of its distance: a factor 10 in distance is 5 magnitudes -/
theorem C136_distance_modulus {radius d H l k : ℝ} (hk : 0 < k) (hx : 0 < starFlux radius d H l) :
    mag (starFlux radius (k * d) H l) = mag (starFlux radius d H l) + 5 * Real.logb 10 k := by
  have e : starFlux radius (k * d) H l = starFlux radius d H l / k ^ 2 := by
    unfold starFlux
    by_cases hd : d = 0
    · subst hd; simp
    · field_simp
  rw [e]
  unfold mag
  rw [Real.logb_div hx.ne' (by positivity), Real.logb_pow]
  push_cast
  ring

/-- **C137.** `project(wave=, flux=)` succeeds exactly for a flux of rank one or two whose last axis has the length of `wave`, at least four wavelengths and no
wavelength twice; otherwise it raises `ValueError` (`IndexError` for a flux that is a number). -/
theorem C137_project_accepts (lib : Lib ℝ) (c : Curve ℝ) (wave : List ℝ) (lead : List Nat) (n : Nat) (rows : List (List ℝ)) (hwf : ∀ r ∈ rows, r.length = n) :
    ((∃ m, projectArr lib c wave (.arr lead n rows) = .ok m) ↔ n = wave.length ∧ lead.length ≤ 1 ∧ 4 ≤ wave.length ∧ wave.Nodup) ∧
    (∀ e, projectArr lib c wave (.arr lead n rows) = .error e → e = .valueError) ∧
    (∀ x, projectArr lib c wave (.scalar x) = .error .indexError) := by
  have hmap : rows.map (List.map (f32 : ℝ → ℝ)) = rows := by
    conv_rhs => rw [← List.map_id rows]
    exact List.map_congr_left (fun r _ => list_f32_real r)
  have key : ∀ e, mkInterp wave rows = .error e → e = .valueError := by
    intro e he
    unfold mkInterp at he
    split_ifs at he <;> simp_all
  refine ⟨?_, ?_, ?_⟩
  · unfold projectArr
    simp only [NDA.map, list_f32_real, hmap]
    by_cases hn : n = wave.length
    · rw [if_neg (by simpa using hn)]
      by_cases hl : lead.length ≤ 1
      · rw [if_neg (by omega), ok_bind]
        constructor
        · rintro ⟨m, hm⟩
          cases hi : mkInterp wave rows with
          | error e => rw [hi] at hm; simp at hm
          | ok i =>
            obtain ⟨h1, _, h3, h4, _⟩ := mkInterp_ok hi
            refine ⟨hn, hl, h4, ?_⟩
            rw [h1] at h3
            exact (gather_perm wave).nodup_iff.mp (h3.imp (fun h => h.ne))
        · rintro ⟨_, _, h4, hd⟩
          obtain ⟨i, hi, _⟩ := mkInterp_nodup wave rows h4 hd (fun r hr => by rw [hwf r hr, hn])
          exact ⟨_, by rw [hi, ok_bind]; rfl⟩
      · rw [if_pos (by omega)]
        constructor
        · rintro ⟨m, hm⟩; simp at hm
        · rintro ⟨_, h, _⟩; exact absurd h hl
    · rw [if_pos (by simpa using hn)]
      constructor
      · rintro ⟨m, hm⟩; simp at hm
      · rintro ⟨h, _⟩; exact absurd h hn
  · intro e
    unfold projectArr
    simp only [NDA.map, list_f32_real, hmap]
    split_ifs
    · intro he; simp at he; exact he.symm
    · intro he; simp at he; exact he.symm
    · rw [ok_bind]
      intro he
      cases hi : mkInterp wave rows with
      | error e' => rw [hi] at he; simp at he; rw [← he]; exact key e' hi
      | ok i => rw [hi] at he; simp at he
  · intro x
    rfl

/-- Not vacuous (C136): a response and two stars with four wavelengths. -/
example : ∃ R sun vega fs fv, mkResponse demoLib [3, 1, 2, 4] [0, 0, 1, 0] = .ok R ∧ demoLib.sun = .ok sun ∧ sun.flux = [fs] ∧ fs.length = sun.wave.length ∧
    demoLib.vega = .ok vega ∧ vega.flux = [fv] ∧ fv.length = vega.wave.length := by
  obtain ⟨R, hR⟩ : ∃ R, mkResponse demoLib [3, 1, 2, 4] [0, 0, 1, 0] = .ok R := demo_response (by norm_num) (by simp) rfl ⟨1, by simp, by norm_num⟩
  obtain ⟨b, fl, h1, h2, h3, _⟩ := demo_star.ok
  exact ⟨R, b, b, fl, fl, hR, h1, h2, h3, h1, h2, h3⟩

/-- Not vacuous: a star with positive flux; two rows of four fluxes. -/
example : 0 < starFlux 1 1 1 1 ∧ ∀ r ∈ [[(1 : ℝ), 2, 3, 4], [0, 0, 0, 0]], r.length = 4 := by
  refine ⟨?_, by simp⟩
  unfold starFlux
  have := Real.pi_pos
  positivity

end KC
