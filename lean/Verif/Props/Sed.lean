import Verif.Lemmas.Sed
import Verif.Lemmas.Trap
import Verif.Lemmas.XR

/-!
# Properties of `SED` (C36–C39, C42)
-/

namespace KC
open Spec

/-- The object after a sequence of `set_redshift` calls.  A call that raises has still changed the object; the
caller may catch the exception and go on. -/
def shifts {α : Type} [Arith α] (s : Sed α) (zs : List α) : Sed α := zs.foldl (fun s z => (s.setRedshift z).1) s

theorem shifts_snoc {α : Type} [Arith α] (s : Sed α) (zs : List α) (z : α) :
    shifts s (zs ++ [z]) = ((shifts s zs).setRedshift z).1 := by
  simp [shifts]

theorem shifts_rest {α : Type} [Arith α] (s : Sed α) (zs : List α) :
    (shifts s zs).restWave = s.restWave ∧ (shifts s zs).restFlux = s.restFlux ∧
      (shifts s zs).interpolate = s.interpolate ∧ (shifts s zs).binimage = s.binimage := by
  induction zs using List.reverseRecOn with
  | nil => simp [shifts]
  | append_singleton zs z ih =>
    rw [shifts_snoc]
    obtain ⟨h1, h2, _, _, _, h6, h7⟩ := setRedshift_fields (shifts s zs) z
    rw [h1, h2, h6, h7]; exact ih

/-- C36: after any sequence of calls, wave, flux and redshift are those of the last call alone, in any
arithmetic. -/
theorem C36_set_redshift_absolute {α : Type} [Arith α] (s : Sed α) (zs : List α) (z : α) :
    (shifts s (zs ++ [z])).wave = s.restWave.map (fun w => w * (lit 1 + z)) ∧
    (shifts s (zs ++ [z])).flux = s.restFlux.map (List.map (fun f => f / (lit 1 + z))) ∧
    (shifts s (zs ++ [z])).redshift = z ∧
    (shifts s (zs ++ [z])).wave = (s.setRedshift z).1.wave ∧ (shifts s (zs ++ [z])).flux = (s.setRedshift z).1.flux := by
  rw [shifts_snoc]
  obtain ⟨h1, h2, _, _⟩ := shifts_rest s zs
  obtain ⟨_, _, h3, h4, h5, _⟩ := setRedshift_fields (shifts s zs) z
  obtain ⟨_, _, h6, h7, _⟩ := setRedshift_fields s z
  rw [h3, h4, h5, h6, h7, h1, h2]
  exact ⟨rfl, rfl, rfl, rfl, rfl⟩

/-- C37: the rest frame is never touched (any arithmetic). -/
theorem C37_rest_frame_kept {α : Type} [Arith α] (s : Sed α) (zs : List α) :
    (shifts s zs).restWave = s.restWave ∧ (shifts s zs).restFlux = s.restFlux :=
  ⟨(shifts_rest s zs).1, (shifts_rest s zs).2.1⟩

theorem map_id_of {l : List ℝ} {f : ℝ → ℝ} (h : ∀ x, f x = x) : l.map f = l := by
  conv_rhs => rw [← List.map_id l]
  exact List.map_congr_left (fun x _ => h x)

/-- C37: going to redshift 0 after any history restores wave and flux exactly. -/
theorem C37_back_to_rest (s : Sed ℝ) (zs : List ℝ) : (shifts s (zs ++ [0])).wave = s.restWave ∧
    (shifts s (zs ++ [0])).flux = s.restFlux := by
  obtain ⟨h1, h2, _⟩ := C36_set_redshift_absolute s zs 0
  rw [h1, h2]
  refine ⟨map_id_of (fun x => by simp), ?_⟩
  conv_rhs => rw [← List.map_id s.restFlux]
  exact List.map_congr_left (fun r _ => map_id_of (fun x => by simp))

/-- C37 for spectra containing infinities and NaN. -/
theorem C37_back_to_rest_xr (s : Sed XR) (zs : List XR) : (shifts s (zs ++ [lit 0])).wave = s.restWave ∧
    (shifts s (zs ++ [lit 0])).flux = s.restFlux := by
  obtain ⟨h1, h2, _⟩ := C36_set_redshift_absolute s zs (lit 0)
  rw [h1, h2]
  have e1 : (lit 1 + lit 0 : XR) = .fin 1 := by
    show XR.add _ _ = _
    simp [XR.add, lit, Arith.lit]
  have em : ∀ x : XR, x * (lit 1 + lit 0) = x := by
    intro x; rw [e1]; show XR.mul _ _ = _
    cases x <;> simp [XR.mul, XR.infMul]
  have ed : ∀ x : XR, x / (lit 1 + lit 0) = x := by
    intro x; rw [e1]; show XR.div _ _ = _
    cases x <;> simp [XR.div, XR.infMul]
  refine ⟨?_, ?_⟩
  · conv_rhs => rw [← List.map_id s.restWave]
    exact List.map_congr_left (fun x _ => em x)
  · conv_rhs => rw [← List.map_id s.restFlux]
    refine List.map_congr_left (fun r _ => ?_)
    conv_rhs => rw [id, ← List.map_id r]
    exact List.map_congr_left (fun x _ => ed x)

/-- C38: the bolometric integral of every spectrum is the same after any history ending at a redshift above -1. -/
theorem C38_bolometric (s : Sed ℝ) (zs : List ℝ) (z : ℝ) (hz : -1 < z) (k : Nat) :
    ((shifts s (zs ++ [z])).flux[k]?).map (trapRule (shifts s (zs ++ [z])).wave) =
      (s.restFlux[k]?).map (trapRule s.restWave) := by
  obtain ⟨h1, h2, _⟩ := C36_set_redshift_absolute s zs z
  rw [h1, h2, List.getElem?_map, Option.map_map]
  congr 1
  funext f
  have hk : (1 : ℝ) + z ≠ 0 := by linarith
  simp only [Function.comp_apply, real_lit, Rat.cast_one]
  have e : f.map (fun f => f / (1 + z)) = f.map (fun f => (1 + z)⁻¹ * f) := List.map_congr_left (fun v _ => by ring)
  rw [trapRule_scale_x, e, trapRule_smul, ← mul_assoc, mul_inv_cancel₀ hk, one_mul]

example : (-1 : ℝ) < 3 ∧ ([2, 5] : List ℝ) ++ [3] = [2, 5, 3] := by norm_num

/-! ## C39 -/

theorem nodup_strict {x : List ℝ} (hx : x.Nodup) : (gather x (argsort x)).Pairwise (· < ·) := by
  have h1 : (gather x (argsort x)).Pairwise (· ≠ ·) := (gather_perm x).nodup_iff.mpr hx
  exact (gather_sorted x).imp₂ (fun a b h1 h2 => lt_of_le_of_ne h1 h2) h1

theorem mkInterp_iff (x : List ℝ) (ys : List (List ℝ)) : (∃ i, mkInterp x ys = .ok i) ↔
    x.Nodup ∧ 4 ≤ x.length ∧ ∀ row ∈ ys, row.length = x.length := by
  constructor
  · rintro ⟨i, hi⟩
    obtain ⟨h1, _, h3, h4, h5⟩ := mkInterp_ok hi
    rw [h1] at h3
    exact ⟨(gather_perm x).nodup_iff.mp (h3.imp (fun h => h.ne)), h4, h5⟩
  · rintro ⟨h1, h2, h3⟩
    refine ⟨⟨gather x (argsort x), ys.map (fun row => gather row (argsort x))⟩, ?_⟩
    unfold mkInterp
    rw [if_pos h3, if_pos h2, if_pos ((noDup_iff _ (gather_sorted x)).mpr (nodup_strict h1))]

/-- C39 (partial): with interpolation enabled at construction, no sequence of `set_redshift` calls with
redshifts other than -1 ever raises, and after it the interpolator is the one of the current wave and flux; with
interpolation disabled there is never one.  Missing: redshift exactly -1 (`C39_false`). -/
theorem C39_interp_current_partial (wave : List ℝ) (flux : NDA ℝ) (s : Sed ℝ) (ip : Bool)
    (hs : Sed.mk' wave flux ip = .ok s) (zs : List ℝ) (hz : ∀ z ∈ zs, z ≠ -1) :
    (ip = true → ∃ i, (shifts s zs).interp = some i ∧ mkInterp (shifts s zs).wave (shifts s zs).flux = .ok i) ∧
    (ip = false → (shifts s zs).interp = none) ∧
    (∀ z, z ≠ -1 → ((shifts s zs).setRedshift z).2 = .ok ()) := by
  obtain ⟨rows, oi, _, rfl, hoi⟩ := setup_ok hs
  have hrest := shifts_rest (⟨wave, rows, wave, rows, lit 0, ip, oi, false⟩ : Sed ℝ) zs
  rcases hoi with ⟨rfl, rfl⟩ | ⟨rfl, i0, rfl, hi0⟩
  · refine ⟨by simp, fun _ => ?_, fun z _ => (setRedshift_interp_off _ _ hrest.2.2.1).2⟩
    clear hz hrest
    induction zs using List.reverseRecOn with
    | nil => rfl
    | append_singleton zs z ih =>
      rw [shifts_snoc, (setRedshift_interp_off _ _ (shifts_rest _ zs).2.2.1).1]
      exact ih
  · obtain ⟨hn, h4, hl⟩ := (mkInterp_iff _ _).mp ⟨i0, hi0⟩
    have key : ∀ (t : Sed ℝ), t.restWave = wave → t.restFlux = rows → t.interpolate = true → ∀ z, z ≠ -1 →
        (t.setRedshift z).2 = .ok () ∧ ∃ i, (t.setRedshift z).1.interp = some i ∧
          mkInterp (t.setRedshift z).1.wave (t.setRedshift z).1.flux = .ok i := by
      intro t h1 h2 h3 z hz
      obtain ⟨_, _, h5, h6, _⟩ := setRedshift_fields t z
      have hk : (1 : ℝ) + z ≠ 0 := fun h => hz (by linarith)
      obtain ⟨i, hi⟩ := (mkInterp_iff (t.setRedshift z).1.wave (t.setRedshift z).1.flux).mpr (by
        rw [h5, h6, h1, h2]
        refine ⟨hn.map (fun a b hab => mul_right_cancel₀ (b := (lit 1 + z : ℝ)) (by simpa using hk) hab), by simpa using h4, ?_⟩
        intro row hrow
        simp only [List.mem_map] at hrow
        obtain ⟨r, hr, rfl⟩ := hrow
        simp [hl r hr])
      have := (setRedshift_interp_on t z h3).1 i hi
      exact ⟨this.1, i, this.2, hi⟩
    refine ⟨fun _ => ?_, by simp, fun z hz => (key _ hrest.1 hrest.2.1 hrest.2.2.1 z hz).1⟩
    rcases List.eq_nil_or_concat zs with rfl | ⟨zs', z, rfl⟩
    · exact ⟨i0, rfl, hi0⟩
    · rw [List.concat_eq_append] at hz ⊢
      rw [shifts_snoc]
      have hr' := shifts_rest (⟨wave, rows, wave, rows, lit 0, true, some i0, false⟩ : Sed ℝ) zs'
      exact (key _ hr'.1 hr'.2.1 hr'.2.2.1 z (hz z (by simp))).2

/-- An SED with an interpolator and a history. -/
example : ∃ s, Sed.mk' ([1, 2, 3, 4] : List ℝ) (.vec [1, 1, 1, 1]) true = .ok s ∧ ∀ z ∈ ([2, -3, 0.5] : List ℝ), z ≠ -1 := by
  have hi := mkInterp_strict [1, 2, 3, 4] [[1, 1, 1, 1]] (by norm_num) (by simp) (by simp)
  exact ⟨_, setup_of_rows_interp (wave := ([1, 2, 3, 4] : List ℝ)) (flux := .vec [1, 1, 1, 1]) (Or.inl (by rfl)) false hi,
    by norm_num⟩

/-- C39 fails as stated: `set_redshift(-1)` raises with `wave` already set to zero, and the object keeps the
interpolator of its previous state, on which later projections silently work. -/
theorem C39_false (wave : List ℝ) (flux : NDA ℝ) (s : Sed ℝ) (hs : Sed.mk' wave flux true = .ok s) :
    Raises (s.setRedshift (-1)).2 ∧ (s.setRedshift (-1)).1.interp = s.interp ∧ s.interp ≠ none ∧
      (s.setRedshift (-1)).1.wave ≠ s.wave ∧
      ¬ ∃ i, mkInterp (s.setRedshift (-1)).1.wave (s.setRedshift (-1)).1.flux = .ok i := by
  obtain ⟨rows, oi, _, rfl, hoi⟩ := setup_ok hs
  rcases hoi with ⟨h, _⟩ | ⟨_, i0, rfl, hi0⟩
  · cases h
  obtain ⟨hn, h4, hl⟩ := (mkInterp_iff _ _).mp ⟨i0, hi0⟩
  set t : Sed ℝ := ⟨wave, rows, wave, rows, lit 0, true, some i0, false⟩ with ht
  obtain ⟨_, _, h5, h6, _⟩ := setRedshift_fields t (-1)
  have hw : (t.setRedshift (-1)).1.wave = wave.map (fun _ => 0) := by
    rw [h5]
    exact List.map_congr_left (fun w _ => by simp)
  have hnd : ¬ (wave.map (fun _ => (0 : ℝ))).Nodup := by
    intro h
    match wave, h4, h with
    | a :: b :: l, _, h => simp at h
    | [_], h4, _ => simp at h4
    | [], h4, _ => simp at h4
  have hno : ¬ ∃ i, mkInterp (t.setRedshift (-1)).1.wave (t.setRedshift (-1)).1.flux = .ok i := by
    rw [mkInterp_iff, hw]
    exact fun h => hnd h.1
  cases he : mkInterp (t.setRedshift (-1)).1.wave (t.setRedshift (-1)).1.flux with
  | ok i => exact absurd ⟨i, he⟩ hno
  | error e =>
    have := (setRedshift_interp_on t (-1) rfl).2 e he
    refine ⟨⟨e, this.1⟩, this.2, by simp [ht], ?_, by rw [← he]; exact hno⟩
    rw [hw]
    intro h
    exact hnd (h ▸ hn)

/-! ## C42 -/

/-- C42: an SED built from a flux vector of `nwave` values has one spectrum, the one given; with at least four
distinct wavelengths the interpolator can be built as well. -/
theorem C42_vector_flux (wave y : List ℝ) (hl : y.length = wave.length) :
    (∃ s, Returns (Sed.mk' wave (.vec y) false) s ∧ s.nsed = 1 ∧ s.nwave = wave.length ∧ s.restFlux = [y] ∧ s.flux = [y]
      ∧ s.wave = wave ∧ s.restWave = wave ∧ s.redshift = 0) ∧
    (4 ≤ wave.length → wave.Nodup → ∃ s, Returns (Sed.mk' wave (.vec y) true) s ∧ s.nsed = 1 ∧ s.restFlux = [y] ∧
      s.flux = [y] ∧ s.wave = wave ∧ s.restWave = wave ∧ s.interp ≠ none) := by
  have hr : FluxRows wave (.vec y) [y] := Or.inl (by simp [NDA.vec, hl])
  refine ⟨⟨_, setup_of_rows hr false, rfl, rfl, rfl, rfl, rfl, rfl, by simp⟩, fun h4 hn => ?_⟩
  obtain ⟨i, hi⟩ := (mkInterp_iff wave [y]).mpr ⟨hn, h4, by simpa using hl⟩
  exact ⟨_, setup_of_rows_interp hr false hi, rfl, rfl, rfl, rfl, rfl, by simp⟩

/-- Four distinct wavelengths and four fluxes meet the hypotheses of C42. -/
example : [3, 0, 5, (1 : ℝ)].length = [1, 2, 3, (4 : ℝ)].length ∧ 4 ≤ [1, 2, 3, (4 : ℝ)].length ∧ [1, 2, 3, (4 : ℝ)].Nodup :=
  ⟨rfl, by simp, by norm_num⟩

/-- A vector of another length is refused. -/
theorem C42_wrong_length {α : Type} [Arith α] (wave y : List α) (ip : Bool) (hl : y.length ≠ wave.length) :
    Raises (Sed.mk' wave (.vec y) ip) := by
  refine ⟨.valueError, ?_⟩
  unfold Sed.mk' Sed.setup NDA.vec
  simp only [hl, if_false, error_bind]

end KC
