import Verif.Lemmas.TemplateWaves
import Verif.Lemmas.StarMags

/-!
Bounds of photon integrals over a band for spectra that begin inside it.
-/

namespace KC
open Spec

/-- the first and the last sample of the response are zero -/
def zeroEnds (band : List SRow) : Bool :=
  decide (0 < (band.map SRow.x).headD 0) && decide ((band.map SRow.y).headD 0 = 0) && decide ((band.map SRow.y).getLastD 0 = 0)

theorem zeroEnds_zero {band : List SRow} (hb : rowsOK band = true) (hz : zeroEnds band = true) :
    (∀ w, w ≤ (((band.map SRow.x).headD 0 : ℚ) : ℝ) → curveFn nakSpline (rowsX band) (rowsY band) w = 0) ∧
    (∀ w, (((band.map SRow.x).getLastD 0 : ℚ) : ℝ) ≤ w → curveFn nakSpline (rowsX band) (rowsY band) w = 0) := by
  simp only [zeroEnds, Bool.and_eq_true, decide_eq_true_eq] at hz
  obtain ⟨⟨_, i3⟩, i4⟩ := hz
  have Kb := (rows_sound hb).1
  have b6 := rows_six hb
  have hXl : (rowsX band).length = band.length := by simp [rowsX]
  constructor
  · intro w hw
    rw [← toR_headD, ← rowsX_toR] at hw
    rcases hw.lt_or_eq with h | h
    · unfold curveFn; rw [if_pos (Or.inl h)]
    · have e0 : (rowsX band).headD 0 = ent (rowsX band) 0 := by
        rw [ent_rowsX, rowAt_head, rowsX_toR, toR_headD]
      have : nakSpline (rowsX band) (rowsY band) w = 0 := by
        rw [h, e0, nakSpline_knot Kb _ (by omega), ent_rowsY]
        have : (rowAt band 0).y = (band.map SRow.y).headD 0 := by cases band <;> simp [rowAt]
        rw [this, i3]; simp
      unfold curveFn
      split_ifs
      · rfl
      · exact this
  · intro w hw
    rw [← toR_getLastD, ← rowsX_toR] at hw
    rcases hw.lt_or_eq with h | h
    · unfold curveFn; rw [if_pos (Or.inr h)]
    · have e0 : (rowsX band).getLastD 0 = ent (rowsX band) (band.length - 1) := by
        rw [ent_rowsX, rowAt_last, rowsX_toR, toR_getLastD]
      have : nakSpline (rowsX band) (rowsY band) w = 0 := by
        rw [← h, e0, nakSpline_knot Kb _ (by omega), ent_rowsY]
        have : (rowAt band (band.length - 1)).y = (band.map SRow.y).getLastD 0 := by
          rw [rowAt, List.getLastD_eq_getLast?, List.getLast?_map, List.getLast?_eq_getElem?]
          cases band[band.length - 1]? <;> simp
        rw [this, i4]; simp
      unfold curveFn
      split_ifs
      · rfl
      · exact this

/-- upper bounds of `wavelength * R * f`, for `f` between zero and the AB source, and zero below `cut` -/
def edgeHi (cut : ℚ) : List ℚ → List (ℚ × ℚ) → List ℚ
  | q :: qs, e :: es => (if q < cut then 0 else q * max (e.1 + e.2) 0 * (0.03631 * 2.99792 / q ^ 2)) :: edgeHi cut qs es
  | _, _ => []

theorem edgeHi_bounds {cut : ℚ} {R f : ℝ → ℝ} {M : ℝ} (f0 : ∀ w : ℝ, w < cut → f w = 0) (f1 : ∀ w, 0 ≤ f w) (f2 : ∀ w, f w ≤ M * abFlux w) :
    ∀ {qs : List ℚ} {es : List (ℚ × ℚ)}, (∀ q ∈ qs, 0 ≤ q) → List.Forall₂ (fun (q : ℚ) (e : ℚ × ℚ) => Encl (R q) e) qs es →
    List.Forall₂ (fun a b : ℝ => a ≤ b) ((toR qs).map (fun w => w * R w * f w)) ((toR (edgeHi cut qs es)).map (M * ·))
  | [], [], _, .nil => by simp [edgeHi, toR]
  | q :: qs, e :: es, h0, .cons he hes => by
    have ih := edgeHi_bounds f0 f1 f2 (fun v hv => h0 v (List.mem_cons_of_mem _ hv)) hes
    have hq : (0 : ℝ) ≤ q := by exact_mod_cast h0 q (by simp)
    refine List.Forall₂.cons ?_ ih
    by_cases hc : q < cut
    · rw [if_pos hc]
      show (q : ℝ) * R q * f q ≤ M * ((0 : ℚ) : ℝ)
      rw [f0 q (by exact_mod_cast hc)]; simp
    · rw [if_neg hc]
      have hR : R q ≤ max ((e.1 : ℝ) + e.2) 0 := by
        have := (abs_le.mp he).2
        exact le_max_of_le_left (by linarith)
      have h2 := f2 q
      have h3 : q * R q * f q ≤ q * max ((e.1 : ℝ) + e.2) 0 * f q := by
        have := f1 q
        gcongr
      have h4 : q * max ((e.1 : ℝ) + e.2) 0 * f q ≤ q * max ((e.1 : ℝ) + e.2) 0 * (M * abFlux q) := by
        have : 0 ≤ max ((e.1 : ℝ) + e.2) 0 := le_max_right _ _
        gcongr
      refine (h3.trans h4).trans (le_of_eq ?_)
      show _ = M * ((q * max (e.1 + e.2) 0 * (0.03631 * 2.99792 / q ^ 2) : ℚ) : ℝ)
      unfold abFlux
      push_cast
      ring

theorem trapRule_scale (M : ℝ) : ∀ (x f : List ℝ), trapRule x (f.map (M * ·)) = M * trapRule x f
  | [], _ => by simp [trapRule]
  | [_], _ => by simp [trapRule]
  | _ :: _ :: _, [] => by simp [trapRule]
  | _ :: _ :: _, [_] => by simp [trapRule]
  | x0 :: x1 :: xs, f0 :: f1 :: fs => by
    have := trapRule_scale M (x1 :: xs) (f1 :: fs)
    simp only [List.map_cons, trapRule] at this ⊢
    rw [this]; ring

/-- at most the fraction `frac` of the AB photons of the band are above `cut` -/
def edgeOK (sw : List ℚ) (band : List SRow) (S : ℕ) (cut frac : ℚ) : Bool :=
  let g := gridQ sw (band.map SRow.x)
  let e := walk band g
  decide (0 < trapQ g (prodLo S g e (g.map abQ))) && decide (trapQ g (edgeHi cut g e) ≤ frac * trapQ g (prodLo S g e (g.map abQ)))

/-- What is left of a band when the spectrum begins at `cut`. -/
theorem edge_bounds {sw : List ℚ} {band : List SRow} (hsx : sw.Pairwise (· < ·)) (hb : rowsOK band = true) (hz : zeroEnds band = true) {S : ℕ} (hS : 0 < S) {cut frac : ℚ}
    (hf : 0 ≤ frac) (hok : edgeOK sw band S cut frac = true) {g : List ℝ} (hg : UnionGrid (toR sw) (rowsX band) g) {f : ℝ → ℝ} {M : ℝ} (hM : 0 ≤ M) (f0 : ∀ w : ℝ, w < cut → f w = 0)
    (f1 : ∀ w, 0 ≤ f w) (f2 : ∀ w, f w ≤ M * abFlux w) :
    0 < photonInt g (curveFn nakSpline (rowsX band) (rowsY band)) abFlux ∧
    photonInt g (curveFn nakSpline (rowsX band) (rowsY band)) f ≤ M * (frac * photonInt g (curveFn nakSpline (rowsX band) (rowsY band)) abFlux) := by
  obtain ⟨zlo, zhi⟩ := zeroEnds_zero hb hz
  have hpos : 0 < (band.map SRow.x).headD 0 := by
    simp only [zeroEnds, Bool.and_eq_true, decide_eq_true_eq] at hz
    exact hz.1.1
  have hbx := rows_incr hb
  have b6 := rows_six hb
  have hne : band.map SRow.x ≠ [] := by
    intro e
    have := congrArg List.length e
    simp at this
    subst this
    simp at b6
  rw [rowsX_toR band] at hg
  have hG := gridQ_incr hsx hbx
  have inG : ∀ q ∈ gridQ sw (band.map SRow.x), (band.map SRow.x).headD 0 ≤ q ∧ q ≤ (band.map SRow.x).getLastD 0 := by
    intro q hq
    rcases (mem_gridQ hsx).mp hq with h | ⟨_, h⟩
    · exact getLast_bound hbx h
    · exact h
  have wb := walk_sound hb (hG.imp le_of_lt) (fun q hq => by rw [rowAt_head]; exact (inG q hq).1) (fun q hq => by rw [rowAt_last]; exact (inG q hq).2)
  have wb' : List.Forall₂ (fun (q : ℚ) (e : ℚ × ℚ) => Encl (curveFn nakSpline (rowsX band) (rowsY band) q) e) (gridQ sw (band.map SRow.x))
      (walk band (gridQ sw (band.map SRow.x))) := by
    refine List.Forall₂.imp (fun q e h => ?_) (List.forall₂_and_left _ _ |>.mpr ⟨inG, wb⟩)
    rw [curve_inside band h.1.1 h.1.2]
    exact h.2
  have wa : List.Forall₂ (fun (q : ℚ) (e : ℚ × ℚ) => Encl (abFlux q) e) (gridQ sw (band.map SRow.x)) ((gridQ sw (band.map SRow.x)).map abQ) := by
    rw [List.forall₂_map_right_iff, List.forall₂_same]
    intro q _
    unfold Encl abFlux abQ
    push_cast
    norm_num
  have pos : ∀ q ∈ gridQ sw (band.map SRow.x), 0 ≤ q := fun q hq => hpos.le.trans (inG q hq).1
  rw [photonInt_inside hsx hbx hne hg _ zlo zhi, photonInt_inside hsx hbx hne hg _ zlo zhi]
  simp only [edgeOK, Bool.and_eq_true, decide_eq_true_eq] at hok
  have den := (photonInt_bounds hS hG pos wb' wa).1
  have h1 : (0 : ℝ) < ((trapQ (gridQ sw (band.map SRow.x)) (prodLo S (gridQ sw (band.map SRow.x)) (walk band (gridQ sw (band.map SRow.x)))
      ((gridQ sw (band.map SRow.x)).map abQ)) : ℚ) : ℝ) := by exact_mod_cast hok.1
  refine ⟨lt_of_lt_of_le h1 den, ?_⟩
  have num := trapRule_le (toR_incr.mpr hG) (edgeHi_bounds (R := curveFn nakSpline (rowsX band) (rowsY band)) f0 f1 f2 pos wb')
  rw [trapRule_scale, toR, toR, trapQ_cast] at num
  refine num.trans ?_
  have h2 : ((trapQ (gridQ sw (band.map SRow.x)) (edgeHi cut (gridQ sw (band.map SRow.x)) (walk band (gridQ sw (band.map SRow.x)))) : ℚ) : ℝ) ≤
      frac * ((trapQ (gridQ sw (band.map SRow.x)) (prodLo S (gridQ sw (band.map SRow.x)) (walk band (gridQ sw (band.map SRow.x)))
        ((gridQ sw (band.map SRow.x)).map abQ)) : ℚ) : ℝ) := by exact_mod_cast hok.2
  have hfr : (0 : ℝ) ≤ frac := by exact_mod_cast hf
  gcongr
  exact h2.trans (by gcongr)

/-- the wavelengths of the default templates at redshift 2 -/
def defaultAt2 : List ℚ := defaultUnits.flatten.map (fun k : Nat => (k : ℚ) * 3 / 2 ^ 14)

theorem edge_FUV : edgeOK defaultAt2 (bandRows file_galex_FUV cert_galex_FUV) (10 ^ 24) 1800 0.01 = true := by decide +kernel

theorem zeroEnds_FUV : zeroEnds (bandRows file_galex_FUV cert_galex_FUV) = true := by decide +kernel

end KC
