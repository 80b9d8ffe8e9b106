import Verif.Lemmas.InBand
import Verif.Lemmas.SplineData
import Verif.Model.StarFiles

/-!
# The splines of the shipped stars and response curves, enclosed
-/

namespace KC
open Spec

/-- points of a curve with their certificate -/
def mkRows : List ℚ → List ℚ → List (Int × Nat × Nat) → List SRow
  | x :: xs, y :: ys, c :: cs => ⟨x, y, (c.1 : ℚ) / 10 ^ c.2.2, (c.2.1 : ℚ) / 10 ^ c.2.2⟩ :: mkRows xs ys cs
  | _, _, _ => []

theorem mkRows_maps : ∀ {xs ys : List ℚ} {cs : List (Int × Nat × Nat)}, ys.length = xs.length → cs.length = xs.length →
    (mkRows xs ys cs).map SRow.x = xs ∧ (mkRows xs ys cs).map SRow.y = ys
  | [], [], [], _, _ => ⟨rfl, rfl⟩
  | x :: xs, y :: ys, c :: cs, h1, h2 => by
    obtain ⟨e1, e2⟩ := mkRows_maps (xs := xs) (ys := ys) (cs := cs) (by simpa using h1) (by simpa using h2)
    simp [mkRows, e1, e2]

theorem rowsX_toR (l : List SRow) : rowsX l = toR (l.map SRow.x) := by simp [rowsX, toR]
theorem rowsY_toR (l : List SRow) : rowsY l = toR (l.map SRow.y) := by simp [rowsY, toR]

/-- wavelengths in Angstroms, and flux over wavelength squared (the constant factor of the code left out) -/
def StarFile.x (s : StarFile) : List ℚ := s.rows.map (fun r => (r.1 : ℚ))
def StarFile.y (s : StarFile) : List ℚ := s.rows.map (fun r => (r.2.1 : ℚ) / 10 ^ r.2.2 / (r.1 * r.1))

def starRows (s : StarFile) (c : List (Int × Nat × Nat)) : List SRow := mkRows s.x s.y c
def bandRows (b : BandFile) (c : List (Int × Nat × Nat)) : List SRow := mkRows b.sort.w b.sort.p c

def abQ (q : ℚ) : ℚ × ℚ := (0.03631 * 2.99792 / q ^ 2, 0)

/-- the wavelengths of the integrals -/
def starGrid (star band : List SRow) : List ℚ := gridQ (star.map SRow.x) (band.map SRow.x)

/-- bounds of the photon integral of the star -/
def numLo (star band : List SRow) (S : ℕ) : ℚ := trapQ (starGrid star band) (prodLo S (starGrid star band) (walk band (starGrid star band)) (walk star (starGrid star band)))
def numHi (star band : List SRow) (S : ℕ) : ℚ := trapQ (starGrid star band) (prodHi S (starGrid star band) (walk band (starGrid star band)) (walk star (starGrid star band)))
/-- bounds of the photon integral of the AB source -/
def denLo (star band : List SRow) (S : ℕ) : ℚ := trapQ (starGrid star band) (prodLo S (starGrid star band) (walk band (starGrid star band)) ((starGrid star band).map abQ))
def denHi (star band : List SRow) (S : ℕ) : ℚ := trapQ (starGrid star band) (prodHi S (starGrid star band) (walk band (starGrid star band)) ((starGrid star band).map abQ))

/-- the band lies inside the spectrum, at positive wavelengths, and its response is zero in the first and the last row -/
def insideOK (star band : List SRow) : Bool :=
  decide (0 < (band.map SRow.x).headD 0) && decide ((star.map SRow.x).headD 0 ≤ (band.map SRow.x).headD 0) &&
    decide ((band.map SRow.x).getLastD 0 ≤ (star.map SRow.x).getLastD 0) && decide ((band.map SRow.y).headD 0 = 0) && decide ((band.map SRow.y).getLastD 0 = 0)

theorem rowAt_head (l : List SRow) : (rowAt l 0).x = (l.map SRow.x).headD 0 := by cases l <;> simp [rowAt]

theorem rowAt_last (l : List SRow) : (rowAt l (l.length - 1)).x = (l.map SRow.x).getLastD 0 := by
  rw [rowAt, List.getLastD_eq_getLast?, List.getLast?_map, List.getLast?_eq_getElem?]
  cases l[l.length - 1]? <;> simp

/-- inside its range, the curve of rows that pass the check is its spline -/
theorem curve_inside (l : List SRow) {q : ℚ} (h1 : (l.map SRow.x).headD 0 ≤ q) (h2 : q ≤ (l.map SRow.x).getLastD 0) (y : List ℝ) :
    curveFn nakSpline (rowsX l) y (q : ℝ) = nakSpline (rowsX l) y q := by
  unfold curveFn
  rw [if_neg]
  rw [rowsX_toR, toR_headD, toR_getLastD]
  push Not
  exact ⟨by exact_mod_cast h1, by exact_mod_cast h2⟩

theorem rows_six {l : List SRow} (h : rowsOK l = true) : 6 ≤ l.length := by
  simp only [rowsOK, Bool.and_eq_true, decide_eq_true_eq] at h
  exact h.1.1.1.1.1

theorem rows_incr {l : List SRow} (h : rowsOK l = true) : (l.map SRow.x).Pairwise (· < ·) := by
  have := (rows_sound h).1.incr
  rw [rowsX_toR] at this
  exact toR_incr.mp this

theorem getLast_bound {l : List ℚ} (hw : l.Pairwise (· < ·)) {v : ℚ} (hv : v ∈ l) : l.headD 0 ≤ v ∧ v ≤ l.getLastD 0 := by
  constructor
  · cases l with
    | nil => simp at hv
    | cons a r =>
      rcases List.mem_cons.mp hv with rfl | hv
      · exact le_rfl
      · exact ((List.pairwise_cons.mp hw).1 v hv).le
  · have hne : l ≠ [] := List.ne_nil_of_mem hv
    rw [List.getLastD_eq_getLast?, List.getLast?_eq_some_getLast hne]
    obtain ⟨i, hi, rfl⟩ := List.getElem_of_mem hv
    rw [List.getLast_eq_getElem]
    by_cases e : i = l.length - 1
    · simp [e]
    · exact (List.pairwise_iff_getElem.mp hw i (l.length - 1) hi (by omega) (by omega)).le

/-- The photon integrals of a projection are within the bounds. -/
theorem star_bounds {star band : List SRow} (hs : rowsOK star = true) (hb : rowsOK band = true) (hin : insideOK star band = true) {S : ℕ} (hS : 0 < S) {g : List ℝ}
    (hg : UnionGrid (rowsX star) (rowsX band) g) :
    ((numLo star band S : ℚ) : ℝ) ≤ photonInt g (curveFn nakSpline (rowsX band) (rowsY band)) (curveFn nakSpline (rowsX star) (rowsY star)) ∧
    photonInt g (curveFn nakSpline (rowsX band) (rowsY band)) (curveFn nakSpline (rowsX star) (rowsY star)) ≤ ((numHi star band S : ℚ) : ℝ) ∧
    ((denLo star band S : ℚ) : ℝ) ≤ photonInt g (curveFn nakSpline (rowsX band) (rowsY band)) abFlux ∧
    photonInt g (curveFn nakSpline (rowsX band) (rowsY band)) abFlux ≤ ((denHi star band S : ℚ) : ℝ) := by
  simp only [insideOK, Bool.and_eq_true, decide_eq_true_eq] at hin
  obtain ⟨⟨⟨⟨i0, i1⟩, i2⟩, i3⟩, i4⟩ := hin
  have hsx := rows_incr hs
  have hbx := rows_incr hb
  have Kb := (rows_sound hb).1
  have b6 := rows_six hb
  have hne : band.map SRow.x ≠ [] := by
    intro e
    have := congrArg List.length e
    simp at this
    subst this
    simp at b6
  have hXl : (rowsX band).length = band.length := by simp [rowsX]
  have hYl : (rowsY band).length = band.length := by simp [rowsY]
  have zlo : ∀ w, w ≤ (((band.map SRow.x).headD 0 : ℚ) : ℝ) → curveFn nakSpline (rowsX band) (rowsY band) w = 0 := by
    intro w hw
    rw [← toR_headD, ← rowsX_toR] at hw
    rcases hw.lt_or_eq with h | h
    · unfold curveFn; rw [if_pos (Or.inl h)]
    · have e0 : (rowsX band).headD 0 = ent (rowsX band) 0 := by
        rw [ent_rowsX, rowAt_head, rowsX_toR, toR_headD]
      have : nakSpline (rowsX band) (rowsY band) w = 0 := by
        rw [h, e0, nakSpline_knot Kb _ (by omega), ent_rowsY]
        have : (rowAt band 0).y = (band.map SRow.y).headD 0 := by cases band <;> simp [rowAt]
        rw [this, i3]; simp
      unfold curveFn
      split_ifs
      · rfl
      · exact this
  have zhi : ∀ w, (((band.map SRow.x).getLastD 0 : ℚ) : ℝ) ≤ w → curveFn nakSpline (rowsX band) (rowsY band) w = 0 := by
    intro w hw
    rw [← toR_getLastD, ← rowsX_toR] at hw
    rcases hw.lt_or_eq with h | h
    · unfold curveFn; rw [if_pos (Or.inr h)]
    · have e0 : (rowsX band).getLastD 0 = ent (rowsX band) (band.length - 1) := by
        rw [ent_rowsX, rowAt_last, rowsX_toR, toR_getLastD]
      have : nakSpline (rowsX band) (rowsY band) w = 0 := by
        rw [← h, e0, nakSpline_knot Kb _ (by omega), ent_rowsY]
        have : (rowAt band (band.length - 1)).y = (band.map SRow.y).getLastD 0 := by
          rw [rowAt, List.getLastD_eq_getLast?, List.getLast?_map, List.getLast?_eq_getElem?]
          cases band[band.length - 1]? <;> simp
        rw [this, i4]; simp
      unfold curveFn
      split_ifs
      · rfl
      · exact this
  rw [rowsX_toR star, rowsX_toR band] at hg
  have hG := gridQ_incr hsx hbx
  have inG : ∀ q ∈ starGrid star band, (band.map SRow.x).headD 0 ≤ q ∧ q ≤ (band.map SRow.x).getLastD 0 := by
    intro q hq
    rcases (mem_gridQ hsx).mp hq with h | ⟨_, h⟩
    · exact getLast_bound hbx h
    · exact h
  have hle : (starGrid star band).Pairwise (· ≤ ·) := hG.imp le_of_lt
  have wb := walk_sound hb hle (fun q hq => by rw [rowAt_head]; exact (inG q hq).1) (fun q hq => by rw [rowAt_last]; exact (inG q hq).2)
  have ws := walk_sound hs hle (fun q hq => by rw [rowAt_head]; exact i1.trans (inG q hq).1) (fun q hq => by rw [rowAt_last]; exact (inG q hq).2.trans i2)
  have wb' : List.Forall₂ (fun (q : ℚ) (e : ℚ × ℚ) => Encl (curveFn nakSpline (rowsX band) (rowsY band) q) e) (starGrid star band) (walk band (starGrid star band)) := by
    refine List.Forall₂.imp (fun q e h => ?_) (List.forall₂_and_left _ _ |>.mpr ⟨inG, wb⟩)
    rw [curve_inside band h.1.1 h.1.2]
    exact h.2
  have ws' : List.Forall₂ (fun (q : ℚ) (e : ℚ × ℚ) => Encl (curveFn nakSpline (rowsX star) (rowsY star) q) e) (starGrid star band) (walk star (starGrid star band)) := by
    refine List.Forall₂.imp (fun q e h => ?_) (List.forall₂_and_left _ _ |>.mpr ⟨inG, ws⟩)
    rw [curve_inside star (i1.trans h.1.1) (h.1.2.trans i2)]
    exact h.2
  have wa : List.Forall₂ (fun (q : ℚ) (e : ℚ × ℚ) => Encl (abFlux q) e) (starGrid star band) ((starGrid star band).map abQ) := by
    rw [List.forall₂_map_right_iff, List.forall₂_same]
    intro q _
    unfold Encl abFlux abQ
    push_cast
    norm_num
  have pos : ∀ q ∈ starGrid star band, 0 ≤ q := fun q hq => i0.le.trans (inG q hq).1
  rw [photonInt_inside hsx hbx hne hg _ zlo zhi, photonInt_inside hsx hbx hne hg _ zlo zhi]
  exact ⟨(photonInt_bounds hS hG pos wb' ws').1, (photonInt_bounds hS hG pos wb' ws').2, (photonInt_bounds hS hG pos wb' wa).1, (photonInt_bounds hS hG pos wb' wa).2⟩

end KC
