import Verif.Lemmas.Grid
import Verif.Lemmas.Utils

/-! Response objects and the band integral over the reals. -/

namespace KC
open Spec

set_option linter.unusedSectionVars false

/-- The spline passes through its points. -/
def KnotExact (lib : Lib ℝ) : Prop :=
  ∀ (x y : List ℝ) (i : Nat) (w v : ℝ), x.Pairwise (· < ·) → 4 ≤ x.length → x.length = y.length →
    x[i]? = some w → y[i]? = some v → lib.spline x y w = v

/-- The spline is linear in the ordinates. -/
def SplineLinear (lib : Lib ℝ) : Prop :=
  ∀ (x y1 y2 : List ℝ) (a b q : ℝ), y1.length = x.length → y2.length = x.length →
    lib.spline x (List.zipWith (fun u v => a * u + b * v) y1 y2) q = a * lib.spline x y1 q + b * lib.spline x y2 q

/-- Changing the unit of the abscissa does not change the spline. -/
def SplineUnits (lib : Lib ℝ) : Prop :=
  ∀ (x y : List ℝ) (k q : ℝ), 0 < k → lib.spline (x.map (fun v => v * k)) y (q * k) = lib.spline x y q

/-- What `brentq` guarantees with its default tolerances: on a sign change it returns a point of the
interval that is one end of a bracket not wider than the tolerance. -/
def BrentqOK (lib : Lib ℝ) : Prop :=
  ∀ (f : ℝ → ℝ) (a b : ℝ), a < b → f a * f b ≤ 0 → ∃ r s, lib.brentq f a b = .ok r ∧
    r ∈ Set.Icc a b ∧ s ∈ Set.Icc a b ∧ |s - r| ≤ 2e-12 + 8.9e-16 * |r| ∧ f r * f s ≤ 0

theorem SplineLinear.smul {lib : Lib ℝ} (h : SplineLinear lib) (x y : List ℝ) (a q : ℝ) (hl : y.length = x.length) :
    lib.spline x (y.map (fun v => a * v)) q = a * lib.spline x y q := by
  have := h x y y a 0 q hl hl
  rw [zero_mul, add_zero] at this
  rw [← this]
  congr 1
  apply List.ext_getElem <;> simp

theorem interpRow_real (lib : Lib ℝ) (x y : List ℝ) (q : ℝ) : interpRow lib x y q = curveFn lib.spline x y q := by
  simp only [interpRow, curveFn, real_ltb, real_lit, Rat.cast_zero, Bool.or_eq_true, decide_eq_true_eq]

/-- State of a bandpass after loading. -/
structure GoodCurve (c : Curve ℝ) : Prop where
  incr : c.wave.Pairwise (· < ·)
  four : 4 ≤ c.wave.length
  len : c.resp.length = c.wave.length
  itp : c.itp = ⟨c.wave, [c.resp]⟩

theorem GoodCurve.at_eq {c : Curve ℝ} (h : GoodCurve c) (lib : Lib ℝ) (q : ℝ) :
    c.at lib q = curveFn lib.spline c.wave c.resp q := by
  simp only [Curve.at, h.itp, List.headD_cons, interpRow_real]

theorem respSetup_ok {lib : Lib ℝ} {w r : List ℝ} {R : Resp ℝ} (hw : w.Pairwise (· ≤ ·))
    (h : respSetup lib w r = .ok R) : R.wave = w ∧ R.resp = r ∧ GoodCurve R.toCurve ∧
      R.lambdaEff = lambdaEffOf w r ∧ solarMagOf lib R.toCurve = .ok R.solarMag ∧
      vega2abOf lib R.toCurve = .ok R.vega2ab ∧ fwhmLimits lib R.toCurve = .ok (R.fwhmLow, R.fwhmHigh) ∧
      R.fwhm = R.fwhmHigh - R.fwhmLow := by
  unfold respSetup at h
  cases hi : mkInterp w [r] with
  | error e => rw [hi] at h; simp at h
  | ok itp =>
    obtain ⟨h1, h2, h3, h4⟩ := mkInterp_ok_sorted hw hi
    simp only [hi, ok_bind] at h
    cases hs : solarMagOf lib ⟨w, r, itp⟩ with
    | error e => rw [hs] at h; simp at h
    | ok sm =>
      simp only [hs, ok_bind] at h
      cases hv : vega2abOf lib ⟨w, r, itp⟩ with
      | error e => rw [hv] at h; simp at h
      | ok vg =>
        simp only [hv, ok_bind] at h
        cases hf : fwhmLimits lib ⟨w, r, itp⟩ with
        | error e => rw [hf] at h; simp at h
        | ok p =>
          obtain ⟨lo, hi'⟩ := p
          simp only [hf, ok_bind] at h
          cases h
          subst h1
          exact ⟨rfl, rfl, ⟨h2, h3, h4 r (by simp), rfl⟩, rfl, hs, hv, hf, rfl⟩

theorem mkResponse_ok {lib : Lib ℝ} {wave resp : List ℝ} {R : Resp ℝ} (h : mkResponse lib wave resp = .ok R) :
    wave.length ≤ resp.length ∧ R.wave = gather wave (argsort wave) ∧ R.resp = gather resp (argsort wave) ∧
      respSetup lib R.wave R.resp = .ok R := by
  unfold mkResponse sortCurve at h
  split at h
  · rename_i hl
    simp only [ok_bind] at h
    have h2 := respSetup_ok (gather_sorted wave) h
    refine ⟨hl, h2.1, h2.2.1, ?_⟩
    rw [h2.1, h2.2.1]; exact h
  · simp at h

theorem mkResponse_good {lib : Lib ℝ} {wave resp : List ℝ} {R : Resp ℝ} (h : mkResponse lib wave resp = .ok R) :
    GoodCurve R.toCurve := by
  obtain ⟨_, h1, _, h3⟩ := mkResponse_ok h
  exact (respSetup_ok (by rw [h1]; exact gather_sorted wave) h3).2.2.1

/-! ### ends of an increasing list -/

theorem head_le {l : List ℝ} (h : l.Pairwise (· < ·)) {w : ℝ} (hw : w ∈ l) : l.headD 0 ≤ w := by
  cases l with
  | nil => simp at hw
  | cons a l =>
    rw [List.mem_cons] at hw
    rcases hw with rfl | hw
    · simp
    · simpa using ((List.pairwise_cons.mp h).1 w hw).le

theorem le_last {l : List ℝ} (h : l.Pairwise (· < ·)) {w : ℝ} (hw : w ∈ l) : w ≤ l.getLastD 0 := by
  induction l generalizing w with
  | nil => simp at hw
  | cons a l ih =>
    cases l with
    | nil => simp at hw; simp [hw]
    | cons b l =>
      have hp := List.pairwise_cons.mp h
      have e : (a :: b :: l).getLastD 0 = (b :: l).getLastD 0 := by
        simp [List.getLastD_eq_getLast?]
      rw [e]
      rw [List.mem_cons] at hw
      rcases hw with rfl | hw
      · exact ((hp.1 b (by simp)).le).trans (ih hp.2 (by simp))
      · exact ih hp.2 hw

theorem headD_mem {l : List ℝ} (h : l ≠ []) : l.headD 0 ∈ l := by
  cases l with
  | nil => exact absurd rfl h
  | cons a l => simp

theorem getLastD_mem {l : List ℝ} (h : l ≠ []) : l.getLastD 0 ∈ l := by
  rw [List.getLastD_eq_getLast?, List.getLast?_eq_getLast_of_ne_nil h]
  simp

theorem map_headD (l : List ℝ) (h : ℝ → ℝ) (hl : l ≠ []) : (l.map h).headD 0 = h (l.headD 0) := by
  cases l with
  | nil => exact absurd rfl hl
  | cons a l => simp

theorem map_getLastD (l : List ℝ) (h : ℝ → ℝ) (hl : l ≠ []) : (l.map h).getLastD 0 = h (l.getLastD 0) := by
  rw [List.getLastD_eq_getLast?, List.getLastD_eq_getLast?, List.getLast?_map, List.getLast?_eq_getLast_of_ne_nil hl]
  simp

theorem ne_nil_of_four {l : List ℝ} (h : 4 ≤ l.length) : l ≠ [] := by
  intro e; subst e; simp at h

/-! ### value of the response at the ends of its range -/

theorem curve_at_knot {lib : Lib ℝ} (hk : KnotExact lib) {x y : List ℝ} (hx : x.Pairwise (· < ·))
    (h4 : 4 ≤ x.length) (hl : y.length = x.length) {i : Nat} {w v : ℝ} (hw : x[i]? = some w) (hv : y[i]? = some v) :
    curveFn lib.spline x y w = v := by
  have hm := List.mem_of_getElem? hw
  unfold curveFn
  rw [if_neg (by
    push Not
    exact ⟨head_le hx hm, le_last hx hm⟩)]
  exact hk x y i w v hx h4 hl.symm hw hv

theorem curve_at_head {lib : Lib ℝ} (hk : KnotExact lib) {x y : List ℝ} (hx : x.Pairwise (· < ·))
    (h4 : 4 ≤ x.length) (hl : y.length = x.length) : curveFn lib.spline x y (x.headD 0) = y.headD 0 := by
  cases x with
  | nil => simp at h4
  | cons a x =>
    cases y with
    | nil => simp at hl
    | cons b y => exact curve_at_knot hk hx h4 hl (i := 0) (by simp) (by simp)

theorem curve_at_last {lib : Lib ℝ} (hk : KnotExact lib) {x y : List ℝ} (hx : x.Pairwise (· < ·))
    (h4 : 4 ≤ x.length) (hl : y.length = x.length) : curveFn lib.spline x y (x.getLastD 0) = y.getLastD 0 := by
  refine curve_at_knot hk hx h4 hl (i := x.length - 1) ?_ ?_
  · rw [List.getLastD_eq_getLast?, List.getLast?_eq_getElem?]
    have e : x[x.length - 1]? = some (x[x.length - 1]'(by omega)) := List.getElem?_eq_getElem _
    rw [e]; rfl
  · rw [List.getLastD_eq_getLast?, List.getLast?_eq_getElem?, ← hl]
    have e : y[y.length - 1]? = some (y[y.length - 1]'(by omega)) := List.getElem?_eq_getElem _
    rw [e]; rfl

theorem curve_out_lo {lib : Lib ℝ} {x y : List ℝ} {q : ℝ} (h : q < x.headD 0) : curveFn lib.spline x y q = 0 := by
  unfold curveFn; rw [if_pos (Or.inl h)]

theorem curve_out_hi {lib : Lib ℝ} {x y : List ℝ} {q : ℝ} (h : x.getLastD 0 < q) : curveFn lib.spline x y q = 0 := by
  unfold curveFn; rw [if_pos (Or.inr h)]

/-! ### the integrals -/

/-- What the code computes for `∫ w R f dw` on the grid: the trapezoid rule with integrand and abscissa swapped. -/
theorem bandIntegral_eq (g : List ℝ) (hg : g ≠ []) (f R : ℝ → ℝ) :
    bandIntegral g (g.map f) (g.map R) =
      g.getLastD 0 * (g.getLastD 0 * R (g.getLastD 0) * f (g.getLastD 0)) -
        g.headD 0 * (g.headD 0 * R (g.headD 0) * f (g.headD 0)) - photonInt g R f := by
  have e : List.zipWith (fun a w : ℝ => a * w) (List.zipWith (fun a b => a * b) (g.map f) (g.map R)) g =
      g.map (fun w => w * R w * f w) := by
    apply List.ext_getElem
    · simp
    · intro i h1 h2
      simp only [List.getElem_zipWith, List.getElem_map]
      ring
  unfold bandIntegral
  rw [e, trapezoid_swap _ _ (by simp), map_headD _ _ hg, map_getLastD _ _ hg]
  rfl

theorem sedAbAt_real (w : ℝ) : sedAbAt w = abFlux w := by
  simp only [sedAbAt, abFlux, real_lit]
  push_cast
  rw [pow_two]
  ring

/-- The values returned by `project`, one per spectrum. -/
theorem projOnGrid_flat (g : List ℝ) (seds : List (List ℝ)) (r : List ℝ) :
    (projOnGrid g seds r).flat = seds.map (fun s => bandIntegral g s r / bandIntegral g (g.map abFlux) r) := by
  have e : g.map sedAbAt = g.map abFlux := List.map_congr_left (fun w _ => sedAbAt_real w)
  unfold projOnGrid
  simp only [e]
  split
  · simp [NDA.flat]
  · simp [NDA.flat, NDA.vec]

theorem projectWith_none {lib : Lib ℝ} {c : Curve ℝ} {sw : List ℝ} {itp : Interp ℝ}
    (h : projGrid sw c.wave = none) : projectWith lib c sw itp = .scalar 0 := by
  unfold projectWith; rw [h]; simp

theorem projectWith_some {lib : Lib ℝ} {c : Curve ℝ} {sw g : List ℝ} {rows : List (List ℝ)}
    (hc : GoodCurve c) (h : projGrid sw c.wave = some g) :
    (projectWith lib c sw ⟨sw, rows⟩).flat = rows.map (fun y =>
      bandIntegral g (g.map (curveFn lib.spline sw y)) (g.map (curveFn lib.spline c.wave c.resp)) /
      bandIntegral g (g.map abFlux) (g.map (curveFn lib.spline c.wave c.resp))) := by
  have e : g.map (c.at lib) = g.map (curveFn lib.spline c.wave c.resp) :=
    List.map_congr_left (fun w _ => hc.at_eq lib w)
  unfold projectWith
  rw [h]
  simp only [e, projOnGrid_flat, Interp.eval, List.map_map]
  apply List.map_congr_left
  intro y _
  have e2 : g.map (interpRow lib sw y) = g.map (curveFn lib.spline sw y) :=
    List.map_congr_left (fun w _ => interpRow_real lib sw y w)
  simp only [Function.comp_apply, e2]

theorem projectWith_single {lib : Lib ℝ} {c : Curve ℝ} {sw y : List ℝ} :
    ∃ v, projectWith lib c sw ⟨sw, [y]⟩ = .scalar v := by
  unfold projectWith
  split
  · exact ⟨_, rfl⟩
  · exact ⟨_, rfl⟩

theorem union_ne_nil {sw rw g : List ℝ} (h : UnionGrid sw rw g) (hr : rw ≠ []) : g ≠ [] := by
  intro e; subst e
  have := h.band _ (headD_mem hr)
  simp at this

/-- The response vanishes at the first grid point if it does so at its own first sample, or if the grid
starts below the band. -/
theorem resp_head_zero {lib : Lib ℝ} (hk : KnotExact lib) {c : Curve ℝ} (hc : GoodCurve c) {sw g : List ℝ}
    (hg : UnionGrid sw c.wave g) (h : c.resp.headD 0 = 0 ∨ ∃ w ∈ g, w < c.wave.headD 0) :
    curveFn lib.spline c.wave c.resp (g.headD 0) = 0 := by
  have hne := ne_nil_of_four hc.four
  have hle : g.headD 0 ≤ c.wave.headD 0 := head_le hg.incr (hg.band _ (headD_mem hne))
  rcases h with h | ⟨w, hw, hlt⟩
  · rcases hle.lt_or_eq with h1 | h1
    · exact curve_out_lo h1
    · rw [h1, curve_at_head hk hc.incr hc.four hc.len, h]
  · exact curve_out_lo (lt_of_le_of_lt (head_le hg.incr hw) hlt)

theorem resp_last_zero {lib : Lib ℝ} (hk : KnotExact lib) {c : Curve ℝ} (hc : GoodCurve c) {sw g : List ℝ}
    (hg : UnionGrid sw c.wave g) (h : c.resp.getLastD 0 = 0 ∨ ∃ w ∈ g, c.wave.getLastD 0 < w) :
    curveFn lib.spline c.wave c.resp (g.getLastD 0) = 0 := by
  have hne := ne_nil_of_four hc.four
  have hle : c.wave.getLastD 0 ≤ g.getLastD 0 := le_last hg.incr (hg.band _ (getLastD_mem hne))
  rcases h with h | ⟨w, hw, hlt⟩
  · rcases hle.lt_or_eq with h1 | h1
    · exact curve_out_hi h1
    · rw [← h1, curve_at_last hk hc.incr hc.four hc.len, h]
  · exact curve_out_hi (lt_of_lt_of_le hlt (le_last hg.incr hw))

/-- A spectrum with increasing wavelengths that has a sample below the band has one on the grid. -/
theorem grid_below {sw rw g : List ℝ} (hs : sw.Pairwise (· < ·)) (hp : projGrid sw rw = some g)
    (h : ∃ w ∈ sw, w < rw.headD 0) : ∃ w ∈ g, w < rw.headD 0 := by
  have hs' : sw.Pairwise (· ≤ ·) := hs.imp le_of_lt
  have hfin : {v | v ∈ sw ∧ v < rw.headD 0}.Finite := (List.finite_toSet sw).subset (fun v hv => hv.1)
  obtain ⟨w, hw, hlt⟩ := h
  obtain ⟨m, hm⟩ := hfin.exists_maximal ⟨w, hw, hlt⟩
  refine ⟨m, ?_, hm.prop.2⟩
  rw [projGrid_mem hs' hp]
  right; right; left
  refine ⟨hm.prop, ?_⟩
  intro v hv
  rcases le_total v m with h1 | h1
  · exact h1
  · exact hm.le_of_ge hv h1

theorem grid_above {sw rw g : List ℝ} (hs : sw.Pairwise (· < ·)) (hp : projGrid sw rw = some g)
    (h : ∃ w ∈ sw, rw.getLastD 0 < w) : ∃ w ∈ g, rw.getLastD 0 < w := by
  have hs' : sw.Pairwise (· ≤ ·) := hs.imp le_of_lt
  have hfin : {v | v ∈ sw ∧ rw.getLastD 0 < v}.Finite := (List.finite_toSet sw).subset (fun v hv => hv.1)
  obtain ⟨w, hw, hlt⟩ := h
  obtain ⟨m, hm⟩ := hfin.exists_minimal ⟨w, hw, hlt⟩
  refine ⟨m, ?_, hm.prop.2⟩
  rw [projGrid_mem hs' hp]
  right; right; right
  refine ⟨hm.prop, ?_⟩
  intro v hv
  rcases le_total m v with h1 | h1
  · exact h1
  · exact hm.le_of_le hv h1

end KC
