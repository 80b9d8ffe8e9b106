import Verif.Props.HalfMax
import Mathlib.MeasureTheory.Integral.IntervalIntegral.TrapezoidalRule

/-!
C163: how far the sums in `project` are from the integrals they stand for.
-/

namespace KC
open Spec MeasureTheory Set

/-- one interval -/
theorem seg_err {G : ℝ → ℝ} {u v D : ℝ} (h : u < v) (hD : 0 ≤ D) (hG : ContDiffOn ℝ 2 G (Icc u v)) (hb : ∀ x ∈ Ioo u v, |deriv (deriv G) x| ≤ D) :
    |(v - u) * ((G u + G v) / 2) - ∫ x in u..v, G x| ≤ (v - u) ^ 3 * D / 12 := by
  have hin : ∀ x ∈ Ioo u v, |iteratedDerivWithin 2 G (Icc u v) x| ≤ D := by
    intro x hx
    have e1 : iteratedDerivWithin 1 G (Icc u v) =ᶠ[nhds x] deriv G := by
      filter_upwards [Ioo_mem_nhds hx.1 hx.2] with y hy
      rw [iteratedDerivWithin_one, derivWithin_of_mem_nhds (Icc_mem_nhds hy.1 hy.2)]
    rw [show (2 : ℕ) = 1 + 1 from rfl, iteratedDerivWithin_succ, derivWithin_of_mem_nhds (Icc_mem_nhds hx.1 hx.2), e1.deriv_eq]
    exact hb x hx
  have hcl : ∀ x ∈ Icc u v, |iteratedDerivWithin 2 G (Icc u v) x| ≤ D := by
    have hc := hG.continuousOn_iteratedDerivWithin (m := 2) le_rfl (uniqueDiffOn_Icc h)
    intro x hx
    have hx' : x ∈ closure (Ioo u v) := by rw [closure_Ioo h.ne]; exact hx
    have hsub : Ioo u v ⊆ Icc u v := Ioo_subset_Icc_self
    have := (hc x hx).mono hsub
    have hm := this.mem_closure hx' (t := {y | |y| ≤ D}) (fun y hy => hin y hy)
    have hcl : IsClosed {y : ℝ | |y| ≤ D} := isClosed_le continuous_abs continuous_const
    rw [hcl.closure_eq] at hm
    exact hm
  have hall : ∀ x, |iteratedDerivWithin 2 G (uIcc u v) x| ≤ D := by
    intro x
    rw [uIcc_of_lt h]
    by_cases hx : x ∈ Icc u v
    · exact hcl x hx
    · have : x ∉ closure (Icc u v) := by rw [isClosed_Icc.closure_eq]; exact hx
      rw [show (2 : ℕ) = 1 + 1 from rfl, iteratedDerivWithin_succ, derivWithin_zero_of_notMem_closure this, abs_zero]
      exact hD
  have := trapezoidal_error_le_of_c2 (by rw [uIcc_of_lt h]; exact hG) hall (N := 1) one_pos
  rw [trapezoidal_error, trapezoidal_integral_one, abs_of_pos (sub_pos.mpr h)] at this
  have e : (v - u) / 2 * (G u + G v) = (v - u) * ((G u + G v) / 2) := by ring
  rw [e] at this
  simpa using this

/-- `x` moved into `[a, b]` -/
noncomputable def clampTo (a b x : ℝ) : ℝ := max a (min b x)

/-- errors of the intervals add up -/
theorem trap_sum {G c : ℝ → ℝ} {E : ℝ} : ∀ (g : List ℝ) (u : ℝ),
    (∀ (i : Nat) x y, (u :: g)[i]? = some x → (u :: g)[i + 1]? = some y → IntervalIntegrable G volume (c x) (c y) ∧
      |(y - x) * ((G x + G y) / 2) - ∫ t in (c x)..(c y), G t| ≤ E * (c y - c x)) →
    IntervalIntegrable G volume (c u) (c ((u :: g).getLastD 0)) ∧
      |trapRule (u :: g) ((u :: g).map G) - ∫ t in (c u)..(c ((u :: g).getLastD 0)), G t| ≤ E * (c ((u :: g).getLastD 0) - c u)
  | [], u, _ => by simp [trapRule]
  | v :: g, u, h => by
    have ih := trap_sum g v (fun i x y hx hy => h (i + 1) x y (by simpa using hx) (by simpa using hy))
    have h0 := h 0 u v (by simp) (by simp)
    have el : (u :: v :: g).getLastD 0 = (v :: g).getLastD 0 := by simp
    rw [el]
    refine ⟨h0.1.trans ih.1, ?_⟩
    rw [← intervalIntegral.integral_add_adjacent_intervals h0.1 ih.1]
    have e : trapRule (u :: v :: g) ((u :: v :: g).map G) = (v - u) * ((G u + G v) / 2) + trapRule (v :: g) ((v :: g).map G) := rfl
    rw [e]
    have := abs_add_le ((v - u) * ((G u + G v) / 2) - ∫ t in (c u)..(c v), G t)
      (trapRule (v :: g) ((v :: g).map G) - ∫ t in (c v)..(c ((v :: g).getLastD 0)), G t)
    calc _ = |((v - u) * ((G u + G v) / 2) - ∫ t in (c u)..(c v), G t) +
        (trapRule (v :: g) ((v :: g).map G) - ∫ t in (c v)..(c ((v :: g).getLastD 0)), G t)| := by congr 1; ring
      _ ≤ _ := this
      _ ≤ E * (c v - c u) + E * (c ((v :: g).getLastD 0) - c v) := add_le_add h0.2 ih.2
      _ = _ := by ring

/-- the next entry of an increasing list is at most any larger entry -/
theorem next_le {g : List ℝ} (hg : g.Pairwise (· < ·)) {i : Nat} {x y w : ℝ} (hx : g[i]? = some x) (hy : g[i + 1]? = some y) (hw : w ∈ g) (h : x < w) : y ≤ w := by
  obtain ⟨hi, rfl⟩ := List.getElem?_eq_some_iff.mp hx
  obtain ⟨hj, rfl⟩ := List.getElem?_eq_some_iff.mp hy
  obtain ⟨k, hk, rfl⟩ := List.mem_iff_getElem.mp hw
  have hlt := List.pairwise_iff_getElem.mp hg
  rcases Nat.lt_trichotomy (i + 1) k with h1 | h1 | h1
  · exact (hlt _ _ hj hk h1).le
  · subst h1; exact le_rfl
  · exfalso
    rcases Nat.lt_or_ge k i with h2 | h2
    · exact absurd (hlt _ _ hk hi h2) (not_lt.mpr h.le)
    · have : k = i := by omega
      subst this
      exact lt_irrefl _ h

theorem next_lt {g : List ℝ} (hg : g.Pairwise (· < ·)) {i : Nat} {x y : ℝ} (hx : g[i]? = some x) (hy : g[i + 1]? = some y) : x < y := by
  obtain ⟨hi, rfl⟩ := List.getElem?_eq_some_iff.mp hx
  obtain ⟨hj, rfl⟩ := List.getElem?_eq_some_iff.mp hy
  exact List.pairwise_iff_getElem.mp hg _ _ hi hj (Nat.lt_succ_self i)

theorem ent_head {l : List ℝ} (h : 0 < l.length) : ent l 0 = l.headD 0 := by
  cases l with
  | nil => simp at h
  | cons a l => simp [ent]

theorem ent_last {l : List ℝ} : ent l (l.length - 1) = l.getLastD 0 := by
  rw [List.getLastD_eq_getLast?, List.getLast?_eq_getElem?]
  simp [ent]

/-- two points of the range with no sample strictly between them lie in one interval -/
theorem one_interval {x : List ℝ} (hx : Knots x) {p q : ℝ} (h1 : x.headD 0 ≤ p) (h2 : p < q) (h3 : q ≤ x.getLastD 0) (hno : ∀ w ∈ x, ¬ (p < w ∧ w < q)) :
    ∃ i, i + 1 < x.length ∧ ent x i ≤ p ∧ q ≤ ent x (i + 1) := by
  have h4 := hx.four
  have hex : ∃ k, k < x.length ∧ p < ent x k := ⟨x.length - 1, by omega, by rw [ent_last]; linarith⟩
  classical
  set k := Nat.find hex with hk
  obtain ⟨hk1, hk2⟩ := Nat.find_spec hex
  rw [← hk] at hk1 hk2
  have hk0 : k ≠ 0 := by
    intro h
    rw [h, ent_head (by omega)] at hk2
    linarith
  have hmin : ¬ (k - 1 < x.length ∧ p < ent x (k - 1)) := Nat.find_min hex (by omega)
  refine ⟨k - 1, by omega, ?_, ?_⟩
  · by_contra hc
    exact hmin ⟨by omega, not_le.mp hc⟩
  · rw [show k - 1 + 1 = k by omega]
    by_contra hc
    refine hno (ent x k) ?_ ⟨hk2, not_le.mp hc⟩
    rw [ent_some hk1]
    exact List.getElem_mem _

/-- between samples a curve is smooth -/
theorem curve_smooth {x : List ℝ} (y : List ℝ) (hx : Knots x) {p q : ℝ} (h1 : x.headD 0 ≤ p) (h2 : p < q) (h3 : q ≤ x.getLastD 0) (hno : ∀ w ∈ x, ¬ (p < w ∧ w < q)) :
    ContDiffOn ℝ 2 (curveFn nakSpline x y) (Icc p q) := by
  obtain ⟨i, hi, hp, hq⟩ := one_interval hx h1 h2 h3 hno
  have hval : ContDiffOn ℝ 2 (nakCub x y i).val (Icc p q) := by
    refine ContDiff.contDiffOn ?_
    unfold Cub.val
    fun_prop
  refine hval.congr fun t ht => ?_
  unfold curveFn
  rw [if_neg (by
    push Not
    exact ⟨h1.trans ht.1, ht.2.trans h3⟩)]
  exact nakSpline_piece hx y hi (hp.trans ht.1) (ht.2.trans hq)

/-- the sum of `project` against the integral over the band, for a response that vanishes at the ends of the band and a source that is smooth
between the samples -/
theorem trap_band {rw rr sw g : List ℝ} (hk : Knots rw) (h0 : curveFn nakSpline rw rr (rw.headD 0) = 0) (h1 : curveFn nakSpline rw rr (rw.getLastD 0) = 0)
    (hg : UnionGrid sw rw g) {F : ℝ → ℝ}
    (hF : ∀ x y, rw.headD 0 ≤ x → x < y → y ≤ rw.getLastD 0 → (∀ w ∈ sw, ¬ (x < w ∧ w < y)) → ContDiffOn ℝ 2 F (Icc x y)) {D h : ℝ}
    (hb : ∀ x ∈ Ioo (rw.headD 0) (rw.getLastD 0), |deriv (deriv (fun w => w * curveFn nakSpline rw rr w * F w)) x| ≤ D)
    (hh : ∀ x y, rw.headD 0 ≤ x → x < y → y ≤ rw.getLastD 0 → (∀ w ∈ rw ++ sw, ¬ (x < w ∧ w < y)) → y - x ≤ h) :
    |photonInt g (curveFn nakSpline rw rr) F - ∫ w in (rw.headD 0)..(rw.getLastD 0), w * curveFn nakSpline rw rr w * F w| ≤
      D * h ^ 2 / 12 * (rw.getLastD 0 - rw.headD 0) := by
  have h4 := hk.four
  set a := rw.headD 0 with ha
  set b := rw.getLastD 0 with hbb
  set G : ℝ → ℝ := fun w => w * curveFn nakSpline rw rr w * F w with hG
  have hab : a < b := by
    rw [ha, hbb, ← ent_head (by omega), ← ent_last]
    exact ent_lt hk.incr (by omega) (by omega)
  have hD : 0 ≤ D := (abs_nonneg _).trans (hb ((a + b) / 2) ⟨by linarith, by linarith⟩)
  have hamem : a ∈ g := by
    refine hg.band _ ?_
    rw [ha, ← ent_head (by omega), ent_some (by omega)]
    exact List.getElem_mem _
  have hbmem : b ∈ g := by
    refine hg.band _ ?_
    rw [hbb, ← ent_last, ent_some (by omega)]
    exact List.getElem_mem _
  have hz1 : ∀ w, w ≤ a → G w = 0 := by
    intro w hw
    have : curveFn nakSpline rw rr w = 0 := by
      rcases hw.lt_or_eq with h | h
      · unfold curveFn
        rw [if_pos (Or.inl h)]
      · rw [h, h0]
    rw [hG]
    simp [this]
  have hz2 : ∀ w, b ≤ w → G w = 0 := by
    intro w hw
    have : curveFn nakSpline rw rr w = 0 := by
      rcases hw.lt_or_eq with h | h
      · unfold curveFn
        rw [if_pos (Or.inr h)]
      · rw [← h, h1]
    rw [hG]
    simp [this]
  have c1 : ∀ w, w ≤ a → clampTo a b w = a := fun w hw => by
    unfold clampTo
    rw [min_eq_right (by linarith), max_eq_left hw]
  have c2 : ∀ w, b ≤ w → clampTo a b w = b := fun w hw => by
    unfold clampTo
    rw [min_eq_left hw, max_eq_right hab.le]
  have c3 : ∀ w, a ≤ w → w ≤ b → clampTo a b w = w := fun w h1 h2 => by
    unfold clampTo
    rw [min_eq_right h2, max_eq_right h1]
  cases hgg : g with
  | nil => rw [hgg] at hamem; simp at hamem
  | cons u t =>
    have hlast : b ≤ (u :: t).getLastD 0 := by rw [← hgg]; exact le_last hg.incr hbmem
    have hfirst : u ≤ a := by
      have := head_le hg.incr hamem
      rw [hgg] at this
      simpa using this
    have key := trap_sum (G := G) (c := clampTo a b) (E := D * h ^ 2 / 12) t u (by
      intro i x y hx hy
      rw [← hgg] at hx hy
      have hxy := next_lt hg.incr hx hy
      by_cases hxa : x < a
      · have hya : y ≤ a := next_le hg.incr hx hy hamem hxa
        rw [c1 x hxa.le, c1 y hya, hz1 x hxa.le, hz1 y hya]
        simp
      · by_cases hyb : b < y
        · have hxb : b ≤ x := by
            by_contra hc
            exact absurd (next_le hg.incr hx hy hbmem (not_le.mp hc)) (not_le.mpr hyb)
          rw [c2 x hxb, c2 y hyb.le, hz2 x hxb, hz2 y hyb.le]
          simp
        · push Not at hxa hyb
          rw [c3 x hxa (hxy.le.trans hyb), c3 y (hxa.trans hxy.le) hyb]
          have hno1 : ∀ w ∈ rw, ¬ (x < w ∧ w < y) := fun w hw hc => absurd (next_le hg.incr hx hy (hg.band w hw) hc.1) (not_le.mpr hc.2)
          have hno2 : ∀ w ∈ sw, ¬ (x < w ∧ w < y) := fun w hw hc =>
            absurd (next_le hg.incr hx hy (hg.sed w hw (hxa.trans hc.1.le) (hc.2.le.trans hyb)) hc.1) (not_le.mpr hc.2)
          have hcd : ContDiffOn ℝ 2 G (Icc x y) :=
            (contDiffOn_id.mul (curve_smooth rr hk hxa hxy hyb hno1)).mul (hF x y hxa hxy hyb hno2)
          refine ⟨(hcd.continuousOn.mono (by rw [uIcc_of_lt hxy])).intervalIntegrable, ?_⟩
          have he := seg_err hxy hD hcd (fun z hz => hb z ⟨hxa.trans_lt hz.1, hz.2.trans_le hyb⟩)
          refine he.trans ?_
          have hle := hh x y hxa hxy hyb (fun w hw => (List.mem_append.mp hw).elim (hno1 w) (hno2 w))
          have h2 : (y - x) ^ 2 ≤ h ^ 2 := pow_le_pow_left₀ (sub_pos.mpr hxy).le hle 2
          have h3 := mul_le_mul_of_nonneg_left h2 (mul_nonneg hD (sub_pos.mpr hxy).le)
          have e1 : (y - x) ^ 3 * D / 12 = D * (y - x) * (y - x) ^ 2 / 12 := by ring
          have e2 : D * h ^ 2 / 12 * (y - x) = D * (y - x) * h ^ 2 / 12 := by ring
          rw [e1, e2]
          linarith)
    have k2 := key.2
    rw [c1 u hfirst, c2 _ hlast] at k2
    exact k2

/-- Consecutive samples of the band or the spectrum are at most `h` apart inside the band: two wavelengths of the band with no sample between them
differ by at most `h`. -/
def Spacing (rw sw : List ℝ) (h : ℝ) : Prop :=
  ∀ x y, rw.headD 0 ≤ x → x < y → y ≤ rw.getLastD 0 → (∀ w ∈ rw ++ sw, ¬ (x < w ∧ w < y)) → y - x ≤ h

/-- C163: for a band whose response vanishes at its ends and a spectrum that covers the band, `project` returns `N / A`, where `N` and `A` are the
integrals over the band of (wavelength) x (response) x (spectrum) and of (wavelength) x (response) x (AB source), of the interpolated curves, up to
the error of the trapezoid rule: a twelfth of the bound on the second derivative, times the square of the sample spacing, times the width of the band. -/
theorem C163_integral (lib : Lib ℝ) (wave resp : List ℝ) (R : Resp ℝ) (hR : mkResponse lib.cubic wave resp = .ok R) (sw : List ℝ) (hs : sw.Pairwise (· < ·))
    (y : List ℝ) (m : NDA ℝ) (hm : Projects lib.cubic R.toCurve sw [y] m) (hov : ∃ w ∈ sw, R.wave.headD 0 ≤ w ∧ w ≤ R.wave.getLastD 0)
    (h0 : R.resp.headD 0 = 0) (h1 : R.resp.getLastD 0 = 0) (ha : 0 < R.wave.headD 0) (hc0 : sw.headD 0 ≤ R.wave.headD 0) (hc1 : R.wave.getLastD 0 ≤ sw.getLastD 0) :
    ∃ N A, m.flat = [N / A] ∧ ∀ h, Spacing R.wave sw h →
      (∀ D, (∀ x ∈ Ioo (R.wave.headD 0) (R.wave.getLastD 0),
          |deriv (deriv (fun w => w * curveFn nakSpline R.wave R.resp w * curveFn nakSpline sw y w)) x| ≤ D) →
        |N - ∫ w in (R.wave.headD 0)..(R.wave.getLastD 0), w * curveFn nakSpline R.wave R.resp w * curveFn nakSpline sw y w| ≤
          D * h ^ 2 / 12 * (R.wave.getLastD 0 - R.wave.headD 0)) ∧
      (∀ D, (∀ x ∈ Ioo (R.wave.headD 0) (R.wave.getLastD 0),
          |deriv (deriv (fun w => w * curveFn nakSpline R.wave R.resp w * abFlux w)) x| ≤ D) →
        |A - ∫ w in (R.wave.headD 0)..(R.wave.getLastD 0), w * curveFn nakSpline R.wave R.resp w * abFlux w| ≤
          D * h ^ 2 / 12 * (R.wave.getLastD 0 - R.wave.headD 0)) := by
  have hk : KnotExact lib.cubic := (C159_contracts lib).1
  have hc := mkResponse_good hR
  have hkn : Knots R.wave := ⟨hc.incr, hc.four⟩
  obtain ⟨_, hs4, _⟩ := projects_eq hs hm
  have hsn : Knots sw := ⟨hs, hs4⟩
  obtain ⟨g, hg, hf⟩ := C18_project_ratio_partial lib.cubic hk wave resp R hR sw hs [y] m hm hov ⟨Or.inl h0, Or.inl h1⟩
  have e0 : curveFn nakSpline R.wave R.resp (R.wave.headD 0) = 0 := by
    refine Eq.trans ?_ h0; exact curve_at_head (lib := lib.cubic) hk hc.incr hc.four hc.len
  have e1 : curveFn nakSpline R.wave R.resp (R.wave.getLastD 0) = 0 := by
    refine Eq.trans ?_ h1; exact curve_at_last (lib := lib.cubic) hk hc.incr hc.four hc.len
  refine ⟨_, _, by rw [hf]; rfl, fun h hh => ⟨fun D hD => ?_, fun D hD => ?_⟩⟩
  · exact trap_band hkn e0 e1 hg (fun p q hp hpq hq hno => curve_smooth y hsn (hc0.trans hp) hpq (hq.trans hc1) hno) hD hh
  · refine trap_band hkn e0 e1 hg (fun p q hp hpq hq _ => ?_) hD hh
    unfold abFlux
    refine ContDiffOn.div contDiffOn_const (contDiffOn_id.pow 2) fun t ht => ?_
    have : 0 < t := ha.trans_le (hp.trans ht.1)
    show t ^ 2 ≠ 0
    positivity

/-- the first two derivatives of an interpolated curve inside its range -/
theorem curve_derivs {x : List ℝ} (y : List ℝ) (h : Knots x) {q : ℝ} (ha : x.headD 0 < q) (hb : q < x.getLastD 0) :
    HasDerivAt (curveFn nakSpline x y) ((nakCub x y (nakSeg x q)).slope q) q ∧
    HasDerivAt (fun q => (nakCub x y (nakSeg x q)).slope q) ((nakCub x y (nakSeg x q)).curv q) q := by
  have h4 := h.four
  rw [← ent_head (by omega)] at ha
  rw [← ent_last] at hb
  have g0 : Glued x (nakSpline x y) (fun i => (nakCub x y i).val) := fun i hi q h1 h2 => nakSpline_piece h y hi h1 h2
  have g1 := glued_of_joins h (fun i => (nakCub x y i).slope) (fun i hi => (nakCub_joins h y i hi).2.1)
  have g2 := glued_of_joins h (fun i => (nakCub x y i).curv) (fun i hi => (nakCub_joins h y i hi).2.2)
  refine ⟨?_, glue_deriv h.incr (by omega) g1 g2 (fun i => (nakCub x y i).hasDeriv2) ha hb⟩
  refine (glue_deriv h.incr (by omega) g0 g1 (fun i => (nakCub x y i).hasDeriv) ha hb).congr_of_eventuallyEq ?_
  filter_upwards [Ioo_mem_nhds ha hb] with t ht
  unfold curveFn
  rw [if_neg (by
    push Not
    rw [← ent_head (by omega), ← ent_last]
    exact ⟨ht.1.le, ht.2.le⟩)]

/-- values and derivatives of the pieces are bounded on the range -/
theorem pieces_bounded (x y : List ℝ) (a b : ℝ) : ∃ B, 0 ≤ B ∧ ∀ i, i < x.length → ∀ q ∈ Icc a b,
    |(nakCub x y i).val q| ≤ B ∧ |(nakCub x y i).slope q| ≤ B ∧ |(nakCub x y i).curv q| ≤ B := by
  have key : ∀ n : Nat, ∃ B, 0 ≤ B ∧ ∀ i, i < n → ∀ q ∈ Icc a b,
      |(nakCub x y i).val q| ≤ B ∧ |(nakCub x y i).slope q| ≤ B ∧ |(nakCub x y i).curv q| ≤ B := by
    intro n
    induction n with
    | zero => exact ⟨0, le_rfl, fun i hi => absurd hi (Nat.not_lt_zero _)⟩
    | succ n ih =>
      obtain ⟨B, hB, h⟩ := ih
      have bd : ∀ f : ℝ → ℝ, Continuous f → ∃ C, ∀ q ∈ Icc a b, |f q| ≤ C := fun f hf => isCompact_Icc.exists_bound_of_continuousOn hf.continuousOn
      obtain ⟨C1, h1⟩ := bd (nakCub x y n).val (by unfold Cub.val; fun_prop)
      obtain ⟨C2, h2⟩ := bd (nakCub x y n).slope (by unfold Cub.slope; fun_prop)
      obtain ⟨C3, h3⟩ := bd (nakCub x y n).curv (by unfold Cub.curv; fun_prop)
      refine ⟨max B (max C1 (max C2 C3)), hB.trans (le_max_left _ _), fun i hi q hq => ?_⟩
      rcases Nat.lt_succ_iff_lt_or_eq.mp hi with hi | rfl
      · obtain ⟨a1, a2, a3⟩ := h i hi q hq
        exact ⟨a1.trans (le_max_left _ _), a2.trans (le_max_left _ _), a3.trans (le_max_left _ _)⟩
      · exact ⟨(h1 q hq).trans (by simp), (h2 q hq).trans (by simp), (h3 q hq).trans (by simp)⟩
  exact key x.length

theorem second_bound {a b B W : ℝ} (hB : 0 ≤ B) (hW : 0 ≤ W) {R R1 R2 S S1 S2 : ℝ → ℝ}
    (hR : ∀ q ∈ Ioo a b, HasDerivAt R (R1 q) q ∧ HasDerivAt R1 (R2 q) q ∧ |R q| ≤ B ∧ |R1 q| ≤ B ∧ |R2 q| ≤ B)
    (hS : ∀ q ∈ Ioo a b, HasDerivAt S (S1 q) q ∧ HasDerivAt S1 (S2 q) q ∧ |S q| ≤ B ∧ |S1 q| ≤ B ∧ |S2 q| ≤ B) (hq : ∀ q ∈ Ioo a b, |q| ≤ W) :
    ∀ q ∈ Ioo a b, |deriv (deriv (fun w => w * R w * S w)) q| ≤ B ^ 2 * (4 + 4 * W) := by
  intro q hqi
  have d1 : ∀ t ∈ Ioo a b, HasDerivAt (fun w => w * R w * S w) ((1 * R t + t * R1 t) * S t + t * R t * S1 t) t := fun t ht =>
    ((hasDerivAt_id t).mul (hR t ht).1).mul (hS t ht).1
  have e : deriv (fun w => w * R w * S w) =ᶠ[nhds q] fun t => (1 * R t + t * R1 t) * S t + t * R t * S1 t := by
    filter_upwards [Ioo_mem_nhds hqi.1 hqi.2] with t ht
    exact (d1 t ht).deriv
  obtain ⟨r0, r1, br0, br1, br2⟩ := hR q hqi
  obtain ⟨s0, s1, bs0, bs1, bs2⟩ := hS q hqi
  have d2 := ((((r0.const_mul 1).add ((hasDerivAt_id q).mul r1)).mul s0).add (((hasDerivAt_id q).mul r0).mul s1))
  rw [e.deriv_eq]
  have d3 : HasDerivAt (fun t => (1 * R t + t * R1 t) * S t + t * R t * S1 t)
      (2 * R1 q * S q + 2 * R q * S1 q + 2 * q * R1 q * S1 q + q * R2 q * S q + q * R q * S2 q) q := by
    refine HasDerivAt.congr_deriv (f' := _) d2 ?_
    simp only [id, Pi.mul_apply, Pi.add_apply]
    ring
  rw [d3.deriv]
  have hw := hq q hqi
  have m2 : ∀ u v : ℝ, |u| ≤ B → |v| ≤ B → |u * v| ≤ B ^ 2 := by
    intro u v hu hv
    rw [abs_mul, sq]
    exact mul_le_mul hu hv (abs_nonneg _) hB
  have m3 : ∀ u v : ℝ, |u| ≤ B → |v| ≤ B → |q * (u * v)| ≤ W * B ^ 2 := by
    intro u v hu hv
    rw [abs_mul]
    exact mul_le_mul hw (m2 u v hu hv) (abs_nonneg _) hW
  have b1 := abs_le.mp (m2 _ _ br1 bs0)
  have b2 := abs_le.mp (m2 _ _ br0 bs1)
  have b3 := abs_le.mp (m3 _ _ br1 bs1)
  have b4 := abs_le.mp (m3 _ _ br2 bs0)
  have b5 := abs_le.mp (m3 _ _ br0 bs2)
  rw [abs_le]
  constructor <;> nlinarith

theorem seg_lt (x : List ℝ) (h : 4 ≤ x.length) (q : ℝ) : nakSeg x q < x.length := by
  unfold nakSeg
  have := List.length_filter_le (fun k => leb (ent x (k + 1)) q) (List.range (x.length - 2))
  simp only [List.length_range] at this
  omega

/-- C163: the second derivatives in `C163_integral` are bounded, whatever the band and the spectrum, so the error decreases at least as the square of
the spacing. -/
theorem C163_bounded (rw rr sw y : List ℝ) (hr : rw.Pairwise (· < ·)) (hr4 : 4 ≤ rw.length) (hs : sw.Pairwise (· < ·)) (hs4 : 4 ≤ sw.length) (ha : 0 < rw.headD 0)
    (hc0 : sw.headD 0 ≤ rw.headD 0) (hc1 : rw.getLastD 0 ≤ sw.getLastD 0) :
    ∃ D, (∀ x ∈ Ioo (rw.headD 0) (rw.getLastD 0), |deriv (deriv (fun w => w * curveFn nakSpline rw rr w * curveFn nakSpline sw y w)) x| ≤ D) ∧
      ∀ x ∈ Ioo (rw.headD 0) (rw.getLastD 0), |deriv (deriv (fun w => w * curveFn nakSpline rw rr w * abFlux w)) x| ≤ D := by
  set a := rw.headD 0 with haa
  set b := rw.getLastD 0 with hbb
  have hkr : Knots rw := ⟨hr, hr4⟩
  have hks : Knots sw := ⟨hs, hs4⟩
  obtain ⟨B1, hB1, h1⟩ := pieces_bounded rw rr a b
  obtain ⟨B2, hB2, h2⟩ := pieces_bounded sw y a b
  have bd : ∀ f : ℝ → ℝ, ContinuousOn f (Icc a b) → ∃ C, ∀ q ∈ Icc a b, |f q| ≤ C := fun f hf => isCompact_Icc.exists_bound_of_continuousOn hf
  have hpos : ∀ q ∈ Icc a b, q ≠ 0 := fun q hq => (ha.trans_le hq.1).ne'
  obtain ⟨C1, k1⟩ := bd abFlux (by
    unfold abFlux
    exact ContinuousOn.div continuousOn_const (continuousOn_id.pow 2) (fun q hq => pow_ne_zero 2 (hpos q hq)))
  obtain ⟨C2, k2⟩ := bd (fun w => -2 * (0.03631 * 2.99792) / w ^ 3) (ContinuousOn.div continuousOn_const (continuousOn_id.pow 3) (fun q hq => pow_ne_zero 3 (hpos q hq)))
  obtain ⟨C3, k3⟩ := bd (fun w => 6 * (0.03631 * 2.99792) / w ^ 4) (ContinuousOn.div continuousOn_const (continuousOn_id.pow 4) (fun q hq => pow_ne_zero 4 (hpos q hq)))
  set B := max B1 (max B2 (max C1 (max C2 C3))) with hBdef
  have l1 : B1 ≤ B := le_max_left _ _
  have l2 : B2 ≤ B := (le_max_left _ _).trans (le_max_right _ _)
  have l3 : C1 ≤ B := (le_max_left _ _).trans ((le_max_right _ _).trans (le_max_right _ _))
  have l4 : C2 ≤ B := (le_max_left _ _).trans ((le_max_right _ _).trans ((le_max_right _ _).trans (le_max_right _ _)))
  have l5 : C3 ≤ B := (le_max_right _ _).trans ((le_max_right _ _).trans ((le_max_right _ _).trans (le_max_right _ _)))
  have hB : 0 ≤ B := hB1.trans l1
  have curve : ∀ (x v : List ℝ) (hx : Knots x) (C : ℝ), C ≤ B → x.headD 0 ≤ a → b ≤ x.getLastD 0 → (∀ i, i < x.length → ∀ q ∈ Icc a b,
      |(nakCub x v i).val q| ≤ C ∧ |(nakCub x v i).slope q| ≤ C ∧ |(nakCub x v i).curv q| ≤ C) → ∀ q ∈ Ioo a b,
      HasDerivAt (curveFn nakSpline x v) ((fun q => (nakCub x v (nakSeg x q)).slope q) q) q ∧
      HasDerivAt (fun q => (nakCub x v (nakSeg x q)).slope q) ((fun q => (nakCub x v (nakSeg x q)).curv q) q) q ∧
      |curveFn nakSpline x v q| ≤ B ∧ |(fun q => (nakCub x v (nakSeg x q)).slope q) q| ≤ B ∧ |(fun q => (nakCub x v (nakSeg x q)).curv q) q| ≤ B := by
    intro x v hx C hC h0 h1 hb q hq
    obtain ⟨d1, d2⟩ := curve_derivs v hx (h0.trans_lt hq.1) (hq.2.trans_le h1)
    obtain ⟨b1, b2, b3⟩ := hb _ (seg_lt x hx.four q) q ⟨hq.1.le, hq.2.le⟩
    refine ⟨d1, d2, ?_, b2.trans hC, b3.trans hC⟩
    have e : curveFn nakSpline x v q = (nakCub x v (nakSeg x q)).val q := by
      unfold curveFn
      rw [if_neg (by
        push Not
        exact ⟨h0.trans hq.1.le, hq.2.le.trans h1⟩)]
      unfold nakSpline
      rw [nakPiece_cub]
      rfl
    rw [e]
    exact b1.trans hC
  have hW : ∀ q ∈ Ioo a b, |q| ≤ |a| + |b| := by
    intro q hq
    have := abs_le_max_abs_abs hq.1.le hq.2.le
    have := abs_nonneg a
    have := abs_nonneg b
    rcases le_total |a| |b| with h | h
    · rw [max_eq_right h] at *; linarith
    · rw [max_eq_left h] at *; linarith
  have hR := curve rw rr hkr B1 l1 le_rfl le_rfl h1
  refine ⟨_, second_bound hB (by positivity) hR (curve sw y hks B2 l2 hc0 hc1 h2) hW, ?_⟩
  refine second_bound hB (by positivity) hR (S1 := fun w => -2 * (0.03631 * 2.99792) / w ^ 3) (S2 := fun w => 6 * (0.03631 * 2.99792) / w ^ 4) ?_ hW
  intro q hq
  have hq' : q ∈ Icc a b := ⟨hq.1.le, hq.2.le⟩
  have hq0 := hpos q hq'
  refine ⟨?_, ?_, (k1 q hq').trans l3, (k2 q hq').trans l4, (k3 q hq').trans l5⟩
  · have := (hasDerivAt_const q (0.03631 * 2.99792 : ℝ)).div (hasDerivAt_pow 2 q) (pow_ne_zero 2 hq0)
    refine HasDerivAt.congr_deriv (f' := _) this ?_
    field_simp
    push_cast
    ring
  · have := (hasDerivAt_const q (-2 * (0.03631 * 2.99792) : ℝ)).div (hasDerivAt_pow 3 q) (pow_ne_zero 3 hq0)
    refine HasDerivAt.congr_deriv (f' := _) this ?_
    field_simp
    push_cast
    ring

/-- a band and a spectrum as in C163 -/
example : ∃ R m, mkResponse demoLib.cubic [4, 6, 8, 10] [0, 1, 1, 0] = .ok R ∧ Projects demoLib.cubic R.toCurve [1, 5, 9, 13] [[32, 0, 0, 32]] m ∧
    R.wave = [4, 6, 8, 10] ∧ R.resp = [0, 1, 1, 0] := by
  have hw : ([4, 6, 8, 10] : List ℝ).Pairwise (· < ·) := by norm_num
  obtain ⟨R, hR⟩ := C91_response_builds demoLib.cubic (C159_contracts demoLib).1 demo_brentq demo_star demo_star [4, 6, 8, 10] [0, 1, 1, 0] (hw.imp (fun h => h.ne))
    (by simp) (by simp) ⟨1, by simp, by norm_num⟩
  obtain ⟨m, hm⟩ := projects_exists demoLib.cubic R.toCurve [1, 5, 9, 13] [32, 0, 0, 32] (by norm_num) (by simp) (by simp)
  obtain ⟨e1, e2⟩ := mkResponse_sorted (hw.imp le_of_lt) (by simp) hR
  exact ⟨R, m, hR, hm, e1, e2⟩

end KC
