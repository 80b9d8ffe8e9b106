import Verif.Props.Spline
import Verif.Lemmas.Fwhm
import Mathlib.Topology.Order.IntermediateValue

/-!
C162: the half-maximum limits are the outermost ones.
-/

namespace KC
open Spec

/-- the tolerance of the root finder at `r` -/
noncomputable def rootTol (r : ℝ) : ℝ := 2e-12 + 8.9e-16 * |r|

/-- where `set_fwhm_limits` looks: between the last sample at most half the maximum and the first one above, from below, and
between the last sample at least half the maximum and the next one, from above -/
theorem fwhm_bracket {lib : Lib ℝ} (hk : KnotExact lib) (hb : BrentqOK lib) {c : Curve ℝ} (hc : GoodCurve c)
    {mx : ℝ} (hmx : MaxOf c.resp mx) (hpos : 0 < mx) : ∃ lo hi iu il, fwhmLimits lib c = .ok (lo, hi) ∧
      iu < c.wave.length ∧ il < c.wave.length ∧ mx / 2 < ent c.resp iu ∧ (∀ i, i < iu → ent c.resp i ≤ mx / 2) ∧
      mx / 2 ≤ ent c.resp il ∧ (∀ i, il < i → i < c.wave.length → ent c.resp i < mx / 2) ∧
      ((iu = 0 ∧ lo = c.wave.headD 0) ∨ (0 < iu ∧ lo ∈ Set.Icc (ent c.wave (iu - 1)) (ent c.wave iu) ∧
        ∃ s ∈ Set.Icc (ent c.wave (iu - 1)) (ent c.wave iu), |s - lo| ≤ rootTol lo ∧
          (curveFn lib.spline c.wave c.resp lo / mx - 1 / 2) * (curveFn lib.spline c.wave c.resp s / mx - 1 / 2) ≤ 0)) ∧
      ((il + 1 = c.wave.length ∧ hi = c.wave.getLastD 0) ∨ (il + 1 < c.wave.length ∧ hi ∈ Set.Icc (ent c.wave il) (ent c.wave (il + 1)) ∧
        ∃ s ∈ Set.Icc (ent c.wave il) (ent c.wave (il + 1)), |s - hi| ≤ rootTol hi ∧
          (curveFn lib.spline c.wave c.resp hi / mx - 1 / 2) * (curveFn lib.spline c.wave c.resp s / mx - 1 / 2) ≤ 0)) := by
  have hv := good_vals hk hc
  have hrne : c.resp ≠ [] := by intro e; have := hc.len; have := hc.four; simp [e] at *; omega
  have hm : npMax c.resp = mx := maxOf_unique (npMax_maxOf _ hrne) hmx
  obtain ⟨im, him⟩ := List.mem_iff_getElem?.mp hmx.1
  obtain ⟨himl, hime⟩ := List.getElem?_eq_some_iff.mp him
  have hmone : ent c.resp im / mx = 1 := by rw [ent_some himl, hime, div_self hpos.ne']
  set P : ℝ → Bool := fun v => gtb v (lit 0.5) with hP
  set Q : ℝ → Bool := fun v => geb v (lit 0.5) with hQ
  obtain ⟨iu, hiu⟩ := maskIdx_head_exists (mask := (c.resp.map (fun v => v / mx)).map P)
    ⟨im, (norm_some _ _ _ _).mpr ⟨himl, by rw [hmone, hP]; simp only [half_real]; norm_num⟩⟩
  obtain ⟨il, hil⟩ := maskIdx_last_exists (mask := (c.resp.map (fun v => v / mx)).map Q)
    ⟨im, (norm_some _ _ _ _).mpr ⟨himl, by rw [hmone, hQ]; simp only [half_real']; norm_num⟩⟩
  obtain ⟨hiu1, hiu2⟩ := maskIdx_head hiu
  obtain ⟨hil1, hil2⟩ := maskIdx_last hil
  simp only [norm_some] at hiu1 hiu2 hil1 hil2
  have hPd : ∀ v, P v = decide (1 / 2 < v) := fun v => half_real v
  have hQd : ∀ v, Q v = decide (1 / 2 ≤ v) := fun v => half_real' v
  simp only [hPd, decide_eq_true_eq] at hiu1 hiu2
  simp only [hQd, decide_eq_true_eq] at hil1 hil2
  have hlen := hc.len
  have hdiv : ∀ v : ℝ, 1 / 2 < v / mx ↔ mx / 2 < v := fun v => by rw [lt_div_iff₀ hpos]; constructor <;> intro h <;> linarith
  have hdiv' : ∀ v : ℝ, 1 / 2 ≤ v / mx ↔ mx / 2 ≤ v := fun v => by rw [le_div_iff₀ hpos]; constructor <;> intro h <;> linarith
  set f := c.at lib with hf
  set half : ℝ → ℝ := fun x => f x / mx - lit 0.5 with hhalf
  have hhalf' : ∀ x, half x = curveFn lib.spline c.wave c.resp x / mx - 1 / 2 := by
    intro x; rw [hhalf]; simp only [hf, hc.at_eq, lit_half]
  have hent : ∀ i, i < c.wave.length → half (ent c.wave i) = ent c.resp i / mx - 1 / 2 := by
    intro i hi
    rw [hhalf]
    simp only [hf, good_at_ent hk hc hi, lit_half]
  have hbelow : ∀ i, i < iu → ent c.resp i / mx ≤ 1 / 2 := by
    intro i hi
    by_contra hcon
    push Not at hcon
    have := hiu2 i ⟨by omega, hcon⟩
    omega
  have habove : ∀ i, il < i → i < c.wave.length → ent c.resp i / mx < 1 / 2 := by
    intro i hi hi'
    by_contra hcon
    push Not at hcon
    have := hil2 i ⟨by omega, hcon⟩
    omega
  have hlow : ∃ lo, (if iu = 0 then (Except.ok (ent c.wave iu) : Py ℝ)
      else lib.brentq half (ent c.wave (iu - 1)) (ent c.wave iu)) = .ok lo ∧
      ((iu = 0 ∧ lo = c.wave.headD 0) ∨ (0 < iu ∧ lo ∈ Set.Icc (ent c.wave (iu - 1)) (ent c.wave iu) ∧
        ∃ s ∈ Set.Icc (ent c.wave (iu - 1)) (ent c.wave iu), |s - lo| ≤ rootTol lo ∧
          (curveFn lib.spline c.wave c.resp lo / mx - 1 / 2) * (curveFn lib.spline c.wave c.resp s / mx - 1 / 2) ≤ 0)) := by
    by_cases h0 : iu = 0
    · subst h0
      refine ⟨ent c.wave 0, by simp, Or.inl ⟨rfl, ?_⟩⟩
      have h4 := hc.four
      cases hw : c.wave with
      | nil => rw [hw] at h4; simp at h4
      | cons a l => simp [ent]
    · have hlt : ent c.wave (iu - 1) < ent c.wave iu := ent_lt hc.incr (by omega) (by omega)
      have hs : half (ent c.wave (iu - 1)) * half (ent c.wave iu) ≤ 0 := by
        rw [hent _ (by omega), hent _ (by omega)]
        have h1 := hbelow (iu - 1) (by omega)
        have h2 := hiu1.2
        apply mul_nonpos_of_nonpos_of_nonneg <;> linarith
      obtain ⟨r, s, hr, hri, hsi, hrs, hp⟩ := hb half _ _ hlt hs
      refine ⟨r, by rw [if_neg h0]; exact hr, Or.inr ⟨by omega, hri, s, hsi, hrs, ?_⟩⟩
      rw [hhalf', hhalf'] at hp
      exact hp
  have hhigh : ∃ hi, (if il = (c.resp.map (fun v => v / mx)).length - 1 then (Except.ok (c.wave.getLastD (lit 0)) : Py ℝ)
      else lib.brentq half (ent c.wave il) (ent c.wave (il + 1))) = .ok hi ∧
      ((il + 1 = c.wave.length ∧ hi = c.wave.getLastD 0) ∨ (il + 1 < c.wave.length ∧ hi ∈ Set.Icc (ent c.wave il) (ent c.wave (il + 1)) ∧
        ∃ s ∈ Set.Icc (ent c.wave il) (ent c.wave (il + 1)), |s - hi| ≤ rootTol hi ∧
          (curveFn lib.spline c.wave c.resp hi / mx - 1 / 2) * (curveFn lib.spline c.wave c.resp s / mx - 1 / 2) ≤ 0)) := by
    by_cases h0 : il = (c.resp.map (fun v => v / mx)).length - 1
    · have h4 := hc.four
      refine ⟨c.wave.getLastD 0, by rw [if_pos h0]; simp, Or.inl ⟨?_, rfl⟩⟩
      simp only [List.length_map] at h0
      omega
    · have h0' : il + 1 < c.wave.length := by
        simp only [List.length_map] at h0
        omega
      have hlt : ent c.wave il < ent c.wave (il + 1) := ent_lt hc.incr (by omega) h0'
      have hs : half (ent c.wave il) * half (ent c.wave (il + 1)) ≤ 0 := by
        rw [hent _ (by omega), hent _ (by omega)]
        have h1 := habove (il + 1) (by omega) h0'
        have h2 := hil1.2
        apply mul_nonpos_of_nonneg_of_nonpos <;> linarith
      obtain ⟨r, s, hr, hri, hsi, hrs, hp⟩ := hb half _ _ hlt hs
      refine ⟨r, by rw [if_neg h0]; exact hr, Or.inr ⟨h0', hri, s, hsi, hrs, ?_⟩⟩
      rw [hhalf', hhalf'] at hp
      exact hp
  obtain ⟨lo, hlo, hlo'⟩ := hlow
  obtain ⟨hi, hhi, hhi'⟩ := hhigh
  refine ⟨lo, hi, iu, il, ?_, by omega, by omega, (hdiv _).mp hiu1.2, fun i h => ?_, (hdiv' _).mp hil1.2, fun i h h' => ?_, hlo', hhi'⟩
  · unfold fwhmLimits
    simp only [hv, hm, ← hf, ← hhalf, ← hP, ← hQ, hiu, hil, ok_bind, pure_py]
    by_cases ha : iu = 0 <;> by_cases hb' : il = (c.resp.map (fun v => v / mx)).length - 1
    · simp only [if_pos ha, if_pos hb', Except.ok.injEq] at hlo hhi ⊢
      rw [hlo, hhi]
    · simp only [if_pos ha, if_neg hb', Except.ok.injEq] at hlo hhi ⊢
      rw [hlo, hhi]; rfl
    · simp only [if_neg ha, if_pos hb', Except.ok.injEq] at hlo hhi ⊢
      rw [hlo, hhi]; rfl
    · simp only [if_neg ha, if_neg hb'] at hlo hhi ⊢
      rw [hlo, hhi]; rfl
  · have := hbelow i h
    by_contra hcon
    exact absurd ((hdiv _).mpr (not_le.mp hcon)) (not_lt.mpr this)
  · have := habove i h h'
    by_contra hcon
    exact absurd ((hdiv' _).mpr (not_lt.mp hcon)) (not_le.mpr this)

/-- a sign change between two points of one interval is a crossing -/
theorem half_root {x y : List ℝ} (h : Knots x) {i : Nat} (hi : i + 1 < x.length) {mx : ℝ} (hpos : 0 < mx) {r s : ℝ} (hr : r ∈ Set.Icc (ent x i) (ent x (i + 1)))
    (hs : s ∈ Set.Icc (ent x i) (ent x (i + 1))) (hp : (curveFn nakSpline x y r / mx - 1 / 2) * (curveFn nakSpline x y s / mx - 1 / 2) ≤ 0) :
    ∃ t ∈ Set.Icc (ent x i) (ent x (i + 1)), |t - r| ≤ |s - r| ∧ curveFn nakSpline x y t = mx / 2 := by
  have hin : ∀ q ∈ Set.Icc (ent x i) (ent x (i + 1)), curveFn nakSpline x y q = (nakCub x y i).val q := by
    intro q hq
    unfold curveFn
    rw [if_neg (by
      push Not
      exact ⟨(ent_range h.incr (by omega)).1.trans hq.1, hq.2.trans (ent_range h.incr hi).2⟩)]
    exact nakSpline_piece h y hi hq.1 hq.2
  rw [hin r hr, hin s hs] at hp
  have hcont : ContinuousOn (nakCub x y i).val (Set.uIcc r s) := by
    refine Continuous.continuousOn ?_
    unfold Cub.val
    fun_prop
  have hmem : mx / 2 ∈ Set.uIcc ((nakCub x y i).val r) ((nakCub x y i).val s) := by
    rw [Set.mem_uIcc]
    rcases mul_nonpos_iff.mp hp with ⟨h1, h2⟩ | ⟨h1, h2⟩
    · right
      constructor
      · have : (nakCub x y i).val s / mx ≤ 1 / 2 := by linarith
        rw [div_le_iff₀ hpos] at this
        linarith
      · have : 1 / 2 ≤ (nakCub x y i).val r / mx := by linarith
        rw [le_div_iff₀ hpos] at this
        linarith
    · left
      constructor
      · have : (nakCub x y i).val r / mx ≤ 1 / 2 := by linarith
        rw [div_le_iff₀ hpos] at this
        linarith
      · have : 1 / 2 ≤ (nakCub x y i).val s / mx := by linarith
        rw [le_div_iff₀ hpos] at this
        linarith
  obtain ⟨t, ht, e⟩ := intermediate_value_uIcc hcont hmem
  have hti : t ∈ Set.Icc (ent x i) (ent x (i + 1)) := Set.uIcc_subset_Icc hr hs ht
  refine ⟨t, hti, Set.abs_sub_left_of_mem_uIcc ht, ?_⟩
  rw [hin t hti, e]

/-- C162 (partial): a half-maximum limit is an end of the curve whose sample there reaches half the maximum, or lies within the
tolerance of the root finder of a wavelength where the response is exactly half the largest sample, and outside of that wavelength no
sample reaches more than half the maximum, while the next sample inside does (at least half, at the upper end).  Missing: that the
curve between the outer samples does not reach half the maximum either; it can (`C162_false`). -/
theorem C162_partial (lib : Lib ℝ) (hb : BrentqOK lib) (wave resp : List ℝ) (R : Resp ℝ) (hR : mkResponse lib.cubic wave resp = .ok R) (mx : ℝ)
    (hmx : MaxOf R.resp mx) (hpos : 0 < mx) :
    ((R.fwhmLow = R.wave.headD 0 ∧ mx / 2 < R.resp.headD 0) ∨ ∃ t k, |t - R.fwhmLow| ≤ rootTol R.fwhmLow ∧ curveFn nakSpline R.wave R.resp t = mx / 2 ∧
      k + 1 < R.wave.length ∧ ent R.wave k ≤ t ∧ t < ent R.wave (k + 1) ∧ mx / 2 < ent R.resp (k + 1) ∧ ∀ i, i ≤ k → ent R.resp i ≤ mx / 2) ∧
    ((R.fwhmHigh = R.wave.getLastD 0 ∧ mx / 2 ≤ R.resp.getLastD 0) ∨ ∃ t k, |t - R.fwhmHigh| ≤ rootTol R.fwhmHigh ∧ curveFn nakSpline R.wave R.resp t = mx / 2 ∧
      k + 1 < R.wave.length ∧ ent R.wave k ≤ t ∧ t < ent R.wave (k + 1) ∧ mx / 2 ≤ ent R.resp k ∧ ∀ i, k < i → i < R.wave.length → ent R.resp i < mx / 2) := by
  have hk : KnotExact lib.cubic := (C159_contracts lib).1
  obtain ⟨_, h1, _, h3⟩ := mkResponse_ok hR
  obtain ⟨_, _, hc, _, _, _, hf, hw⟩ := respSetup_ok (by rw [h1]; exact gather_sorted wave) h3
  obtain ⟨lo, hi, iu, il, e, liu, lil, hiu, hbelow, hil, habove, hlo, hhi⟩ := fwhm_bracket (lib := lib.cubic) hk hb hc hmx hpos
  rw [e] at hf
  simp only [Except.ok.injEq, Prod.mk.injEq] at hf
  obtain ⟨rfl, rfl⟩ := hf
  have hkn : Knots R.wave := ⟨hc.incr, hc.four⟩
  have h4 := hc.four
  have hlen := hc.len
  have hval : ∀ i, i < R.wave.length → curveFn nakSpline R.wave R.resp (ent R.wave i) = ent R.resp i := by
    intro i hi
    have e1 : R.wave[i]? = some (R.wave[i]'hi) := List.getElem?_eq_getElem _
    have e2 : R.resp[i]? = some (R.resp[i]'(hi.trans_eq hlen.symm)) := List.getElem?_eq_getElem _
    rw [ent_some hi, ent_some (hi.trans_eq hlen.symm)]
    exact curve_at_knot hk hc.incr hc.four hc.len e1 e2
  constructor
  · rcases hlo with ⟨h0, h0'⟩ | ⟨h0, hr, s, hs, hrs, hp⟩
    · left
      refine ⟨h0', ?_⟩
      subst h0
      have : ent R.resp 0 = R.resp.headD 0 := by
        cases hrr : R.resp with
        | nil => rw [hrr] at hlen; simp at hlen; omega
        | cons a l => simp [ent]
      exact this ▸ hiu
    · right
      have e1 : iu - 1 + 1 = iu := by omega
      obtain ⟨t, ht, htr, htv⟩ := half_root (y := R.resp) hkn (i := iu - 1) (by omega) hpos (by rw [e1]; exact hr) (by rw [e1]; exact hs) hp
      rw [e1] at ht
      refine ⟨t, iu - 1, htr.trans hrs, htv, by omega, ht.1, ?_, by rw [e1]; exact hiu, fun i hi => hbelow i (by omega)⟩
      rw [e1]
      refine lt_of_le_of_ne ht.2 fun heq => ?_
      rw [heq, hval iu liu] at htv
      linarith
  · rcases hhi with ⟨h0, h0'⟩ | ⟨h0, hr, s, hs, hrs, hp⟩
    · left
      refine ⟨h0', ?_⟩
      have e1 : ent R.resp il = R.resp.getLastD 0 := by
        have e2 : il = R.resp.length - 1 := by
          show il = R.resp.length - 1
          have : R.resp.length = R.wave.length := hlen
          have : il + 1 = R.wave.length := h0
          omega
        rw [List.getLastD_eq_getLast?, List.getLast?_eq_getElem?, ← e2]
        simp [ent]
      exact e1 ▸ hil
    · right
      obtain ⟨t, ht, htr, htv⟩ := half_root (y := R.resp) hkn (i := il) h0 hpos hr hs hp
      refine ⟨t, il, htr.trans hrs, htv, h0, ht.1, ?_, hil, habove⟩
      refine lt_of_le_of_ne ht.2 fun heq => ?_
      rw [heq, hval _ h0] at htv
      have := habove (il + 1) (by omega) h0
      linarith

/-- C162: between samples that do not reach half the maximum the curve can exceed it, so that `fwhm_low` is not the lowest wavelength at
which the response reaches half its maximum. -/
theorem C162_false (lib : Lib ℝ) (hb : BrentqOK lib) (hsun : StarOK lib.sun) (hvega : StarOK lib.vega) :
    ∃ (wave resp : List ℝ) (R : Resp ℝ) (mx w : ℝ), (∀ v ∈ resp, 0 ≤ v) ∧ mkResponse lib.cubic wave resp = .ok R ∧ MaxOf R.resp mx ∧
      R.wave.headD 0 ≤ w ∧ w + 1 < R.fwhmLow ∧ mx / 2 < curveFn nakSpline R.wave R.resp w := by
  have hk : KnotExact lib.cubic := (C159_contracts lib).1
  have hw : ([1, 2, 3, 4] : List ℝ).Pairwise (· < ·) := by norm_num
  obtain ⟨R, hR⟩ := C91_response_builds lib.cubic hk hb hsun hvega [1, 2, 3, 4] [2, 2, 0, 5] (hw.imp (fun h => h.ne)) (by simp) (by simp) ⟨2, by simp, by norm_num⟩
  obtain ⟨eW, eR⟩ := mkResponse_sorted (hw.imp le_of_lt) (by simp) hR
  have hmx : MaxOf R.resp 5 := by
    rw [eR]
    refine ⟨by simp, ?_⟩
    intro u hu
    simp at hu
    rcases hu with rfl | rfl | rfl <;> norm_num
  refine ⟨_, _, R, 5, 3 / 2, ?_, hR, hmx, ?_, ?_, ?_⟩
  · intro v hv
    simp at hv
    rcases hv with rfl | rfl | rfl <;> norm_num
  · rw [eW]
    norm_num
  · rcases (C162_partial lib hb _ _ R hR 5 hmx (by norm_num)).1 with ⟨h1, h2⟩ | ⟨t, k, h1, h2, h3, h4, h5, h6, h7⟩
    · rw [eR] at h2
      norm_num at h2
    · rw [eW] at h3 h4
      rw [eR] at h6
      simp only [List.length_cons, List.length_nil] at h3
      have hk2 : k = 2 := by
        have hk3 : k < 3 := by omega
        interval_cases k <;> first | rfl | (exfalso; norm_num [ent] at h6)
      subst hk2
      norm_num [ent] at h4
      have h8 := abs_le.mp h1
      have h9 : rootTol R.fwhmLow ≤ 2e-12 + 8.9e-16 * 4 := by
        have hfw := C27_fwhm lib.cubic hk hb _ _ R hR 5 hmx (by norm_num)
        rw [eW] at hfw
        have ha : (1 : ℝ) ≤ R.fwhmLow := by simpa using hfw.1
        have hbb : R.fwhmLow ≤ 4 := by simpa using hfw.2.1.trans hfw.2.2.1
        unfold rootTol
        rw [abs_of_pos (by linarith)]
        linarith
      norm_num at h9
      have := h8.2
      linarith
  · rw [eW, eR]
    unfold curveFn
    rw [if_neg (by norm_num), spline_four hw _ ⟨-9, 39 / 2, -10, 3 / 2⟩ (by norm_num [Cub.val]) (by norm_num) (by norm_num)]
    norm_num [Cub.val]

example : ∃ R, mkResponse demoLib.cubic [1, 2, 3, 4] [0, 1, 1, 0] = .ok R ∧ MaxOf R.resp 1 := by
  obtain ⟨R, hR⟩ := C91_response_builds demoLib.cubic (C159_contracts demoLib).1 demo_brentq demo_star demo_star [1, 2, 3, 4] [0, 1, 1, 0] (by norm_num) (by simp) (by simp)
    ⟨1, by simp, by norm_num⟩
  obtain ⟨_, h2⟩ := mkResponse_sorted (sorted1234.imp le_of_lt) (by rfl) hR
  exact ⟨R, hR, by rw [h2]; exact ⟨by simp, by simp⟩⟩

end KC
