import Verif.Lemmas.Demo

/-! Half-maximum limits, and construction of a response. -/

namespace KC
open Spec

theorem npMax_maxOf (l : List ℝ) (h : l ≠ []) : MaxOf l (npMax l) := by
  induction l with
  | nil => exact absurd rfl h
  | cons a l ih =>
    cases l with
    | nil => simp [npMax, MaxOf]
    | cons b l =>
      obtain ⟨h1, h2⟩ := ih (by simp)
      simp only [npMax, real_ltb, real_leb, le_refl, decide_true, Bool.not_true, Bool.or_false, decide_eq_true_eq]
      split
      · rename_i hlt
        refine ⟨List.mem_cons_of_mem _ h1, ?_⟩
        intro u hu
        rw [List.mem_cons] at hu
        rcases hu with rfl | hu
        · exact hlt.le
        · exact h2 u hu
      · rename_i hge
        refine ⟨by simp, ?_⟩
        intro u hu
        rw [List.mem_cons] at hu
        rcases hu with rfl | hu
        · exact le_rfl
        · exact (h2 u hu).trans (not_lt.mp hge)

theorem maxOf_unique {l : List ℝ} {u v : ℝ} (hu : MaxOf l u) (hv : MaxOf l v) : u = v :=
  le_antisymm (hv.2 u hu.1) (hu.2 v hv.1)

theorem good_vals {lib : Lib ℝ} (hk : KnotExact lib) {c : Curve ℝ} (hc : GoodCurve c) :
    c.wave.map (c.at lib) = c.resp := by
  apply List.ext_getElem
  · simp [hc.len]
  · intro i h1 h2
    simp only [List.length_map] at h1
    rw [List.getElem_map, hc.at_eq]
    exact curve_at_knot hk hc.incr hc.four hc.len (i := i) (List.getElem?_eq_getElem _) (List.getElem?_eq_getElem _)

theorem ent_some {l : List ℝ} {i : Nat} (h : i < l.length) : ent l i = l[i] := by
  simp [ent, h]

theorem good_at_ent {lib : Lib ℝ} (hk : KnotExact lib) {c : Curve ℝ} (hc : GoodCurve c) {i : Nat}
    (h : i < c.wave.length) : c.at lib (ent c.wave i) = ent c.resp i := by
  rw [hc.at_eq, ent_some h, ent_some (by rw [hc.len]; exact h)]
  exact curve_at_knot hk hc.incr hc.four hc.len (i := i) (List.getElem?_eq_getElem _) (List.getElem?_eq_getElem _)

theorem ent_lt {l : List ℝ} (h : l.Pairwise (· < ·)) {i j : Nat} (hij : i < j) (hj : j < l.length) :
    ent l i < ent l j := by
  rw [ent_some (by omega), ent_some hj]
  exact (List.pairwise_iff_getElem.mp h) i j (by omega) hj hij

theorem ent_le {l : List ℝ} (h : l.Pairwise (· < ·)) {i j : Nat} (hij : i ≤ j) (hj : j < l.length) :
    ent l i ≤ ent l j := by
  rcases Nat.lt_or_ge i j with h1 | h1
  · exact (ent_lt h h1 hj).le
  · have : i = j := by omega
    subst this; exact le_rfl

theorem ent_range {l : List ℝ} (h : l.Pairwise (· < ·)) {i : Nat} (hi : i < l.length) :
    l.headD 0 ≤ ent l i ∧ ent l i ≤ l.getLastD 0 := by
  rw [ent_some hi]
  exact ⟨head_le h (List.getElem_mem hi), le_last h (List.getElem_mem hi)⟩

theorem norm_some (resp : List ℝ) (mx : ℝ) (i : Nat) (p : ℝ → Bool) :
    (((resp.map (fun v => v / mx)).map p)[i]? = some true) ↔ (i < resp.length ∧ p (ent resp i / mx) = true) := by
  simp only [List.getElem?_map, Option.map_map, Option.map_eq_some_iff, Function.comp_apply]
  constructor
  · rintro ⟨a, h1, h2⟩
    obtain ⟨h3, rfl⟩ := List.getElem?_eq_some_iff.mp h1
    exact ⟨h3, by rw [ent_some h3]; exact h2⟩
  · rintro ⟨h1, h2⟩
    refine ⟨resp[i], List.getElem?_eq_getElem _, ?_⟩
    rw [ent_some h1] at h2; exact h2

theorem half_real (v : ℝ) : gtb v (lit 0.5) = decide (1 / 2 < v) := by
  simp only [gtb, real_ltb, real_lit]
  norm_num

theorem half_real' (v : ℝ) : geb v (lit 0.5) = decide (1 / 2 ≤ v) := by
  simp only [geb, real_leb, real_lit]
  norm_num

theorem lit_half : (lit 0.5 : ℝ) = 1 / 2 := by simp only [real_lit]; norm_num

theorem maskIdx_head_exists {mask : List Bool} (h : ∃ i : Nat, mask[i]? = some true) : ∃ i, (maskIdx mask).head? = some i := by
  obtain ⟨i, hi⟩ := h
  have := (mem_maskIdx mask i).mpr hi
  cases hm : maskIdx mask with
  | nil => rw [hm] at this; simp at this
  | cons a l => exact ⟨a, by simp⟩

theorem maskIdx_last_exists {mask : List Bool} (h : ∃ i : Nat, mask[i]? = some true) :
    ∃ i, (maskIdx mask).getLast? = some i := by
  obtain ⟨i, hi⟩ := h
  have := (mem_maskIdx mask i).mpr hi
  cases hm : maskIdx mask with
  | nil => rw [hm] at this; simp at this
  | cons a l => exact ⟨_, List.getLast?_cons⟩

theorem fwhmLimits_ok {lib : Lib ℝ} (hk : KnotExact lib) (hb : BrentqOK lib) {c : Curve ℝ} (hc : GoodCurve c)
    {mx : ℝ} (hmx : MaxOf c.resp mx) (hpos : 0 < mx) : ∃ lo hi, fwhmLimits lib c = .ok (lo, hi) ∧
      c.wave.headD 0 ≤ lo ∧ lo ≤ hi ∧ hi ≤ c.wave.getLastD 0 ∧
      (lo = c.wave.headD 0 ∨ CrossesHalf (curveFn lib.spline c.wave c.resp) mx (c.wave.headD 0) (c.wave.getLastD 0) lo) ∧
      (hi = c.wave.getLastD 0 ∨
        CrossesHalf (curveFn lib.spline c.wave c.resp) mx (c.wave.headD 0) (c.wave.getLastD 0) hi) := by
  have hv := good_vals hk hc
  have hrne : c.resp ≠ [] := by intro e; have := hc.len; have := hc.four; simp [e] at *; omega
  have hm : npMax c.resp = mx := maxOf_unique (npMax_maxOf _ hrne) hmx
  obtain ⟨im, him⟩ := List.mem_iff_getElem?.mp hmx.1
  obtain ⟨himl, hime⟩ := List.getElem?_eq_some_iff.mp him
  have hmone : ent c.resp im / mx = 1 := by rw [ent_some himl, hime, div_self hpos.ne']
  set P : ℝ → Bool := fun v => gtb v (lit 0.5) with hP
  set Q : ℝ → Bool := fun v => geb v (lit 0.5) with hQ
  obtain ⟨iu, hiu⟩ := maskIdx_head_exists (mask := (c.resp.map (fun v => v / mx)).map P)
    ⟨im, (norm_some _ _ _ _).mpr ⟨himl, by rw [hmone, hP]; simp only [half_real]; norm_num⟩⟩
  obtain ⟨il, hil⟩ := maskIdx_last_exists (mask := (c.resp.map (fun v => v / mx)).map Q)
    ⟨im, (norm_some _ _ _ _).mpr ⟨himl, by rw [hmone, hQ]; simp only [half_real']; norm_num⟩⟩
  obtain ⟨hiu1, hiu2⟩ := maskIdx_head hiu
  obtain ⟨hil1, hil2⟩ := maskIdx_last hil
  simp only [norm_some] at hiu1 hiu2 hil1 hil2
  have hPd : ∀ v, P v = decide (1 / 2 < v) := fun v => half_real v
  have hQd : ∀ v, Q v = decide (1 / 2 ≤ v) := fun v => half_real' v
  simp only [hPd, decide_eq_true_eq] at hiu1 hiu2
  simp only [hQd, decide_eq_true_eq] at hil1 hil2
  have hlen := hc.len
  have hiul : iu ≤ il := hil2 iu ⟨hiu1.1, hiu1.2.le⟩
  set f := c.at lib with hf
  set half : ℝ → ℝ := fun x => f x / mx - lit 0.5 with hhalf
  have hhalf' : ∀ x, half x = curveFn lib.spline c.wave c.resp x / mx - 1 / 2 := by
    intro x; rw [hhalf]; simp only [hf, hc.at_eq, lit_half]
  have hent : ∀ i, i < c.wave.length → half (ent c.wave i) = ent c.resp i / mx - 1 / 2 := by
    intro i hi
    rw [hhalf]
    simp only [hf, good_at_ent hk hc hi, lit_half]
  -- lower limit
  have hlow : ∃ lo, (if iu = 0 then (Except.ok (ent c.wave iu) : Py ℝ)
      else lib.brentq half (ent c.wave (iu - 1)) (ent c.wave iu)) = .ok lo ∧ c.wave.headD 0 ≤ lo ∧
      lo ≤ ent c.wave iu ∧ (lo = c.wave.headD 0 ∨
        CrossesHalf (curveFn lib.spline c.wave c.resp) mx (c.wave.headD 0) (c.wave.getLastD 0) lo) := by
    by_cases h0 : iu = 0
    · subst h0
      refine ⟨ent c.wave 0, by simp, (ent_range hc.incr (by omega)).1, le_rfl, Or.inl ?_⟩
      have h4 := hc.four
      cases hw : c.wave with
      | nil => rw [hw] at h4; simp at h4
      | cons a l => simp [ent]
    · have hlt : ent c.wave (iu - 1) < ent c.wave iu := ent_lt hc.incr (by omega) (by omega)
      have hs : half (ent c.wave (iu - 1)) * half (ent c.wave iu) ≤ 0 := by
        rw [hent _ (by omega), hent _ (by omega)]
        have h1 : ent c.resp (iu - 1) / mx ≤ 1 / 2 := by
          by_contra hcon
          push Not at hcon
          have := hiu2 (iu - 1) ⟨by omega, hcon⟩
          omega
        have h2 := hiu1.2
        apply mul_nonpos_of_nonpos_of_nonneg <;> linarith
      obtain ⟨r, s, hr, hri, hsi, hrs, hp⟩ := hb half _ _ hlt hs
      have ha := ent_range hc.incr (i := iu - 1) (by omega)
      have hb' := ent_range hc.incr (i := iu) (by omega)
      refine ⟨r, by rw [if_neg h0]; exact hr, ha.1.trans hri.1, hri.2, Or.inr ⟨s, ⟨ha.1.trans hsi.1, hsi.2.trans hb'.2⟩, hrs, ?_⟩⟩
      rw [hhalf', hhalf'] at hp
      exact hp
  have hhigh : ∃ hi, (if il = (c.resp.map (fun v => v / mx)).length - 1 then (Except.ok (c.wave.getLastD (lit 0)) : Py ℝ)
      else lib.brentq half (ent c.wave il) (ent c.wave (il + 1))) = .ok hi ∧ ent c.wave il ≤ hi ∧
      hi ≤ c.wave.getLastD 0 ∧ (hi = c.wave.getLastD 0 ∨
        CrossesHalf (curveFn lib.spline c.wave c.resp) mx (c.wave.headD 0) (c.wave.getLastD 0) hi) := by
    by_cases h0 : il = (c.resp.map (fun v => v / mx)).length - 1
    · refine ⟨c.wave.getLastD 0, by rw [if_pos h0]; simp, (ent_range hc.incr (by omega)).2, le_rfl, Or.inl rfl⟩
    · have h0' : il + 1 < c.wave.length := by
        simp only [List.length_map] at h0
        omega
      have hlt : ent c.wave il < ent c.wave (il + 1) := ent_lt hc.incr (by omega) h0'
      have hs : half (ent c.wave il) * half (ent c.wave (il + 1)) ≤ 0 := by
        rw [hent _ (by omega), hent _ (by omega)]
        have h1 : ent c.resp (il + 1) / mx < 1 / 2 := by
          by_contra hcon
          push Not at hcon
          have := hil2 (il + 1) ⟨by omega, hcon⟩
          omega
        have h2 := hil1.2
        apply mul_nonpos_of_nonneg_of_nonpos <;> linarith
      obtain ⟨r, s, hr, hri, hsi, hrs, hp⟩ := hb half _ _ hlt hs
      have ha := ent_range hc.incr (i := il) (by omega)
      have hb' := ent_range hc.incr (i := il + 1) (by omega)
      refine ⟨r, by rw [if_neg h0]; exact hr, hri.1, hri.2.trans hb'.2, Or.inr ⟨s, ⟨ha.1.trans hsi.1, hsi.2.trans hb'.2⟩, hrs, ?_⟩⟩
      rw [hhalf', hhalf'] at hp
      exact hp
  obtain ⟨lo, hlo, hlo1, hlo2, hlo3⟩ := hlow
  obtain ⟨hi, hhi, hhi1, hhi2, hhi3⟩ := hhigh
  refine ⟨lo, hi, ?_, hlo1, (hlo2.trans (ent_le hc.incr hiul (by omega))).trans hhi1, hhi2, hlo3, hhi3⟩
  unfold fwhmLimits
  simp only [hv, hm, ← hf, ← hhalf, ← hP, ← hQ, hiu, hil, ok_bind, pure_py]
  by_cases ha : iu = 0 <;> by_cases hb' : il = (c.resp.map (fun v => v / mx)).length - 1
  · simp only [if_pos ha, if_pos hb', Except.ok.injEq] at hlo hhi ⊢
    rw [hlo, hhi]
  · simp only [if_pos ha, if_neg hb', Except.ok.injEq] at hlo hhi ⊢
    rw [hlo, hhi]; rfl
  · simp only [if_neg ha, if_pos hb', Except.ok.injEq] at hlo hhi ⊢
    rw [hlo, hhi]; rfl
  · simp only [if_neg ha, if_neg hb'] at hlo hhi ⊢
    rw [hlo, hhi]; rfl

/-- The shipped reference spectrum is usable: one spectrum, at least four samples, no wavelength twice. -/
structure StarOK (p : Py (Basel ℝ)) : Prop where
  ok : ∃ b fl, p = .ok b ∧ b.flux = [fl] ∧ fl.length = b.wave.length ∧ 4 ≤ b.wave.length ∧ b.wave.Nodup

theorem mkInterp_nodup (x : List ℝ) (ys : List (List ℝ)) (h4 : 4 ≤ x.length) (hx : x.Nodup)
    (hy : ∀ row ∈ ys, row.length = x.length) : ∃ i, mkInterp x ys = .ok i ∧ i.ys.length = ys.length := by
  refine ⟨⟨gather x (argsort x), ys.map (fun row => gather row (argsort x))⟩, ?_, by simp⟩
  have hn : (gather x (argsort x)).Pairwise (· < ·) := by
    have h1 : (gather x (argsort x)).Pairwise (· ≠ ·) := (gather_perm x).nodup_iff.mpr hx
    exact (gather_sorted x).imp₂ (fun a b h1 h2 => lt_of_le_of_ne h1 h2) h1
  unfold mkInterp
  rw [if_pos hy, if_pos h4, if_pos ((noDup_iff _ (gather_sorted x)).mpr hn)]

theorem sed_mk_ok {wave : List ℝ} {k n : Nat} {rows : List (List ℝ)} {i : Interp ℝ} (h : mkInterp wave rows = .ok i) :
    Sed.mk' wave (.arr [k] n rows) true = .ok
      { restWave := wave, restFlux := rows, wave := wave, flux := rows,
        redshift := lit 0, interpolate := true, interp := some i, binimage := false } := by
  simp only [Sed.mk', Sed.setup, ok_bind, Sed.setInterp, if_true, h]

theorem starSed_one (b : Basel ℝ) (fl : List ℝ) (hfl : b.flux = [fl]) (rad d : ℝ) : ∃ fx : List ℝ,
    fx.length = min fl.length b.wave.length ∧
    starSed b rad d = Sed.mk' (b.wave.map (fun w => w * lit 10)) (.arr [1] fx.length [fx]) true := by
  unfold starSed
  rw [hfl]
  exact ⟨_, by simp, rfl⟩

theorem starSed_ok {p : Py (Basel ℝ)} (h : StarOK p) (rad d : ℝ) :
    ∃ b s i row, p = .ok b ∧ starSed b rad d = .ok s ∧ s.interp = some i ∧ i.ys = [row] := by
  obtain ⟨b, fl, hp, hfl, hlen, h4, hnd⟩ := h.ok
  have hw : (b.wave.map (fun w => w * lit 10)).Nodup := by
    refine hnd.map ?_
    intro u v huv
    simp only [real_lit] at huv
    have : ((10 : ℚ) : ℝ) ≠ 0 := by norm_num
    exact mul_right_cancel₀ this huv
  obtain ⟨fx, hfx, he⟩ := starSed_one b fl hfl rad d
  obtain ⟨i, hi, hil⟩ := mkInterp_nodup _ [fx] (by simpa using h4) hw (by simp [hfx, hlen])
  match hys : i.ys, hil with
  | [row], _ => exact ⟨b, _, i, row, hp, he.trans (sed_mk_ok hi), rfl, hys⟩
  | [], h => simp at h
  | _ :: _ :: _, h => simp at h

theorem starMag_ok {lib : Lib ℝ} {c : Curve ℝ} {p : Py (Basel ℝ)} (h : StarOK p) (rad d : ℝ) :
    ∃ b s m, p = .ok b ∧ starSed b rad d = .ok s ∧ projectSed lib c s = .ok m ∧ ∃ v, magOrNone m = .ok v := by
  obtain ⟨b, s, i, row, h1, h2, h3, h4⟩ := starSed_ok h rad d
  refine ⟨b, s, projectWith lib c s.wave i, h1, h2, by simp [projectSed, h3], ?_⟩
  have : ∃ v, projectWith lib c s.wave i = .scalar v := by
    unfold projectWith
    split
    · exact ⟨_, rfl⟩
    · simp only [Interp.eval, h4, List.map_cons, List.map_nil, projOnGrid]
      exact ⟨_, rfl⟩
  obtain ⟨v, hv⟩ := this
  rw [hv]
  exact ⟨_, rfl⟩

/-- A well-formed curve with a positive maximum can always be built. -/
theorem respSetup_succeeds {lib : Lib ℝ} (hk : KnotExact lib) (hb : BrentqOK lib) (hsun : StarOK lib.sun)
    (hvega : StarOK lib.vega) {w r : List ℝ} (hw : w.Pairwise (· < ·)) (h4 : 4 ≤ w.length) (hl : r.length = w.length)
    {mx : ℝ} (hmx : MaxOf r mx) (hpos : 0 < mx) : ∃ R, respSetup lib w r = .ok R := by
  have hi := mkInterp_strict w [r] hw h4 (by simpa using hl)
  have hc : GoodCurve ⟨w, r, ⟨w, [r]⟩⟩ := ⟨hw, h4, hl, rfl⟩
  obtain ⟨lo, hi', hf, _⟩ := fwhmLimits_ok hk hb hc hmx hpos
  obtain ⟨b, s, m, h1, h2, h3, v, hv⟩ := starMag_ok (lib := lib) (c := ⟨w, r, ⟨w, [r]⟩⟩) hsun (lit 6.960e10) (lit 10)
  have hs : solarMagOf lib ⟨w, r, ⟨w, [r]⟩⟩ = .ok v := by
    unfold solarMagOf; simp only [h1, h2, h3, ok_bind, hv]
  obtain ⟨b', s', m', h1', h2', h3', v', hv'⟩ :=
    starMag_ok (lib := lib) (c := ⟨w, r, ⟨w, [r]⟩⟩) hvega (lit 1.91144e11) (lit 7.68)
  have hs' : vega2abOf lib ⟨w, r, ⟨w, [r]⟩⟩ = .ok v' := by
    unfold vega2abOf; simp only [h1', h2', h3', ok_bind, hv']
  unfold respSetup
  simp only [hi, ok_bind, hs, hs', hf]
  exact ⟨_, rfl⟩

theorem gather_subset {row : List ℝ} {idx : List Nat} (h : ∀ i ∈ idx, i < row.length) {v : ℝ}
    (hv : v ∈ gather row idx) : v ∈ row := by
  simp only [gather, List.mem_map] at hv
  obtain ⟨i, hi, rfl⟩ := hv
  have := h i hi
  simp [this]

theorem mkResponse_succeeds {lib : Lib ℝ} (hk : KnotExact lib) (hb : BrentqOK lib) (hsun : StarOK lib.sun)
    (hvega : StarOK lib.vega) {wave resp : List ℝ} (hw : wave.Nodup) (h4 : 4 ≤ wave.length)
    (hl : resp.length = wave.length) (hpos : ∃ v ∈ resp, 0 < v) : ∃ R, mkResponse lib wave resp = .ok R := by
  have hn : (gather wave (argsort wave)).Pairwise (· < ·) := by
    have h1 : (gather wave (argsort wave)).Pairwise (· ≠ ·) := (gather_perm wave).nodup_iff.mpr hw
    exact (gather_sorted wave).imp₂ (fun a b h1 h2 => lt_of_le_of_ne h1 h2) h1
  have hlg : (gather wave (argsort wave)).length = wave.length := by rw [gather_length, argsort_length]
  have hlr : (gather resp (argsort wave)).length = wave.length := by rw [gather_length, argsort_length]
  have hmx := npMax_maxOf (gather resp (argsort wave)) (by
    intro e; rw [e] at hlr; simp at hlr; omega)
  have hp : 0 < npMax (gather resp (argsort wave)) := by
    obtain ⟨v, hv, hv0⟩ := hpos
    refine lt_of_lt_of_le hv0 (hmx.2 v ?_)
    obtain ⟨i, hi⟩ := List.mem_iff_getElem.mp hv
    obtain ⟨hi, rfl⟩ := hi
    simp only [gather, List.mem_map]
    refine ⟨i, (argsort_perm wave).mem_iff.mpr (by simp; omega), by simp [hi]⟩
  obtain ⟨R, hR⟩ := respSetup_succeeds hk hb hsun hvega hn (by omega) (by omega) hmx hp
  refine ⟨R, ?_⟩
  unfold mkResponse sortCurve
  rw [if_pos (by omega)]
  simp only [ok_bind, hR]

theorem mkResponse_sorted {lib : Lib ℝ} {wave resp : List ℝ} {R : Resp ℝ} (hw : wave.Pairwise (· ≤ ·))
    (hl : resp.length = wave.length) (h : mkResponse lib wave resp = .ok R) : R.wave = wave ∧ R.resp = resp := by
  obtain ⟨_, h1, h2, _⟩ := mkResponse_ok h
  rw [argsort_of_sorted _ hw] at h1 h2
  rw [gather_range _ _ rfl] at h1
  rw [gather_range _ _ hl] at h2
  exact ⟨h1, h2⟩

theorem list_f32_real (l : List ℝ) : l.map (f32 : ℝ → ℝ) = l := by
  conv_rhs => rw [← List.map_id l]
  exact List.map_congr_left (fun x _ => by simp)

theorem demo_star : StarOK (.ok demoStar) := by
  refine ⟨demoStar, [1, 1, 1, 1], rfl, rfl, rfl, by simp [demoStar], ?_⟩
  simp [demoStar]

theorem demo_response {wave resp : List ℝ} (hw : wave.Nodup) (h4 : 4 ≤ wave.length)
    (hl : resp.length = wave.length) (hpos : ∃ v ∈ resp, 0 < v) : ∃ R, mkResponse demoLib wave resp = .ok R :=
  mkResponse_succeeds demo_knot demo_brentq demo_star demo_star hw h4 hl hpos

end KC
