import Verif.Props.Floor
import Verif.Props.Asinh

/-! Error floors and flux units, several floors, closed form of the asinh conversion. -/

namespace KC
open Spec

theorem floorEntry_neg (fl m v : ℝ) (hv : v ≤ 0) : floorEntry id fl m v = v := by
  apply floorEntry_skip
  simp only [real_gtb, real_lit, Rat.cast_zero, decide_eq_false_iff_not, not_lt]
  exact hv

theorem floorEntry_scale (fl m v s : ℝ) (hm : m ≠ 0) (hfl : 0 < fl) (hs : 0 < s) :
    floorEntry id fl (m * s) (v / s ^ 2) = floorEntry id fl m v / s ^ 2 := by
  rcases le_or_gt v 0 with hv | hv
  · rw [floorEntry_neg _ _ _ hv, floorEntry_neg _ _ _ (div_nonpos_of_nonpos_of_nonneg hv (by positivity))]
  · rw [floorEntry_real _ _ _ (mul_ne_zero hm hs.ne') (by positivity) hfl, floorEntry_real _ _ _ hm hv hfl, ← min_div_div_right (show (0 : ℝ) ≤ s ^ 2 by positivity)]
    congr 1
    rw [abs_mul, abs_of_pos hs, div_div]
    ring

/-- C116: `error_floor` does not depend on the units of flux.  If the maggies of band `j` are multiplied by `s j` and the inverse variances divided by its
square, so are the floored inverse variances. -/
theorem C116_units (floor : List ℝ) (m iv m' iv' : NDA ℝ) (hm : m.WF) (hv : iv.WF) (hm' : m'.WF) (hv' : iv'.WF) (hs : m.shape = iv.shape)
    (hsm : m'.shape = m.shape) (hsv : iv'.shape = m.shape) (hl : lastAxis m floor.length) (hr : m.ndim ≤ 2) (hpos : ∀ f ∈ floor, 0 < f) (s : Nat → ℝ)
    (hsp : ∀ j, 0 < s j) (h0 : ∀ r j x, entry m r j = some x → x ≠ 0) (em : ∀ r j, entry m' r j = (entry m r j).map (fun x => x * s j))
    (ev : ∀ r j, entry iv' r j = (entry iv r j).map (fun v => v / s j ^ 2)) :
    ∃ out out', errorFloor id floor m iv = .ok out ∧ errorFloor id floor m' iv' = .ok out' ∧ out'.WF ∧ out'.shape = out.shape ∧
      ∀ r j, entry out' r j = (entry out r j).map (fun v => v / s j ^ 2) := by
  have nd : m'.ndim = m.ndim := by
    have : ∀ a : NDA ℝ, a.ndim = a.shape.length := by intro a; cases a <;> simp [NDA.ndim, NDA.shape]
    rw [this, this, hsm]
  obtain ⟨out, h1, h2, h3, h4⟩ := errorFloor_entry id floor m iv hm hv hs hl hr
  obtain ⟨out', g1, g2, g3, g4⟩ := errorFloor_entry id floor m' iv' hm' hv' (hsm.trans hsv.symm) (by rw [lastAxis, hsm]; exact hl) (by rw [nd]; exact hr)
  refine ⟨out, out', h1, g1, g3, by rw [g2, h2, hsv, hs], fun r j => ?_⟩
  rw [g4, h4, em, ev]
  cases hx : entry m r j with
  | none => rfl
  | some x =>
    cases hv : entry iv r j with
    | none => rfl
    | some v =>
      cases hf : floor[j]? with
      | none => rfl
      | some fl =>
        simp only [Option.map_some, Option.bind_some]
        rw [floorEntry_scale fl x v (s j) (h0 r j x hx) (hpos fl (List.mem_of_getElem? hf)) (hsp j)]

/-- C116: the floor may be applied before or after the SDSS AB correction. -/
theorem C116_ab_correct (floor f : List ℝ) (m iv : NDA ℝ) (hm : m.WF) (hv : iv.WF) (hs : iv.shape = m.shape) (h5 : lastAxis m 5) (hr : m.ndim ≤ 2)
    (hf5 : f.length = 5) (hfl : floor.length = 5) (hpos : ∀ f ∈ floor, 0 < f) (h0 : ∀ r j x, entry m r j = some x → x ≠ 0) :
    ∃ out1 out2 w1 w2 a b, sdssAbCorrect m (some iv) f = .ok out1 ∧ out1.ivar = some w1 ∧ errorFloor id floor out1.maggies w1 = .ok a ∧
      errorFloor id floor m iv = .ok b ∧ sdssAbCorrect m (some b) f = .ok out2 ∧ out2.ivar = some w2 ∧ out2.maggies = out1.maggies ∧ a = w2 := by
  have hl : lastAxis m floor.length := by rw [hfl]; exact h5
  obtain ⟨out1, p1, p2, p3, p4, -, p5⟩ := abCorrect_real m (some iv) f hm h5 hf5 (by rintro _ ⟨⟩; exact ⟨hv, hs⟩)
  obtain ⟨w1, q1, q2, q3, q4⟩ := p5 iv rfl
  have small : ∀ r j x, entry m r j = some x → ∃ φ, f[j]? = some φ := by
    intro r j x hx
    have : j < 5 := by
      cases m with
      | scalar x => simp [lastAxis, NDA.shape] at h5
      | arr l n rows =>
        simp [lastAxis, NDA.shape] at h5; subst h5
        simp only [entry] at hx
        cases hr : rows[r]? with
        | none => rw [hr] at hx; cases hx
        | some row =>
          rw [hr] at hx
          have := (List.getElem?_eq_some_iff.mp hx).1
          rwa [hm.2 row (List.mem_of_getElem? hr)] at this
    exact ⟨_, List.getElem?_eq_getElem (by omega)⟩
  have same : ∀ r j, (entry m r j).isSome = (entry iv r j).isSome := by
    intro r j
    cases m with
    | scalar x => simp [lastAxis, NDA.shape] at h5
    | arr l n rows =>
      cases iv with
      | scalar x => simp [NDA.shape] at hs
      | arr l' n' rows' =>
        simp only [NDA.shape] at hs
        obtain ⟨e1, e2⟩ := List.append_inj' hs rfl
        simp only [List.cons.injEq, and_true] at e2
        subst e1 e2
        simp only [entry]
        have hlen : rows.length = rows'.length := by rw [hm.1, hv.1]
        by_cases hr : r < rows.length
        · rw [List.getElem?_eq_getElem hr, List.getElem?_eq_getElem (by omega)]
          have e1 := hm.2 _ (List.getElem_mem hr)
          have e2 := hv.2 _ (List.getElem_mem (show r < rows'.length by omega))
          simp only [Option.bind_some]
          by_cases hj : j < n'
          · rw [List.getElem?_eq_getElem (by omega), List.getElem?_eq_getElem (by omega)]; rfl
          · rw [List.getElem?_eq_none (by omega), List.getElem?_eq_none (by omega)]
        · rw [List.getElem?_eq_none (by omega), List.getElem?_eq_none (by omega)]
  obtain ⟨b, a, c1, c2, c3, c4, c5⟩ := C116_units floor m iv out1.maggies w1 hm hv p3 q3 hs.symm p2 (by rw [q2, hs]) hl hr hpos
    (fun j => 10 ^ (-0.4 * f.getD j 0)) (fun j => by positivity) h0
    (by
      intro r j
      rw [p4]
      cases hx : entry m r j with
      | none => rfl
      | some x =>
        obtain ⟨φ, hφ⟩ := small r j x hx
        simp [hφ])
    (by
      intro r j
      rw [q4]
      cases hx : entry m r j with
      | none =>
        have := same r j
        rw [hx] at this
        cases hv : entry iv r j with
        | none => rfl
        | some v => rw [hv] at this; simp at this
      | some x =>
        obtain ⟨φ, hφ⟩ := small r j x hx
        cases hv : entry iv r j with
        | none => rfl
        | some v => simp [hφ])
  obtain ⟨b', d1, d2, d3, d4⟩ := errorFloor_entry id floor m iv hm hv hs.symm hl hr
  rw [c1] at d1
  cases d1
  obtain ⟨out2, e1, e2, e3, e4, -, e5⟩ := abCorrect_real m (some b) f hm h5 hf5 (by rintro _ ⟨⟩; exact ⟨d3, by rw [d2, hs]⟩)
  obtain ⟨w2, g1, g2, g3, g4⟩ := e5 b rfl
  refine ⟨out1, out2, w1, w2, a, b, p1, q1, c2, c1, e1, g1, ?_, ?_⟩
  · exact nda_ext e3 p3 (by rw [e2, p2]) (fun r j => by rw [e4, p4])
  · refine nda_ext c3 g3 (by rw [c4, g2]) (fun r j => ?_)
    rw [c5, g4]
    cases hb : entry b r j with
    | none => rfl
    | some v =>
      have : ∃ x, entry m r j = some x := by
        rw [d4] at hb
        cases hx : entry m r j with
        | none => rw [hx] at hb; cases hb
        | some x => exact ⟨x, rfl⟩
      obtain ⟨x, hx⟩ := this
      obtain ⟨φ, hφ⟩ := small r j x hx
      simp [hφ]

/-! ### several floors -/

theorem floorEntry_twice (f g m v : ℝ) (hm : m ≠ 0) (hf : 0 < f) (hg : 0 < g) :
    floorEntry id g m (floorEntry id f m v) = floorEntry id (max f g) m v := by
  rcases le_or_gt v 0 with hv | hv
  · rw [floorEntry_neg _ _ _ hv, floorEntry_neg _ _ _ hv, floorEntry_neg _ _ _ hv]
  · have hma : 0 < |m| := abs_pos.mpr hm
    rw [floorEntry_real _ _ _ hm hv hf, floorEntry_real _ _ _ hm (lt_min hv (by positivity)) hg, floorEntry_real _ _ _ hm hv (lt_max_of_lt_left hf),
      min_assoc]
    congr 1
    rcases le_total f g with h | h
    · rw [max_eq_right h, min_eq_right]
      exact one_div_le_one_div_of_le (by positivity) (pow_le_pow_left₀ (by positivity) (by gcongr) 2)
    · rw [max_eq_left h, min_eq_left]
      exact one_div_le_one_div_of_le (by positivity) (pow_le_pow_left₀ (by positivity) (by gcongr) 2)

theorem floorEntry_mono (f g m v w : ℝ) (hm : m ≠ 0) (hg : 0 < g) (hfg : g ≤ f) (hvw : v ≤ w) : floorEntry id f m v ≤ floorEntry id g m w := by
  have hf : 0 < f := hg.trans_le hfg
  have hma : 0 < |m| := abs_pos.mpr hm
  rcases le_or_gt v 0 with hv | hv
  · rw [floorEntry_neg _ _ _ hv]
    rcases le_or_gt w 0 with hw | hw
    · rw [floorEntry_neg _ _ _ hw]; exact hvw
    · rw [floorEntry_real _ _ _ hm hw hg]
      exact hv.trans (le_of_lt (lt_min hw (by positivity)))
  · rw [floorEntry_real _ _ _ hm hv hf, floorEntry_real _ _ _ hm (hv.trans_le hvw) hg]
    exact min_le_min hvw (one_div_le_one_div_of_le (by positivity) (pow_le_pow_left₀ (by positivity) (by gcongr) 2))

/-- C117: applying one floor and then another is applying the larger of the two in every band, in particular the order does not matter. -/
theorem C117_two_floors (f g : List ℝ) (hfg : f.length = g.length) (m iv : NDA ℝ) (hm : m.WF) (hv : iv.WF) (hs : m.shape = iv.shape)
    (hl : lastAxis m f.length) (hr : m.ndim ≤ 2) (hf : ∀ x ∈ f, 0 < x) (hg : ∀ x ∈ g, 0 < x) (h0 : ∀ r j x, entry m r j = some x → x ≠ 0) :
    ∃ o1 o2, errorFloor id f m iv = .ok o1 ∧ errorFloor id g m o1 = .ok o2 ∧ errorFloor id (List.zipWith max f g) m iv = .ok o2 := by
  obtain ⟨o1, a1, a2, a3, a4⟩ := errorFloor_entry id f m iv hm hv hs hl hr
  obtain ⟨o2, b1, b2, b3, b4⟩ := errorFloor_entry id g m o1 hm a3 (by rw [a2, hs]) (by rw [← hfg]; exact hl) hr
  obtain ⟨o3, c1, c2, c3, c4⟩ := errorFloor_entry id (List.zipWith max f g) m iv hm hv hs (by rw [List.length_zipWith, hfg, min_self, ← hfg]; exact hl) hr
  refine ⟨o1, o2, a1, b1, ?_⟩
  rw [c1]
  congr 1
  refine nda_ext c3 b3 (by rw [c2, b2, a2]) (fun r j => ?_)
  rw [c4, b4, a4]
  cases hx : entry m r j with
  | none => rfl
  | some x =>
    cases hv : entry iv r j with
    | none => rfl
    | some v =>
      by_cases hj : j < f.length
      · have h1 := List.getElem?_eq_getElem hj
        have h2 := List.getElem?_eq_getElem (show j < g.length by omega)
        have h3 : (List.zipWith max f g)[j]? = some (max f[j] (g[j]'(by omega))) := by simp [List.getElem?_zipWith, h1, h2]
        simp only [Option.bind_some, h1, h2, h3, Option.map_some]
        rw [floorEntry_twice _ _ _ _ (h0 r j x hx) (hf _ (List.getElem_mem _)) (hg _ (List.getElem_mem _))]
      · have h1 : f[j]? = none := List.getElem?_eq_none (by omega)
        have h3 : (List.zipWith max f g)[j]? = none := List.getElem?_eq_none (by rw [List.length_zipWith]; omega)
        simp [h1, h3]

/-- C117: larger floors give smaller inverse variances, larger inverse variances give larger ones. -/
theorem C117_monotone (f g : List ℝ) (hfg : f.length = g.length) (m iv iv' : NDA ℝ) (hm : m.WF) (hv : iv.WF) (hv' : iv'.WF) (hs : m.shape = iv.shape)
    (hs' : m.shape = iv'.shape) (hl : lastAxis m f.length) (hr : m.ndim ≤ 2) (hg : ∀ x ∈ g, 0 < x)
    (hle : ∀ (j : Nat) x y, f[j]? = some x → g[j]? = some y → y ≤ x) (h0 : ∀ r j x, entry m r j = some x → x ≠ 0)
    (hiv : ∀ r j v w, entry iv r j = some v → entry iv' r j = some w → v ≤ w) :
    ∃ o o', errorFloor id f m iv = .ok o ∧ errorFloor id g m iv' = .ok o' ∧
      ∀ r j v w, entry o r j = some v → entry o' r j = some w → v ≤ w := by
  obtain ⟨o1, a1, a2, a3, a4⟩ := errorFloor_entry id f m iv hm hv hs hl hr
  obtain ⟨o2, b1, b2, b3, b4⟩ := errorFloor_entry id g m iv' hm hv' hs' (by rw [← hfg]; exact hl) hr
  refine ⟨o1, o2, a1, b1, fun r j v w h1 h2 => ?_⟩
  rw [a4] at h1
  rw [b4] at h2
  cases hx : entry m r j with
  | none => rw [hx] at h1; cases h1
  | some x =>
    cases hp : entry iv r j with
    | none => rw [hx, hp] at h1; cases h1
    | some p =>
      cases hq : entry iv' r j with
      | none => rw [hx, hq] at h2; cases h2
      | some q =>
        cases hfj : f[j]? with
        | none => rw [hx, hp, hfj] at h1; cases h1
        | some a =>
          cases hgj : g[j]? with
          | none => rw [hx, hq, hgj] at h2; cases h2
          | some b =>
            rw [hx, hp, hfj] at h1
            rw [hx, hq, hgj] at h2
            simp only [Option.bind_some, Option.map_some, Option.some.injEq] at h1 h2
            rw [← h1, ← h2]
            exact floorEntry_mono _ _ _ _ _ (h0 r j x hx) (hg b (List.mem_of_getElem? hgj)) (hle j a b hfj hgj) (hiv r j p q hp hq)

/-! ### asinh magnitudes in closed form -/

/-- C118: the maggies of an asinh magnitude `x` are `10^(-0.4 x) - b² 10^(0.4 x)`, times `10^(0.4 e)` for extinction `e`: less than those of the ordinary
magnitude, by a relative amount `b² 10^(0.8 x)`, and zero exactly at the magnitude of the softening `b`, negative beyond it. -/
theorem C118_closed_form (mg : NDA ℝ) (err ext : Option (NDA ℝ)) (hm : mg.WF) (h5 : lastAxis mg 5) (he : ∀ e ∈ err, e.WF ∧ e.shape = mg.shape)
    (hx : ∀ e ∈ ext, e.WF ∧ e.shape = mg.shape) :
    ∃ out, asinhToMaggies mg err ext = .ok out ∧
      ∀ r (k : Fin 5) x e, entry mg r k = some x → extAt ext r k = some e →
        ∃ y, entry out.maggies r k = some y ∧ y = (10 ^ (-0.4 * x) - sdssB k ^ 2 * 10 ^ (0.4 * x)) * 10 ^ (0.4 * e) ∧
          y = 10 ^ (-0.4 * (x - e)) * (1 - sdssB k ^ 2 * 10 ^ (0.8 * x)) ∧ y < 10 ^ (-0.4 * (x - e)) ∧ (0 < y ↔ x < mag (sdssB k)) ∧
          (y = 0 ↔ x = mag (sdssB k)) := by
  obtain ⟨out, h1, -, h3, -⟩ := asinh_real mg err ext hm h5 he hx
  refine ⟨out, h1, fun r k x e hx he => ⟨_, h3 r k x e hx he, ?_⟩⟩
  have hb := sdssB_pos k
  have hL := log10_pos'
  have p10 : ∀ t : ℝ, (10 : ℝ) ^ t = Real.exp (Real.log 10 * t) := fun t => Real.rpow_def_of_pos (by norm_num) t
  have e1 : asinhFlux (sdssB k) x e = (10 ^ (-0.4 * x) - sdssB k ^ 2 * 10 ^ (0.4 * x)) * 10 ^ (0.4 * e) := by
    rw [asinhFlux_real, Real.sinh_eq]
    congr 1
    have a1 : Real.exp (-Real.log (sdssB k) - 0.4 * Real.log 10 * x) = (sdssB k)⁻¹ * 10 ^ (-0.4 * x) := by
      rw [sub_eq_add_neg, Real.exp_add, Real.exp_neg, Real.exp_log hb, p10]
      congr 2; ring
    have a2 : Real.exp (-(-Real.log (sdssB k) - 0.4 * Real.log 10 * x)) = sdssB k * 10 ^ (0.4 * x) := by
      rw [show -(-Real.log (sdssB k) - 0.4 * Real.log 10 * x) = Real.log (sdssB k) + Real.log 10 * (0.4 * x) by ring, Real.exp_add, Real.exp_log hb, p10]
    rw [a1, a2]
    field_simp
  have e2 : (10 ^ (-0.4 * x) - sdssB k ^ 2 * 10 ^ (0.4 * x)) * 10 ^ (0.4 * e) = (10 : ℝ) ^ (-0.4 * (x - e)) * (1 - sdssB k ^ 2 * 10 ^ (0.8 * x)) := by
    have b1 : (10 : ℝ) ^ (-0.4 * (x - e)) = 10 ^ (-0.4 * x) * 10 ^ (0.4 * e) := by rw [← Real.rpow_add (by norm_num)]; congr 1; ring
    have b2 : (10 : ℝ) ^ (0.4 * x) = 10 ^ (-0.4 * x) * 10 ^ (0.8 * x) := by rw [← Real.rpow_add (by norm_num)]; congr 1; ring
    rw [b1, b2]; ring
  have hp : (0 : ℝ) < 10 ^ (-0.4 * (x - e)) := by positivity
  have hq : (0 : ℝ) < sdssB k ^ 2 * 10 ^ (0.8 * x) := by positivity
  have e3 : sdssB k ^ 2 * 10 ^ (0.8 * x) = 10 ^ (0.8 * (x - mag (sdssB k))) := by
    have : sdssB k ^ 2 = (10 : ℝ) ^ (-0.8 * mag (sdssB k)) := by
      unfold mag
      rw [show -0.8 * (-2.5 * Real.logb 10 (sdssB k)) = Real.logb 10 (sdssB k) * 2 by ring, Real.rpow_mul (by norm_num),
        Real.rpow_logb (by norm_num) (by norm_num) hb]
      norm_num
    rw [this, ← Real.rpow_add (by norm_num)]; congr 1; ring
  rw [e1, e2]
  refine ⟨rfl, rfl, ?_, ?_, ?_⟩
  · nlinarith
  · rw [mul_pos_iff_of_pos_left hp, sub_pos, e3]
    conv_lhs => rw [← Real.rpow_zero (10 : ℝ)]
    rw [Real.rpow_lt_rpow_left_iff (by norm_num)]
    constructor <;> intro h <;> linarith
  · rw [mul_eq_zero, or_iff_right hp.ne', sub_eq_zero, e3]
    constructor
    · intro h
      have h2 : (10 : ℝ) ^ (0 : ℝ) = 10 ^ (0.8 * (x - mag (sdssB k))) := by rw [Real.rpow_zero]; exact h
      have := (Real.rpow_right_inj (by norm_num) (by norm_num)).mp h2
      linarith
    · intro h; rw [h]; simp

/-- Not vacuous (C116, C117): two objects, five bands. -/
example : let m : NDA ℝ := .arr [2] 5 [[1, 2, 3, 4, 5], [5, 4, 3, 2, -1]]
    m.WF ∧ lastAxis m 5 ∧ m.ndim ≤ 2 ∧ (∀ r j x, entry m r j = some x → x ≠ 0) := by
  refine ⟨by simp [NDA.WF], by simp [lastAxis, NDA.shape], by simp [NDA.ndim], ?_⟩
  intro r j x h
  rcases r with _ | _ | r <;> rcases j with _ | _ | _ | _ | _ | j <;> simp [entry] at h <;> rw [← h] <;> norm_num

end KC
