import Verif.Props.Utils
import Verif.Lemmas.XR

/-! # Properties C06–C10: `error_floor` -/

namespace KC
open Spec

theorem floorEntry_skip {α : Type} [Arith α] {st : α → α} {fl m v : α} (h : gtb v (lit 0) = false) :
    floorEntry st fl m v = v := by simp [floorEntry, h]

theorem floorEntry_keep {α : Type} [Arith α] {st : α → α} {fl m v : α} 
    (h : ltb (lit 1 / (Arith.abs m * Arith.sqrt v)) fl = false) : floorEntry st fl m v = v := by
  simp [floorEntry, h]

theorem floorEntry_set {α : Type} [Arith α] {st : α → α} {fl m v : α} (h : gtb v (lit 0) = true)
    (h' : ltb (lit 1 / (Arith.abs m * Arith.sqrt v)) fl = true) :
    floorEntry st fl m v = st (lit 1 / ((Arith.abs m * fl) * (Arith.abs m * fl))) := by
  simp [floorEntry, h, h']

/-- A floored entry, with `ivar > 0`, finite nonzero flux and finite floor, exact arithmetic. -/
theorem floorEntry_real (fl m v : ℝ) (hm : m ≠ 0) (hv : 0 < v) (hfl : 0 < fl) :
    floorEntry id fl m v = min v (1 / (|m| * fl) ^ 2) := by
  have hma : 0 < |m| := abs_pos.mpr hm
  have hs : 0 < Real.sqrt v := Real.sqrt_pos.mpr hv
  have key : 1 / (|m| * Real.sqrt v) < fl ↔ 1 / (|m| * fl) ^ 2 < v := by
    rw [div_lt_iff₀ (by positivity), div_lt_iff₀ (by positivity)]
    have e : v * (|m| * fl) ^ 2 = (fl * (|m| * Real.sqrt v)) ^ 2 := by
      have := Real.sq_sqrt hv.le
      calc v * (|m| * fl) ^ 2 = (Real.sqrt v) ^ 2 * (|m| * fl) ^ 2 := by rw [this]
        _ = _ := by ring
    rw [e, one_lt_sq_iff₀ (by positivity)]
  simp only [floorEntry, real_gtb, real_lit, real_ltb, real_abs, real_sqrt, id, decide_eq_true_eq]
  push_cast
  rw [if_pos hv]
  by_cases h : 1 / (|m| * Real.sqrt v) < fl
  · rw [if_pos h, min_eq_right (key.mp h).le, pow_two]
  · rw [if_neg h, min_eq_left (not_lt.mp (fun h' => h (key.mpr h')))]

/-- **C06 (entries).** With IEEE special values everywhere: the result is the input itself or is `<=` it. -/
theorem floorEntry_le (fl m v : XR) : floorEntry id fl m v = v ∨ leb (floorEntry id fl m v) v = true := by
  cases hc : gtb v (lit 0) with
  | false => left; exact floorEntry_skip hc
  | true =>
    cases hd : ltb (lit 1 / (Arith.abs m * Arith.sqrt v)) fl with
    | false => left; exact floorEntry_keep hd
    | true =>
      right
      have e : floorEntry id fl m v = lit 1 / ((Arith.abs m * fl) * (Arith.abs m * fl)) := floorEntry_set hc hd
      rw [e]
      -- the flux: finite nonzero or infinite
      cases v with
      | nan => simp at hc
      | ninf => simp at hc
      | pinf =>
        cases m with
        | nan => simp at hd
        | fin m =>
          by_cases hm : m = 0
          · subst hm; simp at hd
          · have hma : 0 < |m| := abs_pos.mpr hm
            cases fl with
            | nan => simp at hd
            | ninf => simp [XR.infMul_pos hma] at hd
            | pinf => simp [XR.infMul_pos hma]
            | fin fl =>
              simp only [XR.abs_f, XR.sqrt_p, XR.mul_fp, XR.infMul_pos hma, XR.lit_x, XR.div_fp, XR.ltb_ff,
                decide_eq_true_eq] at hd
              simp only [XR.abs_f, XR.mul_ff, XR.lit_x]
              rw [XR.div_ff_of_ne (by positivity)]
              simp
        | pinf =>
          cases fl with
          | nan => simp at hd
          | ninf => simp at hd
          | pinf => simp
          | fin fl =>
            simp only [XR.abs_p, XR.sqrt_p, XR.mul_pp, XR.lit_x, XR.div_fp, XR.ltb_ff,
                decide_eq_true_eq] at hd
            simp [XR.infMul_pos hd]
        | ninf =>
          cases fl with
          | nan => simp at hd
          | ninf => simp at hd
          | pinf => simp
          | fin fl =>
            simp only [XR.abs_n, XR.sqrt_p, XR.mul_pp, XR.lit_x, XR.div_fp, XR.ltb_ff,
                decide_eq_true_eq] at hd
            simp [XR.infMul_pos hd]
      | fin v =>
        simp at hc
        have hs : 0 < Real.sqrt v := Real.sqrt_pos.mpr hc
        rw [XR.sqrt_f hc.le] at hd
        cases m with
        | nan => simp at hd
        | fin m =>
          by_cases hm : m = 0
          · subst hm
            cases fl <;> simp [XR.div_ff] at hd
          · have hma : 0 < |m| := abs_pos.mpr hm
            simp only [XR.abs_f, XR.mul_ff, XR.lit_x, Rat.cast_one] at hd
            rw [XR.div_ff_of_ne (by positivity)] at hd
            cases fl with
            | nan => simp at hd
            | ninf => simp at hd
            | pinf => simp [XR.infMul_pos hma]; exact hc.le
            | fin fl =>
              simp only [XR.ltb_ff, decide_eq_true_eq] at hd
              have hfl : 0 < fl := lt_of_le_of_lt (by positivity) hd
              have h1 := floorEntry_real fl m v hm hc hfl
              simp only [floorEntry, real_gtb, real_lit, real_ltb, real_abs, real_sqrt, id,
                decide_eq_true_eq] at h1
              push_cast at h1
              rw [if_pos hc, if_pos hd] at h1
              simp only [XR.abs_f, XR.mul_ff, XR.lit_x, Rat.cast_one]
              rw [XR.div_ff_of_ne (by positivity), h1]
              simp
        | pinf =>
          cases fl with
          | nan => simp at hd
          | ninf => simp [XR.infMul_pos hs] at hd
          | pinf => simp [hc.le]
          | fin fl =>
            simp only [XR.abs_p, XR.mul_pf, XR.infMul_pos hs, XR.lit_x, XR.div_fp, XR.ltb_ff,
                decide_eq_true_eq] at hd
            simp [XR.infMul_pos hd, hc.le]
        | ninf =>
          cases fl with
          | nan => simp at hd
          | ninf => simp [XR.infMul_pos hs] at hd
          | pinf => simp [hc.le]
          | fin fl =>
            simp only [XR.abs_n, XR.mul_pf, XR.infMul_pos hs, XR.lit_x, XR.div_fp, XR.ltb_ff,
                decide_eq_true_eq] at hd
            simp [XR.infMul_pos hd, hc.le]

/-- **C06.** `error_floor` never adds confidence, for every flux, inverse variance and floor including
infinities and NaN: each returned entry is the entry given (this includes every entry that is not `> 0`) or is
`<=` it. -/
theorem C06_floor_no_confidence (floor : List XR) (m iv : NDA XR) (hm : m.WF) (hv : iv.WF)
    (hs : m.shape = iv.shape) (hl : lastAxis m floor.length) (hr : m.ndim ≤ 2) :
    ∃ out, errorFloor id floor m iv = .ok out ∧ out.shape = iv.shape ∧
      ∀ r j v, entry iv r j = some v → ∃ w, entry out r j = some w ∧
        (w = v ∨ leb w v = true) ∧ (gtb v (lit 0) = false → w = v) := by
  obtain ⟨out, h1, h2, h3, h4⟩ := errorFloor_entry id floor m iv hm hv hs hl hr
  refine ⟨out, h1, h2, ?_⟩
  intro r j v hvv
  obtain ⟨lead, mrows, rows, rfl, rfl, ha, hb, hc, hd⟩ : ∃ lead mrows rows, m = .arr lead floor.length mrows ∧
      iv = .arr lead floor.length rows ∧ mrows.length = lead.prod ∧ rows.length = lead.prod ∧
      (∀ row ∈ mrows, row.length = floor.length) ∧ (∀ row ∈ rows, row.length = floor.length) := by
    cases m with
    | scalar x => simp [lastAxis, NDA.shape] at hl
    | arr lead n mrows =>
      simp [lastAxis, NDA.shape] at hl
      subst hl
      obtain ⟨rows, rfl, ha, hb⟩ := shape_arr hv hs.symm
      exact ⟨lead, mrows, rows, rfl, rfl, hm.1, ha, hm.2, hb⟩
  simp only [entry, Option.bind_eq_some_iff] at hvv
  obtain ⟨row, hrow, hj⟩ := hvv
  have hr' := (List.getElem?_eq_some_iff.mp hrow).1
  have hj' := (List.getElem?_eq_some_iff.mp hj).1
  have hrl := hd row (List.mem_of_getElem? hrow)
  have hml := hc (mrows[r]'(by omega)) (List.getElem_mem _)
  refine ⟨floorEntry id (floor[j]'(by omega)) ((mrows[r]'(by omega))[j]'(by omega)) v, ?_, ?_, ?_⟩
  · rw [h4]
    have e1 : entry (.arr lead floor.length mrows) r j = some ((mrows[r]'(by omega))[j]'(by omega)) := by
      simp only [entry]
      rw [List.getElem?_eq_getElem (by omega)]
      simp only [Option.bind_some]
      exact List.getElem?_eq_getElem _
    have e2 : entry (.arr lead floor.length rows) r j = some v := by simp [entry, hrow, hj]
    have e3 : floor[j]? = some (floor[j]'(by omega)) := List.getElem?_eq_getElem _
    rw [e1, e2, e3]; rfl
  · exact floorEntry_le _ _ _
  · intro h0; exact floorEntry_skip h0

example : let m : NDA XR := NDA.mat 2 [[.fin 1, .fin 0], [.nan, .pinf]]
    m.WF ∧ lastAxis m [XR.fin 0.1, XR.fin 0.02].length ∧ m.ndim ≤ 2 := by
  simp [NDA.mat, NDA.WF, lastAxis, NDA.shape, NDA.ndim]

/-- **C07.** For positive floors: every entry with `ivar > 0` and nonzero flux comes back as
`min(ivar, 1/(|maggies| floor)²)`, still positive, and its fractional error is at least the floor. -/
theorem C07_floor_enforced (floor : List ℝ) (m iv : NDA ℝ) (hm : m.WF) (hv : iv.WF)
    (hs : m.shape = iv.shape) (hl : lastAxis m floor.length) (hr : m.ndim ≤ 2) (hpos : ∀ f ∈ floor, 0 < f) :
    ∃ out, errorFloor id floor m iv = .ok out ∧ out.shape = iv.shape ∧
      ∀ r j x v fl, entry m r j = some x → entry iv r j = some v → floor[j]? = some fl → x ≠ 0 → 0 < v →
        ∃ w, entry out r j = some w ∧ w = min v (1 / (|x| * fl) ^ 2) ∧ 0 < w ∧ fl ≤ fracErr x w := by
  obtain ⟨out, h1, h2, h3, h4⟩ := errorFloor_entry id floor m iv hm hv hs hl hr
  refine ⟨out, h1, h2, ?_⟩
  intro r j x v fl hx hvv hfl hx0 hv0
  have hflp := hpos fl (List.mem_of_getElem? hfl)
  have hxa : 0 < |x| := abs_pos.mpr hx0
  refine ⟨floorEntry id fl x v, by simp [h4, hx, hvv, hfl], floorEntry_real fl x v hx0 hv0 hflp, ?_, ?_⟩
  · rw [floorEntry_real fl x v hx0 hv0 hflp]
    exact lt_min hv0 (by positivity)
  · rw [floorEntry_real fl x v hx0 hv0 hflp]
    set w := min v (1 / (|x| * fl) ^ 2) with hw
    have hwp : 0 < w := lt_min hv0 (by positivity)
    have hwle : w ≤ 1 / (|x| * fl) ^ 2 := min_le_right _ _
    have hsq : Real.sqrt w ≤ 1 / (|x| * fl) := by
      calc Real.sqrt w ≤ Real.sqrt (1 / (|x| * fl) ^ 2) := Real.sqrt_le_sqrt hwle
        _ = 1 / (|x| * fl) := by
          rw [show 1 / (|x| * fl) ^ 2 = (1 / (|x| * fl)) ^ 2 by rw [div_pow, one_pow], Real.sqrt_sq (by positivity)]
    have hsp : 0 < Real.sqrt w := Real.sqrt_pos.mpr hwp
    unfold fracErr
    rw [le_div_iff₀ (by positivity)]
    calc fl * (|x| * Real.sqrt w) ≤ fl * (|x| * (1 / (|x| * fl))) := by gcongr
      _ = 1 := by field_simp

example : let m : NDA ℝ := NDA.vec [3, -2]
    m.WF ∧ lastAxis m [(0.1 : ℝ), 0.02].length ∧ entry m 0 1 = some (-2) ∧ (∀ f ∈ [(0.1 : ℝ), 0.02], 0 < f) := by
  simp [NDA.vec, NDA.WF, lastAxis, NDA.shape, entry]; norm_num

/-- One entry: flooring twice is flooring once, in every arithmetic: the value stored does not depend on the old one. -/
theorem floorEntry_idem {α : Type} [Arith α] (st : α → α) (fl m v : α) : floorEntry st fl m (floorEntry st fl m v) = floorEntry st fl m v := by
  have key : ∀ w, floorEntry st fl m w = w ∨ floorEntry st fl m w = st (lit 1 / ((Arith.abs m * fl) * (Arith.abs m * fl))) := by
    intro w
    cases hc : gtb w (lit 0) with
    | false => left; exact floorEntry_skip hc
    | true =>
      cases hd : ltb (lit 1 / (Arith.abs m * Arith.sqrt w)) fl with
      | false => left; exact floorEntry_keep hd
      | true => right; exact floorEntry_set hc hd
  rcases key v with h | h
  · rw [h, h]
  · rw [h]
    rcases key (st (lit 1 / ((Arith.abs m * fl) * (Arith.abs m * fl)))) with h' | h' <;> exact h'

/-- **C08.** `error_floor(floor, maggies, error_floor(floor, maggies, ivar)) = error_floor(floor, maggies, ivar)`,
for every floor (positive or not), flux and inverse variance, in every arithmetic (IEEE floats included: bit for bit) and for every dtype the
result is stored in. -/
theorem C08_floor_idempotent {α : Type} [Arith α] (store : α → α) (floor : List α) (m iv : NDA α) (hm : m.WF) (hv : iv.WF)
    (hs : m.shape = iv.shape) (hl : lastAxis m floor.length) (hr : m.ndim ≤ 2) :
    ∃ out, errorFloor store floor m iv = .ok out ∧ errorFloor store floor m out = .ok out := by
  obtain ⟨out, h1, h2, h3, h4⟩ := errorFloor_entry store floor m iv hm hv hs hl hr
  obtain ⟨out', g1, g2, g3, g4⟩ := errorFloor_entry store floor m out hm h3 (hs.trans h2.symm) hl hr
  refine ⟨out, h1, ?_⟩
  rw [g1]
  congr 1
  refine nda_ext g3 h3 g2 ?_
  intro r j
  rw [g4, h4]
  cases entry m r j with
  | none => rfl
  | some x =>
    cases entry iv r j with
    | none => rfl
    | some v =>
      cases floor[j]? with
      | none => rfl
      | some fl => simp [floorEntry_idem]

example : let m : NDA XR := NDA.mat 2 [[.fin 1, .fin 0], [.fin (-3), .pinf]]
    m.WF ∧ lastAxis m [XR.fin 0.1, XR.fin 0.02].length ∧ m.ndim ≤ 2 := by
  simp [NDA.mat, NDA.WF, lastAxis, NDA.shape, NDA.ndim]

/-- **C09.** A table is floored object by object: row `r` of the result is what a separate call on row `r`
returns.  For every arithmetic (in particular IEEE floats: bit for bit), every dtype and every number of rows. -/
theorem C09_floor_rowwise {α : Type} [Arith α] (store : α → α) (floor : List α) (N : Nat) (m iv : NDA α)
    (hm : m.WF) (hv : iv.WF) (hms : m.shape = [N, floor.length]) (hvs : iv.shape = [N, floor.length]) :
    ∃ out, errorFloor store floor m iv = .ok out ∧ out.shape = [N, floor.length] ∧ out.WF ∧
      ∀ r, r < N → ∃ mr vr o, rowOf m r = some mr ∧ rowOf iv r = some vr ∧
        errorFloor store floor mr vr = .ok o ∧ rowOf out r = some o := by
  obtain ⟨mrows, rfl, h1, h2⟩ := shape_arr (lead := [N]) hm hms
  obtain ⟨rows, rfl, h3, h4⟩ := shape_arr (lead := [N]) hv hvs
  simp only [List.prod_cons, List.prod_nil, mul_one] at h1 h3
  refine ⟨_, errorFloor_rows store floor [N] mrows rows (by omega) (by simp), rfl, ⟨by simp [h1, h3], ?_⟩, ?_⟩
  · intro row hrow
    obtain ⟨i, hi, rfl⟩ := List.mem_iff_getElem.mp hrow
    simp only [List.length_zipWith] at hi
    simp [floorRow, rowLoop_length, h4 _ (List.getElem_mem (show i < rows.length by omega))]
  · intro r hr
    have e1 : mrows[r]? = some (mrows[r]'(by omega)) := List.getElem?_eq_getElem _
    have e2 : rows[r]? = some (rows[r]'(by omega)) := List.getElem?_eq_getElem _
    refine ⟨_, _, _, by simp only [rowOf, e1]; rfl, by simp only [rowOf, e2]; rfl,
      errorFloor_rows store floor [] [mrows[r]] [rows[r]] rfl (by simp), ?_⟩
    simp only [rowOf, List.getElem?_zipWith, e1, e2]
    rfl

example : (NDA.mat 2 [[1, 2], [3, (4 : ℝ)]]).WF ∧ (NDA.mat 2 [[1, 2], [3, (4 : ℝ)]]).shape = [2, [0.1, (0.2 : ℝ)].length] := by
  simp [NDA.mat, NDA.WF, NDA.shape]

/-- C10 for one dtype: every floored entry is `1/(|maggies| floor)²`. -/
def keepsPrecision (store : ℝ → ℝ) : Prop :=
  ∀ (floor : List ℝ) (m iv : NDA ℝ), m.WF → iv.WF → m.shape = iv.shape → lastAxis m floor.length → m.ndim ≤ 2 →
    ∃ out, errorFloor store floor m iv = .ok out ∧
      ∀ r j x v fl, entry m r j = some x → entry iv r j = some v → floor[j]? = some fl → x ≠ 0 → 0 < v →
        fracErr x v < fl → entry out r j = some (1 / (|x| * fl) ^ 2)

/-- **C10 is false of the code**: with an integer `ivar` array (e.g. `ivar=[100]`, maggies `[1]`, floor `[0.3]`)
the floored value `11.11…` is stored as `11`. -/
theorem C10_false : ¬ keepsPrecision Arith.trunc := by
  intro h
  obtain ⟨out, h1, h2⟩ := h [0.3] (NDA.vec [1]) (NDA.vec [100]) (by simp [NDA.WF, NDA.vec]) (by simp [NDA.WF, NDA.vec])
    (by simp [NDA.vec, NDA.shape]) (by simp [lastAxis, NDA.vec, NDA.shape]) (by simp [NDA.vec, NDA.ndim])
  have hs : Real.sqrt 100 = 10 := by
    rw [show (100 : ℝ) = 10 ^ 2 by norm_num, Real.sqrt_sq (by norm_num)]
  have e := h2 0 0 1 100 0.3 (by simp [entry, NDA.vec]) (by simp [entry, NDA.vec]) (by simp) (by norm_num)
    (by norm_num) (by simp only [fracErr, hs]; norm_num)
  obtain ⟨out', g1, -, -, g4⟩ := errorFloor_entry (Arith.trunc (α := ℝ)) [0.3] (NDA.vec [1]) (NDA.vec [100])
    (by simp [NDA.WF, NDA.vec]) (by simp [NDA.WF, NDA.vec])
    (by simp [NDA.vec, NDA.shape]) (by simp [lastAxis, NDA.vec, NDA.shape]) (by simp [NDA.vec, NDA.ndim])
  rw [h1] at g1; cases g1
  have g := g4 0 0
  rw [e] at g
  simp only [entry, NDA.vec, List.getElem?_cons_zero, Option.bind_some, Option.map_some, Option.some.injEq] at g
  have hv : floorEntry (Arith.trunc (α := ℝ)) 0.3 1 100 = 11 := by
    have hc : (1 : ℝ) / (|1| * Real.sqrt 100) < 0.3 := by rw [hs]; norm_num
    have hfl : ⌊(1 : ℝ) / (|1| * 0.3 * (|1| * 0.3))⌋ = 11 := by rw [Int.floor_eq_iff]; norm_num
    simp only [floorEntry, real_gtb, real_lit, real_ltb, real_abs, real_sqrt, decide_eq_true_eq, Rat.cast_zero,
      Rat.cast_one]
    rw [if_pos (by norm_num), if_pos hc, real_trunc, if_pos (by norm_num), hfl]
    norm_num
  rw [hv] at g
  norm_num at g

/-- **C10 (partial).** For dtypes that store the value exactly (a float array, up to rounding) the claim holds.
Missing: integer dtypes (`C10_false`). -/
theorem C10_floor_precision_partial : keepsPrecision id := by
  intro floor m iv hm hv hs hl hr
  obtain ⟨out, h1, h2, h3, h4⟩ := errorFloor_entry id floor m iv hm hv hs hl hr
  refine ⟨out, h1, ?_⟩
  intro r j x v fl hx hvv hfl hx0 hv0 hlt
  simp only [h4, hx, hvv, hfl, Option.bind_some, Option.map_some, Option.some.injEq]
  simp only [floorEntry, real_gtb, real_lit, real_ltb, real_abs, real_sqrt, decide_eq_true_eq, Rat.cast_zero,
    Rat.cast_one, id]
  rw [if_pos hv0, if_pos (show 1 / (|x| * Real.sqrt v) < fl from hlt), pow_two]

example : fracErr 1 100 < 0.3 := by
  have hs : Real.sqrt 100 = 10 := by
    rw [show (100 : ℝ) = 10 ^ 2 by norm_num, Real.sqrt_sq (by norm_num)]
  simp only [fracErr, hs]; norm_num

end KC
