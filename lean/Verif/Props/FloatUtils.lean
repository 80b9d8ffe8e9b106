import Verif.Lemmas.FlOps
import Verif.Props.Floor

/-!
# C130, C131: `sdss_ab_correct` and `error_floor` in floating point
-/

namespace KC
open Spec

/-! ### C130 -/

section generic
variable {α : Type} [Arith α]

/-- the factor of `sdss_ab_correct` for one band -/
def abFac32 (φ : α) : α := pow10 (-(lit 0.4) * f32 φ)

/-- `sdss_ab_correct` on valid input, in an arithmetic where products and quotients of float32 numbers are float32 numbers. -/
theorem abCorrect_entry (hmul : ∀ x φ : α, f32 (f32 x * abFac32 φ) = f32 x * abFac32 φ)
    (hdiv : ∀ x φ : α, f32 (f32 x / (abFac32 φ * abFac32 φ)) = f32 x / (abFac32 φ * abFac32 φ))
    (m v : NDA α) (f : List α) (hm : m.WF) (h5 : lastAxis m 5) (hf : f.length = 5) (hv : v.WF) (hs : v.shape = m.shape) :
    ∃ out w, sdssAbCorrect m (some v) f = .ok out ∧ out.ivar = some w ∧ out.maggies.shape = m.shape ∧ w.shape = m.shape ∧ out.maggies.WF ∧ w.WF ∧
      (∀ r j, entry out.maggies r j = (entry m r j).bind fun x => (f[j]?).map fun φ => f32 x * abFac32 φ) ∧
      (∀ r j, entry w r j = (entry v r j).bind fun x => (f[j]?).map fun φ => f32 x / (abFac32 φ * abFac32 φ)) := by
  have hlen : (abFac f).length = 5 := by simp [abFac, hf]
  have hent : ∀ j φ, f[j]? = some φ → ent (abFac f) j = abFac32 φ := by
    intro j φ h
    apply ent_eq
    simp [abFac, h, abFac32]
  cases m with
  | scalar x => simp [lastAxis, NDA.shape] at h5
  | arr lead ncol rows =>
    simp [lastAxis, NDA.shape] at h5
    subst h5
    obtain ⟨hrl, hrow⟩ := hm
    obtain ⟨ivrows, rfl, hil, hiw⟩ := shape_arr (lead := lead) (n := 5) hv hs
    -- entries of the two kinds of result
    have zipEnt : ∀ (op : α → α → α) (rows : List (List α)) (r j : Nat),
        (((rows.map (List.map f32)).map (fun row => List.zipWith op row (abFac f)))[r]?).bind (fun row => row[j]?)
          = ((rows[r]?).bind (fun row => row[j]?)).bind fun x => (f[j]?).map fun φ => op (f32 x) (abFac32 φ) := by
      intro op rows r j
      rw [List.getElem?_map, List.getElem?_map]
      cases rows[r]? with
      | none => simp
      | some row =>
        simp only [Option.map_some, Option.bind_some]
        rw [List.getElem?_zipWith, List.getElem?_map]
        cases row[j]? with
        | none => simp
        | some x =>
          cases hφ : f[j]? with
          | none => simp [abFac, hφ]
          | some φ => simp [abFac, hφ, abFac32]
    have fillEnt : ∀ (op : α → α → α) (rows : List (List α)) (hrow : ∀ r ∈ rows, r.length = 5) (r j : Nat),
        ((colLoop 5 (fun i s _ => op (ent s i) (ent (abFac f) i)) (rows.map (List.map f32)) (zeroRows (rows.map (List.map f32)).length 5))[r]?).bind
            (fun row => row[j]?)
          = ((rows[r]?).bind (fun row => row[j]?)).bind fun x => (f[j]?).map fun φ => op (f32 x) (abFac32 φ) := by
      intro op rows hrow r j
      have e := fill_entry (α := α) 5 5 (fun i s => op (ent s i) (ent (abFac f) i)) (rows.map (List.map f32)) r j
      rw [e, List.getElem?_map]
      by_cases hr : r < rows.length
      · simp only [hr, List.getElem?_eq_getElem, Option.bind_some, Option.map_some]
        have hl := hrow rows[r] (List.getElem_mem hr)
        by_cases hj : j < 5
        · have h1 : rows[r][j]? = some (rows[r][j]'(by omega)) := List.getElem?_eq_getElem _
          have h1' : (rows[r].map f32)[j]? = some (f32 (rows[r][j]'(by omega))) := by rw [List.getElem?_map, h1]; rfl
          have h2 : f[j]? = some (f[j]'(by omega)) := List.getElem?_eq_getElem _
          rw [h1, h2]
          simp only [hj, if_true, Option.bind_some, Option.map_some, hent _ _ h2, ent_eq h1']
        · have h1 : rows[r][j]? = none := List.getElem?_eq_none (by omega)
          rw [h1]; simp [hj]
      · simp [hr]
    have zipRow : ∀ (op : α → α → α) (rows : List (List α)) (_ : ∀ r ∈ rows, r.length = 5),
        ∀ row ∈ (rows.map (List.map f32)).map (fun row => List.zipWith op row (abFac f)), row.length = 5 := by
      intro op rows hrow row hr
      simp only [List.mem_map] at hr
      obtain ⟨a, ⟨b, hb, rfl⟩, rfl⟩ := hr
      simp [hlen, hrow b hb]
    cases lead with
    | nil =>
      refine ⟨⟨.arr [] 5 ((rows.map (List.map f32)).map (fun r => List.zipWith (fun x c => x * c) r (abFac f))),
        some (.arr [] 5 ((ivrows.map (List.map f32)).map (fun r => List.zipWith (fun x c => x / (c * c)) r (abFac f))))⟩, _, ?_, rfl, rfl, rfl,
        ⟨by simpa using hrl, zipRow _ rows hrow⟩, ⟨by simpa using hil, zipRow _ ivrows hiw⟩, zipEnt _ rows, zipEnt _ ivrows⟩
      simp [sdssAbCorrect, abApply, hf, NDA.shape, NDA.map]
    | cons d ds =>
      refine ⟨⟨.arr (d :: ds) 5 (colLoop 5 (fun i s _ => f32 (ent s i * ent (abFac f) i)) (rows.map (List.map f32))
        (zeroRows (rows.map (List.map f32)).length 5)), some (.arr (d :: ds) 5 (colLoop 5 (fun i s _ =>
        f32 (ent s i / (ent (abFac f) i * ent (abFac f) i))) (ivrows.map (List.map f32)) (zeroRows (ivrows.map (List.map f32)).length 5)))⟩, _, ?_, rfl,
        rfl, rfl, ⟨?_, fill_row_length (α := α) 5 5 _ _⟩, ⟨?_, fill_row_length (α := α) 5 5 _ _⟩, ?_, ?_⟩
      · simp [sdssAbCorrect, abApply, hf, NDA.shape, NDA.map]
      · rw [fill_length]; simpa using hrl
      · rw [fill_length]; simpa using hil
      · intro r j
        have := fillEnt (fun x c => f32 (x * c)) rows hrow r j
        simp only [hmul] at this
        exact this
      · intro r j
        have := fillEnt (fun x c => f32 (x / (c * c))) ivrows hiw r j
        simp only [hdiv] at this
        exact this

end generic

theorem abFac32_dt (φ : Fl) : (abFac32 φ).dt = .f32 := rfl

theorem abFac32_num (φ : Fl) : (abFac32 φ).Num := (pow10_num (op2_num _ (Or.inr (f32_num φ).2))).1

theorem abFac32_pos (φ : Fl) : 0 < (abFac32 φ).val := by
  have := (pow10_num (a := -(lit 0.4) * f32 φ) (op2_num _ (Or.inr (f32_num φ).2))).2
  exact this.pos (by positivity)

theorem ab_mul (x φ : Fl) : f32 (f32 x * abFac32 φ) = f32 x * abFac32 φ :=
  f32_of_f32 (mul_num (f32_num x) (abFac32_num φ)).1 rfl

theorem ab_div (x φ : Fl) : f32 (f32 x / (abFac32 φ * abFac32 φ)) = f32 x / (abFac32 φ * abFac32 φ) :=
  f32_of_f32 (div_num (f32_num x) (mul_num (abFac32_num φ) (abFac32_num φ)).1).1 rfl

theorem uro_small : uro 24 ≤ 1e-7 := by unfold uro; norm_num

/-- the magnitude of the factor is the offset, up to rounding -/
theorem abFac32_mag (φ : Fl) : |mag (abFac32 φ).val - φ.val| ≤ 1.1 * uro 24 + 4.1 * uro 24 * |φ.val| := by
  have hnum : (-(lit 0.4 : Fl) * f32 φ).Num := op2_num _ (Or.inr (f32_num φ).2)
  have h1 := (pow10_num hnum).2
  -- the exponent
  have he : Near 4 (-(0.4 : ℝ) * φ.val) (-(lit 0.4 : Fl) * f32 φ).val := by
    have e : (-(lit 0.4 : Fl) * f32 φ).val = rd 24 (-(rd 24 (rd 53 0.4)) * rd 24 φ.val) := by
      have e1 : -(lit 0.4 : Fl) = ⟨-rd 53 0.4, .weak⟩ := by
        have e0 : (lit 0.4 : Fl) = ⟨rd 53 0.4, .weak⟩ := by rw [fl_lit]; norm_num
        rw [e0]; rfl
      rw [e1, fl_f32, fl_mul]
      simp only [Fl.op2, DT.join, DT.prec]
      rw [rd_neg, rd_rd (by norm_num)]
    rw [e]
    have h2 : Near 2 (0.4 : ℝ) (rd 24 (rd 53 0.4)) := (near_rd (by norm_num) _).trans (near_rd le_rfl _)
    exact (h2.neg.mul (near_rd (p := 24) le_rfl φ.val)).trans (near_rd le_rfl _)
  have hm := h1.mag (by positivity)
  set y := (-(lit 0.4 : Fl) * f32 φ).val with hy
  have e10 : mag ((10 : ℝ) ^ y) = -2.5 * y := by
    unfold mag
    rw [Real.logb_rpow (by norm_num) (by norm_num)]
  have hr := he.rel (by unfold uro; norm_num)
  have hφ : |-2.5 * y - φ.val| ≤ 4.1 * uro 24 * |φ.val| := by
    have e : -2.5 * y - φ.val = -2.5 * (y - -(0.4 : ℝ) * φ.val) := by ring
    rw [e, abs_mul]
    have e2 : |-(0.4 : ℝ) * φ.val| = 0.4 * |φ.val| := by rw [abs_mul]; norm_num
    rw [e2] at hr
    have e3 : |(-2.5 : ℝ)| = 2.5 := by norm_num
    rw [e3]
    have e4 : ((4 : ℕ) : ℝ) * uro 24 / (1 - ((4 : ℕ) : ℝ) * uro 24) ≤ 4.1 * uro 24 := by unfold uro; norm_num
    have hp := abs_nonneg φ.val
    calc 2.5 * |y - -0.4 * φ.val| ≤ 2.5 * (4.1 * uro 24 * (0.4 * |φ.val|)) := by
          gcongr
          exact hr.trans (by gcongr)
      _ = 4.1 * uro 24 * |φ.val| := by ring
  have hf : (abFac32 φ).val = (pow10 (-(lit 0.4 : Fl) * f32 φ)).val := rfl
  rw [hf]
  rw [e10] at hm
  have := abs_add_le (mag (pow10 (-(lit 0.4 : Fl) * f32 φ)).val - -2.5 * y) (-2.5 * y - φ.val)
  rw [sub_add_sub_cancel] at this
  push_cast at hm
  linarith

/-- **C130, magnitudes.** In float32: the correction adds `f[i]` to the magnitude of every positive flux up to `5u(1 + |f[i]|)`, `u = 2^-24`, and the
signal-to-noise squared of every entry changes by at most seven rounding errors, for arrays of every rank. -/
theorem C130_ab_correct_float (m v : NDA Fl) (f : List Fl) (hm : m.WF) (h5 : lastAxis m 5) (hf : f.length = 5) (hv : v.WF) (hs : v.shape = m.shape) :
    ∃ out w, sdssAbCorrect m (some v) f = .ok out ∧ out.ivar = some w ∧ out.maggies.shape = m.shape ∧ w.shape = m.shape ∧
      ∀ r j x i φ, entry m r j = some x → entry v r j = some i → f[j]? = some φ →
        ∃ y k, entry out.maggies r j = some y ∧ entry w r j = some k ∧ y.dt = .f32 ∧ k.dt = .f32 ∧
          (0 < x.val → 0 < y.val ∧ |mag y.val - (mag x.val + φ.val)| ≤ 5 * uro 24 * (1 + |φ.val|)) ∧
          |y.val ^ 2 * k.val - x.val ^ 2 * i.val| ≤ 7 * uro 24 / (1 - 7 * uro 24) * |x.val ^ 2 * i.val| := by
  obtain ⟨out, w, h1, h2, h3, h4, -, -, h6, h7⟩ := abCorrect_entry ab_mul ab_div m v f hm h5 hf hv hs
  refine ⟨out, w, h1, h2, h3, h4, ?_⟩
  intro r j x i φ hx hi hφ
  obtain ⟨-, nm⟩ := mul_num (f32_num x) (abFac32_num φ)
  obtain ⟨nn, ns⟩ := mul_num (abFac32_num φ) (abFac32_num φ)
  obtain ⟨-, nd⟩ := div_num (f32_num i) nn
  have hcp := abFac32_pos φ
  have hx1 : Near 2 (x.val * (abFac32 φ).val) (f32 x * abFac32 φ).val := ((f32_near x).mul (Near.refl _)).trans nm
  refine ⟨f32 x * abFac32 φ, f32 i / (abFac32 φ * abFac32 φ), by simp [h6, hx, hφ], by simp [h7, hi, hφ], rfl, rfl, ?_, ?_⟩
  · intro hpos
    have hp : 0 < x.val * (abFac32 φ).val := by positivity
    refine ⟨hx1.pos hp, ?_⟩
    have h8 := hx1.mag hp
    have h9 := abFac32_mag φ
    have e : mag (x.val * (abFac32 φ).val) = mag x.val + mag (abFac32 φ).val := by
      unfold mag
      rw [Real.logb_mul hpos.ne' hcp.ne']; ring
    rw [e] at h8
    push_cast at h8
    have := abs_add_le (mag (f32 x * abFac32 φ).val - (mag x.val + mag (abFac32 φ).val)) (mag (abFac32 φ).val - φ.val)
    have e2 : mag (f32 x * abFac32 φ).val - (mag x.val + mag (abFac32 φ).val) + (mag (abFac32 φ).val - φ.val) =
        mag (f32 x * abFac32 φ).val - (mag x.val + φ.val) := by ring
    rw [e2] at this
    have hu := uro_pos 24
    have hp := abs_nonneg φ.val
    nlinarith
  · have hk : Near 3 (i.val / ((abFac32 φ).val * (abFac32 φ).val)) (f32 i / (abFac32 φ * abFac32 φ)).val :=
      ((f32_near i).div ns).trans nd
    have hall := (hx1.mul hx1).mul hk
    have e1 : x.val * (abFac32 φ).val * (x.val * (abFac32 φ).val) * (i.val / ((abFac32 φ).val * (abFac32 φ).val)) = x.val ^ 2 * i.val := by
      field_simp
    have e2 : (f32 x * abFac32 φ).val * (f32 x * abFac32 φ).val * (f32 i / (abFac32 φ * abFac32 φ)).val =
        (f32 x * abFac32 φ).val ^ 2 * (f32 i / (abFac32 φ * abFac32 φ)).val := by ring
    rw [e1, e2] at hall
    have := hall.rel (by unfold uro; norm_num)
    exact_mod_cast this

/-- **C130, tables.** In float32 row `r` of a corrected table of any rank is, bit for bit, what a separate call on row `r` returns. -/
theorem C130_ab_correct_rowwise (m v : NDA Fl) (f : List Fl) (hm : m.WF) (h5 : lastAxis m 5) (hf : f.length = 5) (hv : v.WF) (hs : v.shape = m.shape) :
    ∃ out w, sdssAbCorrect m (some v) f = .ok out ∧ out.ivar = some w ∧
      ∀ r mr vr, rowOf m r = some mr → rowOf v r = some vr →
        ∃ o ow, sdssAbCorrect mr (some vr) f = .ok o ∧ o.ivar = some ow ∧ rowOf out.maggies r = some o.maggies ∧ rowOf w r = some ow := by
  obtain ⟨out, w, h1, h2, h3, h4, hw1, hw2, h6, h7⟩ := abCorrect_entry ab_mul ab_div m v f hm h5 hf hv hs
  refine ⟨out, w, h1, h2, ?_⟩
  intro r mr vr hmr hvr
  cases m with
  | scalar x => simp [rowOf] at hmr
  | arr lead n rows =>
    simp [lastAxis, NDA.shape] at h5
    subst h5
    obtain ⟨ivrows, rfl, hil, hiw⟩ := shape_arr (lead := lead) (n := 5) hv hs
    obtain ⟨orows, e1, ho1, ho2⟩ := shape_arr (lead := lead) (n := 5) hw1 h3
    obtain ⟨wrows, rfl, ho3, ho4⟩ := shape_arr (lead := lead) (n := 5) hw2 h4
    simp only [rowOf, Option.map_eq_some_iff] at hmr hvr
    obtain ⟨row, hr, rfl⟩ := hmr
    obtain ⟨vrow, hvr, rfl⟩ := hvr
    have hl := hm.2 row (List.mem_of_getElem? hr)
    have hl' := hiw vrow (List.mem_of_getElem? hvr)
    obtain ⟨o, ow, g1, g2, g3, g4, gw1, gw2, g6, g7⟩ := abCorrect_entry ab_mul ab_div (.arr [] 5 [row]) (.arr [] 5 [vrow]) f
      ⟨by simp, by simpa using hl⟩ (by simp [lastAxis, NDA.shape]) hf ⟨by simp, by simpa using hl'⟩ rfl
    obtain ⟨gr, e2, ge1, ge2⟩ := shape_arr (lead := []) (n := 5) gw1 g3
    obtain ⟨gv, rfl, ge3, ge4⟩ := shape_arr (lead := []) (n := 5) gw2 g4
    refine ⟨o, _, g1, g2, ?_, ?_⟩
    · rw [e1] at h6 ⊢
      rw [e2] at g6 ⊢
      simp only [List.prod_nil] at ge1
      obtain ⟨a, rfl⟩ := List.length_eq_one_iff.mp ge1
      have hrlt := (List.getElem?_eq_some_iff.mp hr).1
      have hlen : r < orows.length := by rw [ho1, ← hm.1]; exact hrlt
      simp only [rowOf, List.getElem?_eq_getElem hlen, Option.map_some, Option.some.injEq, NDA.arr.injEq, true_and, List.cons.injEq, and_true]
      apply List.ext_getElem?
      intro j
      have A := h6 r j
      have B := g6 0 j
      simp only [entry, List.getElem?_eq_getElem hlen, hr, Option.bind_some, List.getElem?_cons_zero] at A B
      rw [A, B]
    · simp only [List.prod_nil] at ge3
      obtain ⟨a, rfl⟩ := List.length_eq_one_iff.mp ge3
      have hrlt := (List.getElem?_eq_some_iff.mp hvr).1
      have hlen : r < wrows.length := by rw [ho3, ← hil]; exact hrlt
      simp only [rowOf, List.getElem?_eq_getElem hlen, Option.map_some, Option.some.injEq, NDA.arr.injEq, true_and, List.cons.injEq, and_true]
      apply List.ext_getElem?
      intro j
      have A := h7 r j
      have B := g7 0 j
      simp only [entry, List.getElem?_eq_getElem hlen, hvr, Option.bind_some, List.getElem?_cons_zero] at A B
      rw [A, B]

/-- a table of two objects, float64 fluxes -/
example : let m : NDA Fl := NDA.mat 5 [List.replicate 5 ⟨3, .f64⟩, List.replicate 5 ⟨-1, .f64⟩]
    m.WF ∧ lastAxis m 5 ∧ (abfixDefault (α := Fl)).length = 5 ∧ rowOf m 1 = some (NDA.vec (List.replicate 5 ⟨-1, .f64⟩)) := by
  simp [NDA.mat, NDA.WF, lastAxis, NDA.shape, abfixDefault, rowOf, NDA.vec, List.replicate]

/-! ### C131 -/

/-- conversion to the dtype of the array a value is stored in -/
noncomputable def Fl.cast (d : DT) (a : Fl) : Fl := ⟨rd d.prec a.val, d⟩

/-- one entry of `error_floor` -/
theorem floorEntry_fl (d : DT) {fl m v : Fl} (hfl : fl.Num) (hm : m.Num) (hv : v.Num) (hf0 : 0 < fl.val) (hm0 : m.val ≠ 0) (hv0 : 0 < v.val) :
    0 < (floorEntry (Fl.cast d) fl m v).val ∧ (floorEntry (Fl.cast d) fl m v).val * om ^ 11 ≤ v.val ∧
      fl.val * om ^ 3 ≤ fracErr m.val (floorEntry (Fl.cast d) fl m v).val ∧
      (floorEntry (Fl.cast d) fl m v = v ∨ Near 5 (1 / (|m.val| * fl.val) ^ 2) (floorEntry (Fl.cast d) fl m v).val) := by
  have hma : 0 < |m.val| := abs_pos.mpr hm0
  have hsq : 0 < Real.sqrt v.val := Real.sqrt_pos.mpr hv0
  obtain ⟨na, ea⟩ := abs_num hm
  obtain ⟨ns, es⟩ := sqrt_num hv
  obtain ⟨np, ep⟩ := mul_num na ns
  obtain ⟨nf, ef⟩ := one_div_num np
  have hferr : Near 3 (fracErr m.val v.val) (lit 1 / (Arith.abs m * Arith.sqrt v) : Fl).val := by
    unfold fracErr
    rw [ea] at ep
    have h1 : Near 2 (|m.val| * Real.sqrt v.val) (Arith.abs m * Arith.sqrt v : Fl).val := by
      have := ((Near.refl |m.val|).mul es).trans ep
      exact this
    exact ((Near.refl (1 : ℝ)).div h1 |>.mono (by norm_num : 0 + 2 ≤ 2)).trans ef
  have hfr : 0 < fracErr m.val v.val := by unfold fracErr; positivity
  have hb := hferr.bounds hfr.le
  have hg : gtb v (lit 0) = true := by
    show decide ((lit 0 : Fl).val < v.val) = true
    simp [fl_lit, hv0]
  cases hd : ltb (lit 1 / (Arith.abs m * Arith.sqrt v)) fl with
  | false =>
    have e : floorEntry (Fl.cast d) fl m v = v := floorEntry_keep hd
    rw [fl_lt, decide_eq_false_iff_not, not_lt] at hd
    rw [e]
    refine ⟨hv0, ?_, ?_, Or.inl rfl⟩
    · have := om_pow_le_one 11
      nlinarith
    · calc fl.val * om ^ 3 ≤ (lit 1 / (Arith.abs m * Arith.sqrt v) : Fl).val * om ^ 3 := by
            have := om_pow_pos 3
            gcongr
        _ ≤ _ := hb.2
  | true =>
    have e : floorEntry (Fl.cast d) fl m v = Fl.cast d (lit 1 / ((Arith.abs m * fl) * (Arith.abs m * fl))) := floorEntry_set hg hd
    rw [fl_lt, decide_eq_true_eq] at hd
    rw [e]
    obtain ⟨n1, e1⟩ := mul_num na hfl
    obtain ⟨n2, e2⟩ := mul_num n1 n1
    obtain ⟨n3, e3⟩ := one_div_num n2
    rw [ea] at e1
    set w := (Fl.cast d (lit 1 / ((Arith.abs m * fl) * (Arith.abs m * fl)))).val with hw
    have hnear : Near 5 (1 / (|m.val| * fl.val) ^ 2) w := by
      have h2 : Near 3 ((|m.val| * fl.val) * (|m.val| * fl.val)) ((Arith.abs m * fl) * (Arith.abs m * fl) : Fl).val :=
        (e1.mul e1).trans e2
      have h3 := ((Near.refl (1 : ℝ)).div h2).trans e3
      have h4 := h3.trans (near_rd (DT.prec_ge d) _)
      rw [pow_two]
      exact h4.mono (by norm_num)
    have hN : 0 < 1 / (|m.val| * fl.val) ^ 2 := by positivity
    have hwp : 0 < w := hnear.pos hN
    have hb5 := hnear.bounds hN.le
    have h3p := om_pow_pos 3
    -- the floor exceeds the fractional error
    have hlow : om ^ 3 / (|m.val| * Real.sqrt v.val) < fl.val := by
      have : fracErr m.val v.val * om ^ 3 < fl.val := lt_of_le_of_lt hb.1 hd
      unfold fracErr at this
      calc om ^ 3 / (|m.val| * Real.sqrt v.val) = 1 / (|m.val| * Real.sqrt v.val) * om ^ 3 := by ring
        _ < _ := this
    refine ⟨hwp, ?_, ?_, Or.inr hnear⟩
    · have h6 : (om ^ 3) ^ 2 ≤ v.val * (|m.val| * fl.val) ^ 2 := by
        have h7 : om ^ 3 < fl.val * (|m.val| * Real.sqrt v.val) := by rwa [div_lt_iff₀ (by positivity)] at hlow
        have h8 : (om ^ 3) ^ 2 ≤ (fl.val * (|m.val| * Real.sqrt v.val)) ^ 2 := by gcongr
        have h9 : (fl.val * (|m.val| * Real.sqrt v.val)) ^ 2 = v.val * (|m.val| * fl.val) ^ 2 := by
          have := Real.sq_sqrt hv0.le
          calc (fl.val * (|m.val| * Real.sqrt v.val)) ^ 2 = (Real.sqrt v.val) ^ 2 * (|m.val| * fl.val) ^ 2 := by ring
            _ = _ := by rw [this]
        rwa [h9] at h8
      have h10 : om ^ 6 * (1 / (|m.val| * fl.val) ^ 2) ≤ v.val := by
        rw [mul_one_div, div_le_iff₀ (by positivity)]
        calc om ^ 6 = (om ^ 3) ^ 2 := by ring
          _ ≤ _ := h6
      calc w * om ^ 11 = om ^ 6 * (w * om ^ 5) := by ring
        _ ≤ om ^ 6 * (1 / (|m.val| * fl.val) ^ 2) := by
          have := om_pow_pos 6
          gcongr
          exact hb5.2
        _ ≤ v.val := h10
    · -- the new fractional error
      have h6 : Near 6 (1 / (|m.val| * fl.val) ^ 2) w := hnear.mono (by norm_num)
      have h7 := (show Near (2 * 3) _ w from h6).sqrt
      have e8 : Real.sqrt (1 / (|m.val| * fl.val) ^ 2) = 1 / (|m.val| * fl.val) := by
        rw [show 1 / (|m.val| * fl.val) ^ 2 = (1 / (|m.val| * fl.val)) ^ 2 by rw [div_pow, one_pow], Real.sqrt_sq (by positivity)]
      rw [e8] at h7
      have h8 : Near 3 (1 / (|m.val| * (1 / (|m.val| * fl.val)))) (fracErr m.val w) := by
        unfold fracErr
        exact ((Near.refl (1 : ℝ)).div ((Near.refl |m.val|).mul h7)).mono (by norm_num)
      have e9 : 1 / (|m.val| * (1 / (|m.val| * fl.val))) = fl.val := by field_simp
      rw [e9] at h8
      exact (h8.bounds hf0.le).1

/-- **C131.** `error_floor` in floating point, for arrays of either float dtype (mixed or not): every entry with `ivar > 0` and nonzero flux comes back
positive, larger than it was by at most eleven rounding errors, and with a fractional error no smaller than the floor by more than three rounding errors
of float32. -/
theorem C131_floor_float (d : DT) (floor : List Fl) (m iv : NDA Fl) (hm : m.WF) (hv : iv.WF) (hs : m.shape = iv.shape) (hl : lastAxis m floor.length)
    (hr : m.ndim ≤ 2) (hpos : ∀ f ∈ floor, f.Num ∧ 0 < f.val) (hmn : ∀ r j x, entry m r j = some x → x.Num)
    (hvn : ∀ r j x, entry iv r j = some x → x.Num) :
    ∃ out, errorFloor (Fl.cast d) floor m iv = .ok out ∧ out.shape = iv.shape ∧
      ∀ r j x v fl, entry m r j = some x → entry iv r j = some v → floor[j]? = some fl → x.val ≠ 0 → 0 < v.val →
        ∃ w, entry out r j = some w ∧ 0 < w.val ∧ w.val * (1 - 11 * uro 24) ≤ v.val ∧ fl.val * (1 - 3 * uro 24) ≤ fracErr x.val w.val ∧
          (w = v ∨ |w.val - 1 / (|x.val| * fl.val) ^ 2| ≤ 5 * uro 24 / (1 - 5 * uro 24) * (1 / (|x.val| * fl.val) ^ 2)) := by
  obtain ⟨out, h1, h2, h3, h4⟩ := errorFloor_entry (Fl.cast d) floor m iv hm hv hs hl hr
  refine ⟨out, h1, h2, ?_⟩
  intro r j x v fl hx hvv hfl hx0 hv0
  obtain ⟨nfl, pfl⟩ := hpos fl (List.mem_of_getElem? hfl)
  obtain ⟨a1, a2, a3, a4⟩ := floorEntry_fl d nfl (hmn r j x hx) (hvn r j v hvv) pfl hx0 hv0
  have bern : ∀ k : Nat, 1 - k * uro 24 ≤ om ^ k := by
    intro k
    have := one_add_mul_le_pow (a := -uro 24) (by have := uro_le_one 24; linarith) k
    unfold om
    have e : (1 : ℝ) - uro 24 = 1 + -uro 24 := by ring
    rw [e]
    linarith
  refine ⟨floorEntry (Fl.cast d) fl x v, by simp [h4, hx, hvv, hfl], a1, ?_, ?_, ?_⟩
  · have := bern 11
    push_cast at this
    nlinarith
  · have := bern 3
    push_cast at this
    nlinarith
  · rcases a4 with h | h
    · exact Or.inl h
    · right
      have := h.rel (by unfold uro; norm_num)
      have hp : 0 < 1 / (|x.val| * fl.val) ^ 2 := by
        have := abs_pos.mpr hx0
        positivity
      rw [abs_of_pos hp] at this
      exact_mod_cast this

/-- float32 fluxes with float64 floors -/
example : let m : NDA Fl := NDA.vec [⟨3, .f32⟩, ⟨-2, .f32⟩]
    m.WF ∧ lastAxis m [(⟨0.5, .f64⟩ : Fl), ⟨0.25, .f64⟩].length ∧ (∀ r j x, entry m r j = some x → x.Num) ∧
      (∀ f ∈ [(⟨0.5, .f64⟩ : Fl), ⟨0.25, .f64⟩], f.Num ∧ 0 < f.val) := by
  refine ⟨by simp [NDA.vec, NDA.WF], by simp [NDA.vec, lastAxis, NDA.shape], ?_, ?_⟩
  · intro r j x hx
    have h3 : IsFloat 24 (3 : ℝ) := by simpa using isFloat_nat (p := 24) (n := 3) (by norm_num) (by norm_num)
    have h2 : IsFloat 24 (2 : ℝ) := by simpa using isFloat_nat (p := 24) (n := 2) (by norm_num) (by norm_num)
    simp only [NDA.vec, entry] at hx
    match r, j, hx with
    | 0, 0, hx => simp at hx; subst hx; exact ⟨h3, by simp⟩
    | 0, 1, hx => simp at hx; subst hx; exact ⟨h2.neg, by simp⟩
  · intro f hf
    simp only [List.mem_cons, List.not_mem_nil, or_false] at hf
    rcases hf with rfl | rfl
    · exact ⟨⟨⟨1, -1, by norm_num, by norm_num [DT.prec]⟩, by simp⟩, by norm_num⟩
    · exact ⟨⟨⟨1, -2, by norm_num, by norm_num [DT.prec]⟩, by simp⟩, by norm_num⟩

end KC
