import Verif.Lemmas.Near
import Verif.Lemmas.Build
import Verif.Props.Inputs
import Verif.Props.Fit
import Verif.Props.Order
import Verif.Props.KFiles

/-!
# C128, C129: the redshift grid in single precision
-/

namespace KC
open Spec

/-! ### operations of the floating-point arithmetic -/

theorem fl_lt (a b : Fl) : ltb a b = decide (a.val < b.val) := rfl
theorem fl_le (a b : Fl) : leb a b = decide (a.val ≤ b.val) := rfl
theorem fl_lit (q : ℚ) : (lit q : Fl) = ⟨rd 53 q, .weak⟩ := rfl
theorem fl_f32 (a : Fl) : f32 a = ⟨rd 24 a.val, .f32⟩ := rfl
theorem fl_add (a b : Fl) : a + b = Fl.op2 (· + ·) a b := rfl
theorem fl_sub (a b : Fl) : a - b = Fl.op2 (· - ·) a b := rfl
theorem fl_mul (a b : Fl) : a * b = Fl.op2 (· * ·) a b := rfl
theorem fl_div (a b : Fl) : a / b = Fl.op2 (· / ·) a b := rfl

/-- two float32 numbers -/
theorem op2_ss (f : ℝ → ℝ → ℝ) {x y : ℝ} (hx : IsFloat 24 x) (hy : IsFloat 24 y) :
    Fl.op2 f ⟨x, .f32⟩ ⟨y, .f32⟩ = ⟨rd 24 (f x y), .f32⟩ := by
  simp [Fl.op2, DT.join, DT.prec, rd_float hx, rd_float hy]

/-- a float32 number and a Python float that is a float32 number -/
theorem op2_sw (f : ℝ → ℝ → ℝ) {x y : ℝ} (hx : IsFloat 24 x) (hy : IsFloat 24 y) :
    Fl.op2 f ⟨x, .f32⟩ ⟨y, .weak⟩ = ⟨rd 24 (f x y), .f32⟩ := by
  simp [Fl.op2, DT.join, DT.prec, rd_float hx, rd_float hy]

theorem op2_ws (f : ℝ → ℝ → ℝ) {x y : ℝ} (hx : IsFloat 24 x) (hy : IsFloat 24 y) :
    Fl.op2 f ⟨x, .weak⟩ ⟨y, .f32⟩ = ⟨rd 24 (f x y), .f32⟩ := by
  simp [Fl.op2, DT.join, DT.prec, rd_float hx, rd_float hy]

theorem isFloat_nat {p n : Nat} (h : n ≤ 2 ^ p) (hp : 0 < p) : IsFloat p (n : ℝ) := by
  rcases lt_or_eq_of_le h with h | h
  · exact ⟨n, 0, by simp, by rw [abs_of_nonneg (by positivity)]; exact_mod_cast h⟩
  · refine ⟨1, p, ?_, by rw [abs_one]; exact one_lt_pow₀ (by norm_num) hp.ne'⟩
    rw [h]
    push_cast
    simp

theorem lit_nat {n : Nat} (h : n ≤ 2 ^ 24) : (lit (n : ℚ) : Fl) = ⟨n, .weak⟩ := by
  rw [fl_lit]
  congr 1
  push_cast
  exact rd_float (isFloat_nat (h.trans (by norm_num)) (by norm_num))

/-- A number of the given precision. -/
def Fl.Ok (a : Fl) : Prop := IsFloat a.dt.prec a.val

/-! ### the grid -/

/-- entry `i` of the grid for limits `L`, `H` -/
noncomputable def gridVal (L H : ℝ) (m i : Nat) : ℝ := rd 24 (L + rd 24 (rd 24 (rd 24 (H - L) * i) / m))

theorem isFloat_rd24 (x : ℝ) : IsFloat 24 (rd 24 x) := rd_isFloat (by norm_num) x

/-- The grid of the model in float32. -/
theorem grid_float (lo hi : Fl) {n : Nat} (h2 : 2 ≤ n) (hn : n ≤ 2 ^ 24) :
    redshiftGrid lo hi n = (List.range n).map (fun i => ⟨gridVal (rd 24 lo.val) (rd 24 hi.val) (n - 1) i, .f32⟩) := by
  unfold redshiftGrid
  refine List.map_congr_left ?_
  intro i hi'
  have hi'' : i < n := List.mem_range.mp hi'
  have hm : ((n : ℚ) - 1) = ((n - 1 : Nat) : ℚ) := by
    rw [Nat.cast_sub (by omega)]; simp
  rw [hm, lit_nat (by omega), lit_nat (by omega)]
  simp only [fl_f32, fl_add, fl_sub, fl_mul, fl_div]
  rw [op2_ss _ (isFloat_rd24 _) (isFloat_rd24 _), op2_sw _ (isFloat_rd24 _) (isFloat_nat (by omega) (by norm_num)),
    op2_sw _ (isFloat_rd24 _) (isFloat_nat (by omega) (by norm_num)), op2_ss _ (isFloat_rd24 _) (isFloat_rd24 _)]
  rfl

theorem gridVal_mono {L H : ℝ} (h : L ≤ H) (m : Nat) {i j : Nat} (hij : i ≤ j) : gridVal L H m i ≤ gridVal L H m j := by
  unfold gridVal
  have hd : 0 ≤ rd 24 (H - L) := rd_nonneg (by linarith)
  have hp : 0 < 24 := by norm_num
  refine rd_mono hp ?_
  have : rd 24 (rd 24 (rd 24 (H - L) * i) / m) ≤ rd 24 (rd 24 (rd 24 (H - L) * j) / m) := by
    refine rd_mono hp ?_
    refine div_le_div_of_nonneg_right (rd_mono hp ?_) (by positivity)
    gcongr
  linarith

theorem gridVal_zero {L : ℝ} (hL : IsFloat 24 L) (H : ℝ) (m : Nat) : gridVal L H m 0 = L := by
  simp [gridVal, rd_float hL]

theorem argsort_fl {xs : List Fl} (hs : xs.Pairwise (fun a b => a.val ≤ b.val)) : argsort xs = List.range xs.length := by
  apply List.mergeSort_of_pairwise
  rw [List.pairwise_iff_getElem]
  intro i j hi hj hij
  simp only [List.length_range] at hi hj
  simp only [List.getElem_range, fl_le, decide_eq_true_eq, ent, List.getD_eq_getElem?_getD, List.getElem?_eq_getElem hi, List.getElem?_eq_getElem hj,
    Option.getD_some]
  exact List.pairwise_iff_getElem.mp hs i j hi hj hij

/-- the interpolation object of a sorted grid has the grid as abscissae -/
theorem amat_grid {xs : List Fl} (hs : xs.Pairwise (fun a b => a.val ≤ b.val)) {ys : List (List (List Fl))} {a b : Nat} {A : AMat Fl}
    (h : mkAMat xs ys a b = .ok A) : A.x = xs := by
  unfold mkAMat at h
  split_ifs at h
  simp only [Except.ok.injEq] at h
  subst h
  simp only
  rw [argsort_fl hs, gather_range xs _ rfl]

theorem grid_sorted (lo hi : Fl) {n : Nat} (h2 : 2 ≤ n) (hn : n ≤ 2 ^ 24) (h : lo.val ≤ hi.val) :
    (redshiftGrid lo hi n).Pairwise (fun a b => a.val ≤ b.val) := by
  rw [grid_float lo hi h2 hn, List.pairwise_map]
  exact List.pairwise_lt_range.imp (fun hij => gridVal_mono (rd_mono (by norm_num) h) _ hij.le)

theorem grid_head (lo hi : Fl) {n : Nat} (h2 : 2 ≤ n) (hn : n ≤ 2 ^ 24) (d : Fl) : (redshiftGrid lo hi n).headD d = f32 lo := by
  rw [grid_float lo hi h2 hn]
  obtain ⟨k, rfl⟩ : ∃ k, n = k + 1 := ⟨n - 1, by omega⟩
  rw [List.range_succ_eq_map]
  simp only [List.map_cons, List.headD_cons]
  rw [gridVal_zero (isFloat_rd24 _)]
  rfl

theorem grid_last (lo hi : Fl) {n : Nat} (h2 : 2 ≤ n) (hn : n ≤ 2 ^ 24) (d : Fl) :
    (redshiftGrid lo hi n).getLastD d = ⟨gridVal (rd 24 lo.val) (rd 24 hi.val) (n - 1) (n - 1), .f32⟩ := by
  rw [grid_float lo hi h2 hn]
  obtain ⟨k, rfl⟩ : ∃ k, n = k + 1 := ⟨n - 1, by omega⟩
  rw [List.range_succ]
  simp

/-- C129, single precision: whatever the limits and the number of redshifts (up to 2^24), the grid has that many entries, starts at the lower limit
and does not decrease. -/
theorem C129_grid (lo hi : Fl) {n : Nat} (h2 : 2 ≤ n) (hn : n ≤ 2 ^ 24) (h : lo.val ≤ hi.val) :
    (redshiftGrid lo hi n).length = n ∧ (redshiftGrid lo hi n).headD (lit 0) = f32 lo ∧ (redshiftGrid lo hi n).Pairwise (fun a b => a.val ≤ b.val) ∧
      ∀ z ∈ redshiftGrid lo hi n, z.dt = .f32 ∧ z.Ok := by
  refine ⟨by simp [redshiftGrid], grid_head lo hi h2 hn _, grid_sorted lo hi h2 hn h, ?_⟩
  intro z hz
  rw [grid_float lo hi h2 hn, List.mem_map] at hz
  obtain ⟨i, _, rfl⟩ := hz
  exact ⟨rfl, isFloat_rd24 _⟩

/-- the exact redshifts of the grid -/
noncomputable def gridExact (L H : ℝ) (n i : Nat) : ℝ := L + (H - L) * i / ((n - 1 : Nat) : ℝ)

theorem gridVal_near {L H : ℝ} (h0 : 0 ≤ L) (h : L ≤ H) (n i : Nat) : Near 4 (gridExact L H n i) (gridVal L H (n - 1) i) := by
  have hd : 0 ≤ H - L := by linarith
  have h1 : Near 1 (H - L) (rd 24 (H - L)) := near_rd le_rfl _
  have h2 : Near 2 ((H - L) * i) (rd 24 (rd 24 (H - L) * i)) := (h1.mul (Near.refl (i : ℝ))).trans (near_rd le_rfl _)
  have h3 : Near 3 ((H - L) * i / ((n - 1 : Nat) : ℝ)) (rd 24 (rd 24 (rd 24 (H - L) * i) / ((n - 1 : Nat) : ℝ))) :=
    (h2.div (Near.refl _)).trans (near_rd le_rfl _)
  have h4 := Near.add h0 (by positivity) ((Near.refl L).mono (Nat.zero_le 3)) h3
  exact h4.trans (near_rd le_rfl _)

/-- C129, single precision: every redshift of the grid is the exact one (of the limits in float32) up to four rounding errors, a relative error of at
most `4u / (1 - 4u)`, `u = 2^-24`. -/
theorem C129_accuracy (lo hi : Fl) {n : Nat} (h2 : 2 ≤ n) (hn : n ≤ 2 ^ 24) (h0 : 0 ≤ lo.val) (h : lo.val ≤ hi.val) (i : Nat) (hi' : i < n) :
    ∃ z, (redshiftGrid lo hi n)[i]? = some z ∧
      |z.val - gridExact (f32 lo).val (f32 hi).val n i| ≤ 4 * uro 24 / (1 - 4 * uro 24) * gridExact (f32 lo).val (f32 hi).val n i := by
  rw [grid_float lo hi h2 hn]
  refine ⟨⟨gridVal (rd 24 lo.val) (rd 24 hi.val) (n - 1) i, .f32⟩, by simp [hi'], ?_⟩
  have hl : 0 ≤ rd 24 lo.val := rd_nonneg h0
  have hm : rd 24 lo.val ≤ rd 24 hi.val := rd_mono (by norm_num) h
  have := (gridVal_near hl hm n i).rel (by unfold uro; norm_num)
  rw [abs_of_nonneg (a := gridExact _ _ _ _)] at this
  · exact_mod_cast this
  · unfold gridExact
    have : 0 ≤ rd 24 hi.val - rd 24 lo.val := by linarith
    positivity

/-- C129, single precision: the redshifts are distinct as soon as the step is more than eight rounding errors of the upper limit. -/
theorem C129_strict (lo hi : Fl) {n : Nat} (h2 : 2 ≤ n) (hn : n ≤ 2 ^ 24) (h0 : 0 ≤ lo.val)
    (hs : 8 * uro 24 * (f32 hi).val < ((f32 hi).val - (f32 lo).val) / ((n - 1 : Nat) : ℝ)) (h : lo.val ≤ hi.val) :
    (redshiftGrid lo hi n).Pairwise (fun a b => a.val < b.val) := by
  rw [grid_float lo hi h2 hn, List.pairwise_map]
  rw [List.pairwise_iff_getElem]
  intro i j hi' hj hij
  simp only [List.getElem_range]
  simp only [List.length_range] at hi' hj
  simp only [fl_f32] at hs
  set L := rd 24 lo.val with hL
  set H := rd 24 hi.val with hH
  have hl : 0 ≤ L := rd_nonneg h0
  have hm : L ≤ H := rd_mono (by norm_num) h
  set m : ℝ := ((n - 1 : Nat) : ℝ) with hmdef
  have hmpos : 0 < m := by
    have : 0 < n - 1 := by omega
    rw [hmdef]; exact_mod_cast this
  have hd : 0 ≤ H - L := by linarith
  have nonneg : ∀ k : Nat, 0 ≤ gridExact L H n k := fun k => by unfold gridExact; rw [← hmdef]; positivity
  have bi := ((gridVal_near hl hm n i).bounds (nonneg i)).2
  have bj := ((gridVal_near hl hm n j).bounds (nonneg j)).1
  have hstep : gridExact L H n i + (H - L) / m ≤ gridExact L H n j := by
    unfold gridExact
    rw [← hmdef]
    have e : (i : ℝ) + 1 ≤ j := by exact_mod_cast hij
    have : (H - L) * (i + 1) / m ≤ (H - L) * j / m := by gcongr
    have e2 : (H - L) * (i + 1) / m = (H - L) * i / m + (H - L) / m := by ring
    linarith
  have hjH : gridExact L H n j ≤ H := by
    unfold gridExact
    rw [← hmdef]
    have : (j : ℝ) ≤ m := by
      rw [hmdef]
      have : j ≤ n - 1 := by omega
      exact_mod_cast this
    have : (H - L) * j / m ≤ H - L := by
      rw [div_le_iff₀ hmpos]
      gcongr
    linarith
  have h8 : 1 - 8 * uro 24 ≤ om ^ 8 := by
    have := one_add_mul_le_pow (a := -uro 24) (by have := uro_le_one 24; linarith) 8
    unfold om
    have e : (1 : ℝ) - uro 24 = 1 + -uro 24 := by ring
    rw [e]
    push_cast at this
    linarith
  have hp := om_pow_pos 4
  have e8 : om ^ 8 = om ^ 4 * om ^ 4 := by ring
  have hu := uro_pos 24
  have key : gridExact L H n i < gridExact L H n j * om ^ 8 := by
    have h1 : gridExact L H n j * (1 - 8 * uro 24) ≤ gridExact L H n j * om ^ 8 := mul_le_mul_of_nonneg_left h8 (nonneg j)
    have h2 : 8 * uro 24 * gridExact L H n j ≤ 8 * uro 24 * H := by gcongr
    nlinarith
  have : gridVal L H (n - 1) i * om ^ 4 < gridVal L H (n - 1) j * om ^ 4 := by
    calc gridVal L H (n - 1) i * om ^ 4 ≤ gridExact L H n i := bi
      _ < gridExact L H n j * om ^ 8 := key
      _ = gridExact L H n j * om ^ 4 * om ^ 4 := by rw [e8]; ring
      _ ≤ gridVal L H (n - 1) j * om ^ 4 := by gcongr
  exact lt_of_mul_lt_mul_right this hp.le

/-! ### redshifts inside the range -/

theorem at_ok {A : AMat Fl} (hne : A.x ≠ []) {z : Fl} (h1 : (A.x.headD (lit 0)).val ≤ z.val) (h2 : z.val ≤ (A.x.getLastD (lit 0)).val) :
    ∃ M, A.at z = .ok M := by
  unfold AMat.at
  rw [if_neg (by simpa using hne), if_neg]
  · exact ⟨_, rfl⟩
  · rw [fl_lt, fl_lt, decide_eq_false (not_lt.mpr h1), decide_eq_false (not_lt.mpr h2)]
    simp

/-- `(1 + z) * (1 + band_shift) - 1` without band shift -/
theorem shift_float {z : ℝ} (hz : IsFloat 24 z) : shiftOf (⟨z, .f32⟩ : Fl) (lit 0) = ⟨rd 24 (rd 24 (1 + z) - 1), .f32⟩ := by
  unfold shiftOf
  have h1 : (lit 1 : Fl) = ⟨1, .weak⟩ := by simpa using lit_nat (n := 1) (by norm_num)
  have h0 : (lit 0 : Fl) = ⟨0, .weak⟩ := by simpa using lit_nat (n := 0) (by norm_num)
  have hf1 : IsFloat 24 1 := by simpa using isFloat_nat (p := 24) (n := 1) (by norm_num) (by norm_num)
  have h10 : (lit 1 : Fl) + lit 0 = ⟨1, .weak⟩ := by
    rw [h1, h0, fl_add]
    simp only [Fl.op2, DT.join, DT.prec, rd_zero, add_zero]
    rw [rd_float (hf1.mono (by norm_num)), rd_float (hf1.mono (by norm_num))]
  rw [h10, h1]
  simp only [fl_add, fl_mul, fl_sub]
  rw [op2_ws _ hf1 hz, op2_sw _ (isFloat_rd24 _) hf1, op2_sw _ (isFloat_rd24 _) hf1]
  simp only [mul_one]
  rw [rd_rd (by norm_num)]

/-- the limits of the range cause no rounding: they, their distance, its multiple by the number of steps, and the limits plus one are numbers of 24 bits -/
structure NiceRange (lo hi : ℝ) (n : Nat) : Prop where
  low : IsFloat 24 lo
  high : IsFloat 24 hi
  width : IsFloat 24 (hi - lo)
  steps : IsFloat 24 ((hi - lo) * ((n - 1 : Nat) : ℝ))
  lo1 : IsFloat 24 (1 + lo)
  hi1 : IsFloat 24 (1 + hi)

theorem grid_last_nice {lo hi : Fl} {n : Nat} (h2 : 2 ≤ n) (hn : n ≤ 2 ^ 24) (hr : NiceRange lo.val hi.val n) (d : Fl) :
    ((redshiftGrid lo hi n).getLastD d).val = hi.val := by
  rw [grid_last lo hi h2 hn]
  have hm : ((n - 1 : Nat) : ℝ) ≠ 0 := by
    have : n - 1 ≠ 0 := by omega
    exact_mod_cast this
  simp only [gridVal]
  rw [rd_float hr.low, rd_float hr.high, rd_float hr.width, rd_float hr.steps, mul_div_assoc, div_self hm, mul_one, rd_float hr.width]
  rw [add_sub_cancel, rd_float hr.high]

theorem grid_ne {lo hi : Fl} {n : Nat} (h2 : 2 ≤ n) : redshiftGrid lo hi n ≠ [] := by
  intro h
  have : (redshiftGrid lo hi n).length = n := by simp [redshiftGrid]
  rw [h] at this
  simp at this
  omega

/-- the abscissae of the matrix are the redshift grid -/
theorem set_grid {lib : Lib Fl} {disk : Disk Fl} {cls : Cls} {R : List Name} {T : Tpl Fl} {lo hi : Fl} {n : Nat} {ab : Bool} {w w' : Shared Fl}
    {F : Fitter Fl} (hF : (Fitter.mk' cls R T lo hi n ab).setAmatrix lib disk w = (w', .ok F)) (h2 : 2 ≤ n) (hn : n ≤ 2 ^ 24) (hlt : lo.val ≤ hi.val) :
    ∃ A, F = { Fitter.mk' cls R T lo hi n ab with Amatrix := some A } ∧ A.x = redshiftGrid lo hi n := by
  unfold Fitter.setAmatrix at hF
  cases hA : calcAmatrix lib disk (Fitter.mk' cls R T lo hi n ab).redshifts (Fitter.mk' cls R T lo hi n ab).responses w with
  | mk w1 r =>
    rw [hA] at hF
    cases r with
    | error e => simp at hF
    | ok A =>
      simp only [Prod.mk.injEq, Except.ok.injEq] at hF
      obtain ⟨rfl, rfl⟩ := hF
      obtain ⟨_, _, ms, hmk, _⟩ := calcAmatrix_ok hA
      exact ⟨A, rfl, amat_grid (grid_sorted lo hi h2 hn hlt) hmk⟩

/-- C128 (partial): for a range whose limits cause no rounding, every float32 redshift of the range, limits included, is inside the grid for fits, and
`reconstruct` returns for every array of such redshifts.  Missing: other ranges (`C128_false_fit`, `C128_false_reconstruct`). -/
theorem C128_range_partial (lib : Lib Fl) (disk : Disk Fl) (cls : Cls) (R : List Name) (T : Tpl Fl) (lo hi : Fl) (n : Nat) (ab : Bool) (w w' : Shared Fl)
    (F : Fitter Fl) (hF : (Fitter.mk' cls R T lo hi n ab).setAmatrix lib disk w = (w', .ok F)) (h2 : 2 ≤ n) (hn : n ≤ 2 ^ 24) (hlt : lo.val ≤ hi.val)
    (hr : NiceRange lo.val hi.val n) :
    (∀ z : Fl, lo.val ≤ z.val → z.val ≤ hi.val → ∀ A ∈ F.Amatrix, ¬ OffGrid A (f32 z)) ∧
    (∀ (zs : List Fl) (cs : List (List Fl)), (∀ z ∈ zs, lo.val ≤ z.val ∧ z.val ≤ hi.val) → cs.length = zs.length →
      ∃ r, F.reconstruct (some (.vec zs)) (some (.arr [zs.length] F.templates.nsed cs)) (lit 0) = .ok r) := by
  obtain ⟨A, rfl, hx⟩ := set_grid hF h2 hn hlt
  have hp : 0 < 24 := by norm_num
  have hhead : (A.x.headD (lit 0)).val = lo.val := by
    rw [hx, grid_head lo hi h2 hn]
    exact rd_float hr.low
  have hlast : (A.x.getLastD (lit 0)).val = hi.val := by rw [hx]; exact grid_last_nice h2 hn hr _
  have hne : A.x ≠ [] := by rw [hx]; exact grid_ne h2
  have hin : ∀ z : Fl, lo.val ≤ z.val → z.val ≤ hi.val → lo.val ≤ rd 24 z.val ∧ rd 24 z.val ≤ hi.val := by
    intro z h1 h2
    refine ⟨?_, ?_⟩
    · rw [← rd_float hr.low]; exact rd_mono hp h1
    · rw [← rd_float hr.high]; exact rd_mono hp h2
  refine ⟨?_, ?_⟩
  · rintro z h1 h2 A' hA'
    simp only [Option.mem_def, Option.some.injEq] at hA'
    subst hA'
    rintro ⟨_, h | h⟩
    · rw [fl_lt, decide_eq_true_eq, hhead] at h
      exact absurd (hin z h1 h2).1 (not_le.mpr h)
    · rw [fl_lt, decide_eq_true_eq, hlast] at h
      exact absurd (hin z h1 h2).2 (not_le.mpr h)
  · intro zs cs hzs hcs
    simp only [Fitter.reconstruct]
    rw [recon_array]
    have : ∃ Ms, A.atAll (zs.map (fun z => shiftOf (f32 z) (lit 0))) = .ok Ms := by
      unfold AMat.atAll
      apply mapM_exists
      intro q hq
      obtain ⟨z, hz, rfl⟩ := List.mem_map.mp hq
      obtain ⟨h1, h2⟩ := hzs z hz
      obtain ⟨h3, h4⟩ := hin z h1 h2
      rw [fl_f32, shift_float (isFloat_rd24 _)]
      apply at_ok hne
      · rw [hhead]
        have : rd 24 (1 + lo.val) ≤ rd 24 (1 + rd 24 z.val) := rd_mono hp (by linarith)
        rw [rd_float hr.lo1] at this
        have := rd_mono hp (x := lo.val) (y := rd 24 (1 + rd 24 z.val) - 1) (by linarith)
        rwa [rd_float hr.low] at this
      · rw [hlast]
        have : rd 24 (1 + rd 24 z.val) ≤ rd 24 (1 + hi.val) := rd_mono hp (by linarith)
        rw [rd_float hr.hi1] at this
        have := rd_mono hp (x := rd 24 (1 + rd 24 z.val) - 1) (y := hi.val) (by linarith)
        rwa [rd_float hr.high] at this
    obtain ⟨Ms, hMs⟩ := this
    rw [hMs]
    exact ⟨_, rfl⟩

/-- Not vacuous: the default range and number of redshifts. -/
theorem nice_default : NiceRange 0 2 4000 := by
  have f : ∀ n : Nat, n ≤ 2 ^ 24 → IsFloat 24 (n : ℝ) := fun n h => isFloat_nat h (by norm_num)
  have h0 := f 0 (by norm_num)
  have h1 := f 1 (by norm_num)
  have h2 := f 2 (by norm_num)
  have h3 := f 3 (by norm_num)
  have h4 := f 7998 (by norm_num)
  refine ⟨by simpa using h0, by simpa using h2, by simpa using h2, ?_, by simpa using h1, ?_⟩
  · norm_num at h4 ⊢; exact h4
  · norm_num at h3 ⊢; exact h3

/-- The same for every range from 0 to a whole number and any number of redshifts, as long as their product has at most 24 bits. -/
theorem nice_whole (h n : Nat) (hn : (h + 1) * n ≤ 2 ^ 24) (h1 : 1 ≤ n) : NiceRange 0 (h : ℝ) n := by
  have f : ∀ n : Nat, n ≤ 2 ^ 24 → IsFloat 24 (n : ℝ) := fun n h => isFloat_nat h (by norm_num)
  have e1 : h + 1 ≤ 2 ^ 24 := le_trans (Nat.le_mul_of_pos_right _ h1) hn
  have e2 : h * (n - 1) ≤ 2 ^ 24 := le_trans (Nat.mul_le_mul (Nat.le_succ h) (Nat.sub_le n 1)) hn
  refine ⟨isFloat_zero 24, f h (by omega), by simpa using f h (by omega), ?_, by simpa using f 1 (by norm_num), ?_⟩
  · have := f (h * (n - 1)) e2
    rw [Nat.cast_mul] at this
    simpa using this
  · have := f (h + 1) e1
    push_cast at this
    rwa [add_comm] at this

/-! ### a range whose limits cause rounding -/

/-- `0.01` as a float32 -/
theorem rd_centi : rd 24 (rd 53 (1 / 100)) = 5368709 / 2 ^ 29 := by
  have h1 : rd 53 ((1 : ℝ) / 100) = ((5764607523034235 : ℤ) : ℝ) * 2 ^ ((-7 : ℤ) - (53 : ℕ) + 1) := by
    apply rd_eq
    · rw [abs_of_pos (by norm_num)]; norm_num
    · rw [abs_of_pos (by norm_num)]; norm_num
    · rw [abs_of_nonpos (by norm_num)]; norm_num
  have h2 : rd 24 (((5764607523034235 : ℤ) : ℝ) * 2 ^ ((-7 : ℤ) - (53 : ℕ) + 1)) = ((10737418 : ℤ) : ℝ) * 2 ^ ((-7 : ℤ) - (24 : ℕ) + 1) := by
    apply rd_eq
    · rw [abs_of_pos (by norm_num)]; norm_num
    · rw [abs_of_pos (by norm_num)]; norm_num
    · rw [abs_of_pos (by norm_num)]; norm_num
  rw [h1, h2]
  norm_num

theorem rd_quarter (p : Nat) (hp : 0 < p) : rd p (1 / 4) = 1 / 4 :=
  rd_float ⟨1, -2, by norm_num, by rw [abs_one]; exact one_lt_pow₀ (by norm_num) hp.ne'⟩

/-- the last redshift of the grid of `redshift_range=[0.01, 0.25]`, `nredshift=4000` -/
theorem gridVal_centi : gridVal (5368709 / 2 ^ 29) (1 / 4) 3999 3999 = 16777215 / 2 ^ 26 := by
  unfold gridVal
  have h1 : rd 24 ((1 : ℝ) / 4 - 5368709 / 2 ^ 29) = ((16106127 : ℤ) : ℝ) * 2 ^ ((-3 : ℤ) - (24 : ℕ) + 1) := by
    apply rd_eq
    · rw [abs_of_pos (by norm_num)]; norm_num
    · rw [abs_of_pos (by norm_num)]; norm_num
    · rw [abs_lt]; constructor <;> norm_num
  have h2 : rd 24 (((16106127 : ℤ) : ℝ) * 2 ^ ((-3 : ℤ) - (24 : ℕ) + 1) * (3999 : ℕ)) = ((15724707 : ℤ) : ℝ) * 2 ^ ((9 : ℤ) - (24 : ℕ) + 1) := by
    apply rd_eq
    · rw [abs_of_pos (by norm_num)]; norm_num
    · rw [abs_of_pos (by norm_num)]; norm_num
    · rw [abs_lt]; constructor <;> norm_num
  have h3 : rd 24 (((15724707 : ℤ) : ℝ) * 2 ^ ((9 : ℤ) - (24 : ℕ) + 1) / (3999 : ℕ)) = ((16106126 : ℤ) : ℝ) * 2 ^ ((-3 : ℤ) - (24 : ℕ) + 1) := by
    apply rd_eq
    · rw [abs_of_pos (by norm_num)]; norm_num
    · rw [abs_of_pos (by norm_num)]; norm_num
    · rw [abs_lt]; constructor <;> norm_num
  rw [h1, h2, h3]
  have h4 : rd 24 ((5368709 : ℝ) / 2 ^ 29 + ((16106126 : ℤ) : ℝ) * 2 ^ ((-3 : ℤ) - (24 : ℕ) + 1)) = ((16777215 : ℤ) : ℝ) * 2 ^ ((-3 : ℤ) - (24 : ℕ) + 1) := by
    apply rd_eq
    · rw [abs_of_pos (by norm_num)]; norm_num
    · rw [abs_of_pos (by norm_num)]; norm_num
    · rw [abs_lt]; constructor <;> norm_num
  rw [h4]
  norm_num

/-- the shift of the lower limit -/
theorem shift_centi : rd 24 (rd 24 (1 + 5368709 / 2 ^ 29) - 1) < 5368709 / 2 ^ 29 := by
  have h1 : rd 24 ((1 : ℝ) + 5368709 / 2 ^ 29) = ((8472494 : ℤ) : ℝ) * 2 ^ ((0 : ℤ) - (24 : ℕ) + 1) := by
    apply rd_eq
    · rw [abs_of_pos (by norm_num)]; norm_num
    · rw [abs_of_pos (by norm_num)]; norm_num
    · rw [abs_lt]; constructor <;> norm_num
  rw [h1]
  have h2 : IsFloat 24 (((8472494 : ℤ) : ℝ) * 2 ^ ((0 : ℤ) - (24 : ℕ) + 1) - 1) := ⟨41943, -22, by norm_num, by norm_num⟩
  rw [rd_float h2]
  norm_num

/-- the limits 0.01 and 0.25 as Python floats -/
noncomputable def loC : Fl := lit (1 / 100)
noncomputable def hiC : Fl := lit (1 / 4)

theorem centi_grid {lib : Lib Fl} {disk : Disk Fl} {cls : Cls} {R : List Name} {T : Tpl Fl} {ab : Bool} {w w' : Shared Fl} {F : Fitter Fl}
    (hF : (Fitter.mk' cls R T loC hiC 4000 ab).setAmatrix lib disk w = (w', .ok F)) :
    ∃ A, F = { Fitter.mk' cls R T loC hiC 4000 ab with Amatrix := some A } ∧ A.x ≠ [] ∧ (A.x.headD (lit 0)).val = 5368709 / 2 ^ 29 ∧
      (A.x.getLastD (lit 0)).val = 16777215 / 2 ^ 26 := by
  have eL : loC.val = rd 53 (1 / 100) := by simp [loC, fl_lit]
  have eH : hiC.val = rd 53 (1 / 4) := by simp [hiC, fl_lit]
  have hle : loC.val ≤ hiC.val := by rw [eL, eH]; exact rd_mono (by norm_num) (by norm_num)
  obtain ⟨A, hFA, hx⟩ := set_grid hF (by norm_num) (by norm_num) hle
  refine ⟨A, hFA, ?_, ?_, ?_⟩
  · rw [hx]; exact grid_ne (by norm_num)
  · rw [hx, grid_head _ _ (by norm_num) (by norm_num), fl_f32, eL]
    exact rd_centi
  · have hl := grid_last loC hiC (n := 4000) (by norm_num) (by norm_num) (lit 0)
    rw [eL, eH, rd_centi, rd_quarter 53 (by norm_num), rd_quarter 24 (by norm_num)] at hl
    rw [hx, hl]
    exact gridVal_centi

/-- C128 is false as stated: with `redshift_range=[0.01, 0.25]` and 4000 redshifts the last redshift of the grid is below 0.25, and the fit of an
object at 0.25 is all zeros, whatever its photometry and the solver. -/
theorem C128_false_fit {lib : Lib Fl} {disk : Disk Fl} {R : List Name} {T : Tpl Fl} {w w' : Shared Fl} {F : Fitter Fl}
    (hF : (Fitter.mk' .base R T loC hiC 4000 false).setAmatrix lib disk w = (w', .ok F)) (nnls : Nnls Fl) (m iv : List Fl) (hm : m.length = R.length)
    (hiv : iv.length = R.length) (noise : Nat → Nat → Nat → Fl) :
    F.fitCoeffs nnls (some (.scalar hiC)) (some (.vec m)) (some (.vec iv)) 0 noise = .ok ⟨.vec (List.replicate F.templates.nsed (lit 0)), none⟩ := by
  obtain ⟨A, rfl, hne, _, hlast⟩ := centi_grid hF
  refine C51_scalar_partial nnls _ (Or.inr rfl) A rfl hiC ⟨hne, Or.inr ?_⟩ m iv hm hiv noise
  rw [fl_lt, decide_eq_true_eq, hlast, fl_f32]
  have eH : hiC.val = rd 53 (1 / 4) := by simp [hiC, fl_lit]
  rw [eH, rd_quarter _ (by norm_num)]
  simp only
  rw [rd_quarter _ (by norm_num)]
  norm_num

/-- C128 is false as stated: with the same object, `reconstruct` of an array containing the lower limit 0.01 raises `ValueError`, because 1 + 0.01 - 1
is less than 0.01 in float32. -/
theorem C128_false_reconstruct {lib : Lib Fl} {disk : Disk Fl} {R : List Name} {T : Tpl Fl} {w w' : Shared Fl} {F : Fitter Fl}
    (hF : (Fitter.mk' .base R T loC hiC 4000 false).setAmatrix lib disk w = (w', .ok F)) (c : List Fl) :
    F.reconstruct (some (.vec [loC])) (some (.arr [1] F.templates.nsed [c])) (lit 0) = .error .valueError := by
  obtain ⟨A, rfl, hne, hhead, _⟩ := centi_grid hF
  simp only [Fitter.reconstruct]
  have := recon_array { Fitter.mk' .base R T loC hiC 4000 false with Amatrix := some A } A [loC] [c] (lit 0)
  simp only [List.length_singleton] at this
  rw [this]
  have eL : loC.val = rd 53 (1 / 100) := by simp [loC, fl_lit]
  have hat : A.at (shiftOf (f32 loC) (lit 0)) = .error .valueError := by
    apply offGrid_at
    refine ⟨hne, Or.inl ?_⟩
    rw [fl_f32, shift_float (isFloat_rd24 _), fl_lt, decide_eq_true_eq, hhead, eL, rd_centi]
    exact shift_centi
  simp only [AMat.atAll, List.map_cons, List.map_nil, List.mapM_cons, hat]
  rfl

/-! ### building in float32 -/

/-- four wavelengths 1, 2, 4, 8, one spectrum, without interpolator -/
noncomputable def flSed : Sed Fl :=
  let w : List Fl := [⟨1, .f32⟩, ⟨2, .f32⟩, ⟨4, .f32⟩, ⟨8, .f32⟩]
  ⟨w, [[⟨1, .f32⟩, ⟨1, .f32⟩, ⟨1, .f32⟩, ⟨1, .f32⟩]], w, [[⟨1, .f32⟩, ⟨1, .f32⟩, ⟨1, .f32⟩, ⟨1, .f32⟩]], ⟨0, .f32⟩, false, none, false⟩

/-- a dictionary in which every response is loaded, with the curve of a given object -/
def flReg (c : Curve Fl) : Reg Fl := fun _ => some ⟨some c.wave, some c.resp, some c.itp, none, none, none, none⟩

theorem fl_interp {a : ℝ} (ha : 0 < a) (rows : List (List Fl)) (hr : ∀ r ∈ rows, r.length = 4) :
    ∃ i, mkInterp ([⟨a, .f32⟩, ⟨2 * a, .f32⟩, ⟨4 * a, .f32⟩, ⟨8 * a, .f32⟩] : List Fl) rows = .ok i ∧ i.ys.length = rows.length := by
  unfold mkInterp
  rw [if_pos (by simpa using hr), if_pos (by simp), argsort_fl (by simp; refine ⟨⟨?_, ?_, ?_⟩, ⟨?_, ?_⟩, ?_⟩ <;> linarith), gather_range _ _ rfl, if_pos]
  · exact ⟨_, rfl, by simp⟩
  · simp only [noDup, eqb, fl_le, Bool.and_true, Bool.and_eq_true, Bool.not_eq_true', Bool.and_eq_false_iff, decide_eq_true_eq, decide_eq_false_iff_not,
      not_le]
    refine ⟨Or.inr ?_, Or.inr ?_, Or.inr ?_⟩ <;> linarith

theorem isFloat_two_pow {p : Nat} {x : ℝ} (k : Nat) (h : IsFloat p x) : IsFloat p (2 ^ k * x) := by
  obtain ⟨n, e, rfl, hn⟩ := h
  refine ⟨n, e + k, ?_, hn⟩
  rw [zpow_add₀ (by norm_num), zpow_natCast]
  ring

theorem fl_respRow (lib : Lib Fl) (c : Curve Fl) (n : Name) {z : ℝ} (hz : IsFloat 24 z) (h0 : 0 ≤ z) (t : Sed Fl)
    (ht : flSed.setRedshift ⟨z, .f32⟩ = (t, .ok ())) : ∃ row, respRow lib (flReg c) t n = .ok row := by
  have h1 : (lit 1 : Fl) = ⟨1, .weak⟩ := by simpa using lit_nat (n := 1) (by norm_num)
  have hf1 : IsFloat 24 1 := by simpa using isFloat_nat (p := 24) (n := 1) (by norm_num) (by norm_num)
  have ha : (lit 1 : Fl) + ⟨z, .f32⟩ = ⟨rd 24 (1 + z), .f32⟩ := by rw [h1, fl_add, op2_ws _ hf1 hz]
  set a := rd 24 (1 + z) with hadef
  have hap : 0 < a := rd_pos (by norm_num) (by linarith)
  have haf : IsFloat 24 a := isFloat_rd24 _
  have mulp : ∀ k : Nat, (⟨2 ^ k, .f32⟩ : Fl) * ⟨a, .f32⟩ = ⟨2 ^ k * a, .f32⟩ := by
    intro k
    rw [fl_mul, op2_ss _ (by simpa using isFloat_two_pow k hf1) haf, rd_float (isFloat_two_pow k haf)]
  have m0 : (⟨1, .f32⟩ : Fl) * ⟨a, .f32⟩ = ⟨a, .f32⟩ := by simpa using mulp 0
  have m1 : (⟨2, .f32⟩ : Fl) * ⟨a, .f32⟩ = ⟨2 * a, .f32⟩ := by simpa using mulp 1
  have m2 : (⟨4, .f32⟩ : Fl) * ⟨a, .f32⟩ = ⟨4 * a, .f32⟩ := by have := mulp 2; norm_num at this; exact this
  have m3 : (⟨8, .f32⟩ : Fl) * ⟨a, .f32⟩ = ⟨8 * a, .f32⟩ := by have := mulp 3; norm_num at this; exact this
  have r1 : ∀ k : Nat, rd 24 (2 ^ k * a) = 2 ^ k * a := fun k => rd_float (isFloat_two_pow k haf)
  have r0 : rd 24 a = a := rd_float haf
  have r2 : rd 24 (2 * a) = 2 * a := by simpa using r1 1
  have r3 : rd 24 (4 * a) = 4 * a := by have := r1 2; norm_num at this; exact this
  have r4 : rd 24 (8 * a) = 8 * a := by have := r1 3; norm_num at this; exact this
  simp only [flSed, Sed.setRedshift, Bool.false_eq_true, if_false, Prod.mk.injEq, and_true, ha, List.map_cons, List.map_nil, m0, m1, m2, m3] at ht
  subst ht
  unfold respRow
  simp only [flReg, RespObj.curve, ok_bind, Bool.false_eq_true, if_false]
  unfold chunkRow projectArr
  simp only [piecesOf, List.length_cons, List.length_nil, NDA.map, List.map_cons, List.map_nil]
  have hpc : List.range ((0 + 1 + 1000 - 1) / 1000) = [0] := by decide
  rw [hpc]
  simp only [List.map_cons, List.map_nil, zero_mul, List.drop_zero, List.take_succ_cons, List.take_nil, List.mapM_cons, List.mapM_nil, List.length_cons,
    List.length_nil, List.map_cons, List.map_nil, fl_f32, r0, r2, r3, r4]
  obtain ⟨i, hi, hl⟩ := fl_interp hap [[f32 ((⟨1, .f32⟩ : Fl) / ⟨a, .f32⟩), f32 ((⟨1, .f32⟩ : Fl) / ⟨a, .f32⟩), f32 ((⟨1, .f32⟩ : Fl) / ⟨a, .f32⟩),
    f32 ((⟨1, .f32⟩ : Fl) / ⟨a, .f32⟩)]] (by simp)
  simp only [fl_f32] at hi
  have hp : ∃ x, projectWith lib c [⟨a, .f32⟩, ⟨2 * a, .f32⟩, ⟨4 * a, .f32⟩, ⟨8 * a, .f32⟩] i = .scalar x := by
    unfold projectWith
    cases projGrid ([⟨a, .f32⟩, ⟨2 * a, .f32⟩, ⟨4 * a, .f32⟩, ⟨8 * a, .f32⟩] : List Fl) c.wave with
    | none => exact ⟨_, rfl⟩
    | some g =>
      obtain ⟨y, hy⟩ : ∃ y, i.ys = [y] := List.length_eq_one_iff.mp hl
      simp only [Interp.eval, hy, List.map_cons, List.map_nil, projOnGrid]
      exact ⟨_, rfl⟩
  obtain ⟨x, hx⟩ := hp
  simp only [ne_eq, not_true_eq_false, if_false, Nat.lt_irrefl, ok_bind, hi, hx, storeRow, zero_add, pure_py, lt_irrefl, reduceCtorEq]
  exact ⟨_, rfl⟩

theorem grid_nonneg (lo hi : Fl) {n : Nat} (h2 : 2 ≤ n) (hn : n ≤ 2 ^ 24) (h0 : 0 ≤ lo.val) (h : lo.val ≤ hi.val) :
    ∀ z ∈ redshiftGrid lo hi n, ∃ x, z = ⟨x, .f32⟩ ∧ IsFloat 24 x ∧ 0 ≤ x := by
  intro z hz
  rw [grid_float lo hi h2 hn, List.mem_map] at hz
  obtain ⟨i, _, rfl⟩ := hz
  refine ⟨_, rfl, isFloat_rd24 _, ?_⟩
  have : gridVal (rd 24 lo.val) (rd 24 hi.val) (n - 1) 0 ≤ gridVal (rd 24 lo.val) (rd 24 hi.val) (n - 1) i :=
    gridVal_mono (rd_mono (by norm_num) h) _ (Nat.zero_le i)
  rw [gridVal_zero (isFloat_rd24 _)] at this
  exact (rd_nonneg h0).trans this

/-- Fitters can be built in float32, for any bands, range and number of redshifts. -/
theorem fl_build (lib : Lib Fl) (disk : Disk Fl) (c : Curve Fl) (R : List Name) (lo hi : Fl) {n : Nat} (h2 : 2 ≤ n) (hn : n ≤ 2 ^ 24) (h0 : 0 ≤ lo.val)
    (h : lo.val ≤ hi.val) :
    ∃ w' F, (Fitter.mk' .base R (.sed flSed) lo hi n false).setAmatrix lib disk ⟨flReg c, flSed⟩ = (w', .ok F) := by
  have hrow : ∀ z ∈ redshiftGrid lo hi n, ∃ M t, flSed.setRedshift z = (t, .ok ()) ∧ R.mapM (respRow lib (flReg c) t) = .ok M := by
    intro z hz
    obtain ⟨x, rfl, hx, hx0⟩ := grid_nonneg lo hi h2 hn h0 h z hz
    obtain ⟨t, ht⟩ : ∃ t, flSed.setRedshift ⟨x, .f32⟩ = (t, .ok ()) := by
      unfold Sed.setRedshift
      simp [flSed]
    obtain ⟨M, hM⟩ := mapM_exists (l := R) (f := respRow lib (flReg c) t) (fun nm _ => fl_respRow lib c nm hx hx0 t ht)
    exact ⟨M, t, ht, hM⟩
  have hall : ∀ l : List Fl, (∀ z ∈ l, z ∈ redshiftGrid lo hi n) →
      ∃ ms, List.Forall₂ (fun z M => ∃ t, flSed.setRedshift z = (t, .ok ()) ∧ R.mapM (respRow lib (flReg c) t) = .ok M) l ms := by
    intro l
    induction l with
    | nil => intro _; exact ⟨[], .nil⟩
    | cons z l ih =>
      intro hl
      obtain ⟨ms, hms⟩ := ih (fun x hx => hl x (List.mem_cons_of_mem _ hx))
      obtain ⟨M, hM⟩ := hrow z (hl z List.mem_cons_self)
      exact ⟨M :: ms, .cons hM hms⟩
  obtain ⟨ms, hms⟩ := hall _ (fun _ h => h)
  obtain ⟨s', hs', _⟩ := gridLoop_of lib (flReg c) R _ _ _ hms
  have hlen : (redshiftGrid lo hi n).length = ms.length := hms.length_eq
  have hz : ∃ s'', s'.setRedshift (lit 0) = (s'', .ok ()) := by
    have hi' := (gridLoop_rest lib (flReg c) R (redshiftGrid lo hi n) flSed)
    rw [hs'] at hi'
    have : s'.interpolate = false := hi'.ip
    unfold Sed.setRedshift
    simp [this]
  obtain ⟨s'', hs''⟩ := hz
  unfold Fitter.setAmatrix calcAmatrix
  simp only [Fitter.mk', loadMissing_present lib disk R (flReg c) (fun _ _ => rfl), hs', mkAMat, hlen, if_true, hs'']
  exact ⟨_, _, rfl⟩

/-- Not vacuous: the constructions that `C128_range_partial` and `C128_false_*` are about exist, with two bands. -/
example (lib : Lib Fl) (disk : Disk Fl) (c : Curve Fl) :
    (∃ w' F, (Fitter.mk' .base [['x'], ['y']] (.sed flSed) (lit 0) (lit 2) 4000 false).setAmatrix lib disk ⟨flReg c, flSed⟩ = (w', .ok F)) ∧
    NiceRange (lit 0 : Fl).val (lit 2 : Fl).val 4000 ∧
    (∃ w' F, (Fitter.mk' .base [['x'], ['y']] (.sed flSed) loC hiC 4000 false).setAmatrix lib disk ⟨flReg c, flSed⟩ = (w', .ok F)) := by
  have e0 : (lit 0 : Fl).val = 0 := by simp [fl_lit]
  have e2 : (lit 2 : Fl).val = 2 := by
    have := lit_nat (n := 2) (by norm_num)
    norm_num at this
    rw [this]
  have eL : loC.val = rd 53 (1 / 100) := by simp [loC, fl_lit]
  have eH : hiC.val = rd 53 (1 / 4) := by simp [hiC, fl_lit]
  refine ⟨fl_build lib disk c _ _ _ (by norm_num) (by norm_num) (by rw [e0]) (by rw [e0, e2]; norm_num), by rw [e0, e2]; exact nice_default,
    fl_build lib disk c _ _ _ (by norm_num) (by norm_num) ?_ ?_⟩
  · rw [eL]; exact rd_nonneg (by norm_num)
  · rw [eL, eH]; exact rd_mono (by norm_num) (by norm_num)

/-- Not vacuous: the default grid of 4000 redshifts between 0 and 2 satisfies the hypotheses of `C129_accuracy` and `C129_strict`. -/
example : (0 : ℝ) ≤ (lit 0 : Fl).val ∧ (lit 0 : Fl).val ≤ (lit 2 : Fl).val ∧
    8 * uro 24 * (f32 (lit 2) : Fl).val < ((f32 (lit 2) : Fl).val - (f32 (lit 0) : Fl).val) / ((4000 - 1 : Nat) : ℝ) := by
  have e0 : (lit 0 : Fl).val = 0 := by simp [fl_lit]
  have e2 : (lit 2 : Fl).val = 2 := by
    have := lit_nat (n := 2) (by norm_num)
    norm_num at this
    rw [this]
  have hf2 : IsFloat 24 2 := by simpa using isFloat_nat (p := 24) (n := 2) (by norm_num) (by norm_num)
  simp only [fl_f32, e0, e2, rd_zero, rd_float hf2]
  unfold uro
  norm_num

end KC
