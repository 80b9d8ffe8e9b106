import Verif.Props.Shipped
import Mathlib.Analysis.SpecialFunctions.Log.Deriv

/-!
Rational bounds of logarithms, and of the moments that decide where the effective wavelength of a response is.
-/

namespace KC
open Spec

/-- `y/k + y²/(k+1) + …`, `n` terms -/
def serQ (y : ℚ) : ℕ → ℕ → ℚ
  | 0, _ => 0
  | n + 1, k => y * (1 / (k : ℚ) + serQ y n (k + 1))

theorem serQ_cast (y : ℚ) : ∀ n k : ℕ, ((serQ y n k : ℚ) : ℝ) = ∑ i ∈ Finset.range n, (y : ℝ) ^ (i + 1) / ((i : ℝ) + k)
  | 0, _ => by simp [serQ]
  | n + 1, k => by
    rw [Finset.sum_range_succ', serQ]
    push_cast
    rw [serQ_cast y n (k + 1), mul_add, Finset.mul_sum, add_comm]
    congr 1
    · refine Finset.sum_congr rfl fun i _ => ?_
      push_cast
      rw [show (i : ℝ) + ((k : ℝ) + 1) = (i : ℝ) + 1 + k by ring, pow_succ' (y : ℝ) (i + 1)]
      ring
    · norm_num
      ring

/-- the logarithm of a number near one, and how far off this is at most -/
def logC (x : ℚ) : ℚ := -serQ (1 - x) 15 1
def logE (x : ℚ) : ℚ :=
  let a := (1 - x) * (1 - x)
  let b := a * a
  let c := b * b
  c * c / (1 - |1 - x|)

theorem log_near {x : ℚ} (h : |1 - x| < 1) : |Real.log x - (logC x : ℚ)| ≤ (logE x : ℚ) := by
  have h' : |(1 : ℝ) - x| < 1 := by exact_mod_cast h
  have := Real.abs_log_sub_add_sum_range_le h' 15
  have e : ((logE x : ℚ) : ℝ) = |(1 : ℝ) - x| ^ (15 + 1) / (1 - |(1 : ℝ) - x|) := by
    unfold logE
    push_cast
    rw [Even.pow_abs (by decide)]
    ring
  rw [e]
  unfold logC
  push_cast
  rw [serQ_cast]
  push_cast
  rw [sub_sub_cancel] at this
  rw [sub_neg_eq_add, add_comm]
  exact this

/-! ### the same in integers -/

/-- the series of the logarithm times a common denominator, and the power of `D` in it, `m` terms from the last -/
def hor (N D : ℤ) : ℕ → ℤ × ℤ
  | 0 => (0, 1)
  | m + 1 => ((hor N D m).1 * N + 360360 / (15 - m) * (hor N D m).2, (hor N D m).2 * D)

theorem hor_eq (N D : ℤ) (hD : D ≠ 0) : serQ ((N : ℚ) / D) 15 1 = ((N * (hor N D 15).1 : ℤ) : ℚ) / ((360360 * (hor N D 15).2 : ℤ) : ℚ) := by
  have : (D : ℚ) ≠ 0 := by exact_mod_cast hD
  simp only [hor, serQ]
  norm_num
  field_simp
  ring

theorem hor_pow (N D : ℤ) : ∀ m, (hor N D m).2 = D ^ m
  | 0 => by simp [hor]
  | m + 1 => by rw [hor, hor_pow N D m, pow_succ]

/-- integer bounds of `S log (1 - N / D)` -/
def lgLo (S N D : ℤ) : ℤ := (-(N * (hor N D 15).1 * S)) / (360360 * (hor N D 15).2) + -(N ^ 16 * S) / ((hor N D 15).2 * (D - |N|))
def lgHi (S N D : ℤ) : ℤ := -((N * (hor N D 15).1 * S) / (360360 * (hor N D 15).2) + -(N ^ 16 * S) / ((hor N D 15).2 * (D - |N|)))

theorem fdiv_le (a b : ℤ) (hb : 0 < b) : ((a / b : ℤ) : ℝ) ≤ (a : ℝ) / b := by
  rw [le_div_iff₀ (by exact_mod_cast hb)]
  exact_mod_cast Int.ediv_mul_le a hb.ne'

theorem lg_bounds (S N D : ℤ) (hS : 0 ≤ S) (h : |N| < D) :
    (lgLo S N D : ℝ) ≤ S * Real.log (1 - (N : ℝ) / D) ∧ S * Real.log (1 - (N : ℝ) / D) ≤ (lgHi S N D : ℝ) := by
  have hD : 0 < D := lt_of_le_of_lt (abs_nonneg _) h
  have hDr : (0 : ℝ) < D := by exact_mod_cast hD
  have hq : (0 : ℚ) < D := by exact_mod_cast hD
  have hDn : (0 : ℝ) < D - |(N : ℝ)| := by rw [sub_pos]; exact_mod_cast h
  have hx : |1 - (1 - (N : ℚ) / D)| < 1 := by
    rw [sub_sub_cancel, abs_div, abs_of_pos hq, div_lt_one hq]
    exact_mod_cast h
  have hl := log_near hx
  have e1 : ((logC (1 - (N : ℚ) / D) : ℚ) : ℝ) = -((N * (hor N D 15).1 : ℤ) : ℝ) / ((360360 * (hor N D 15).2 : ℤ) : ℝ) := by
    unfold logC
    rw [sub_sub_cancel, hor_eq N D hD.ne']
    push_cast
    ring
  have e2 : ((logE (1 - (N : ℚ) / D) : ℚ) : ℝ) = ((N ^ 16 : ℤ) : ℝ) / (((hor N D 15).2 * (D - |N|) : ℤ) : ℝ) := by
    unfold logE
    rw [hor_pow]
    push_cast
    rw [sub_sub_cancel, abs_div, abs_of_pos hDr]
    field_simp
  rw [e1, e2] at hl
  have hp : 0 < (hor N D 15).2 := by rw [hor_pow]; positivity
  have hp1 : (0 : ℤ) < 360360 * (hor N D 15).2 := by positivity
  have hp2 : 0 < (hor N D 15).2 * (D - |N|) := mul_pos hp (by omega)
  have hSr : (0 : ℝ) ≤ S := by exact_mod_cast hS
  have f1 := fdiv_le (-(N * (hor N D 15).1 * S)) _ hp1
  have f2 := fdiv_le (-(N ^ 16 * S)) _ hp2
  have f3 := fdiv_le (N * (hor N D 15).1 * S) _ hp1
  have e3 : ((1 - (N : ℚ) / D : ℚ) : ℝ) = 1 - (N : ℝ) / D := by push_cast; rfl
  rw [e3] at hl
  obtain ⟨a, b⟩ := abs_le.mp hl
  have a' := mul_le_mul_of_nonneg_left a hSr
  have b' := mul_le_mul_of_nonneg_left b hSr
  generalize Real.log (1 - (N : ℝ) / D) = L at a' b' ⊢
  generalize hA : ((360360 * (hor N D 15).2 : ℤ) : ℝ) = A at *
  generalize hB : (((hor N D 15).2 * (D - |N|) : ℤ) : ℝ) = B at *
  generalize hT : ((N * (hor N D 15).1 : ℤ) : ℝ) = T at *
  generalize hE : ((N ^ 16 : ℤ) : ℝ) = E at *
  have g1 : ((-(N * (hor N D 15).1 * S) : ℤ) : ℝ) / A = S * (-T / A) := by rw [← hT]; push_cast; ring
  have g2 : ((-(N ^ 16 * S) : ℤ) : ℝ) / B = -(S * (E / B)) := by rw [← hE]; push_cast; ring
  have g3 : ((N * (hor N D 15).1 * S : ℤ) : ℝ) / A = -(S * (-T / A)) := by rw [← hT]; push_cast; ring
  rw [g1] at f1
  rw [g2] at f2
  rw [g3] at f3
  unfold lgLo lgHi
  push_cast at f1 f2 f3 ⊢
  constructor
  · linarith
  · linarith

/-- integer bounds of `S T log (W / c) P / W`, `c = C / 100` -/
def momLo (S T C : ℤ) (q : ℕ × ℤ) : ℤ := (if 0 ≤ q.2 then lgLo S (C - 100 * q.1) C else lgHi S (C - 100 * q.1) C) * q.2 * T / q.1
def momHi (S T C : ℤ) (q : ℕ × ℤ) : ℤ := -(-((if 0 ≤ q.2 then lgHi S (C - 100 * q.1) C else lgLo S (C - 100 * q.1) C) * q.2 * T) / q.1)

theorem mom_bounds (S T C : ℤ) (hS : 0 ≤ S) (hT : 0 ≤ T) (q : ℕ × ℤ) (hW : 0 < q.1) (h : |C - 100 * q.1| < C) :
    (momLo S T C q : ℝ) ≤ S * T * (Real.log ((q.1 : ℝ) / (C / 100)) * (q.2 / q.1)) ∧ S * T * (Real.log ((q.1 : ℝ) / (C / 100)) * (q.2 / q.1)) ≤ (momHi S T C q : ℝ) := by
  obtain ⟨a, b⟩ := lg_bounds S _ C hS h
  have hC : (0 : ℝ) < C := by exact_mod_cast lt_of_le_of_lt (abs_nonneg _) h
  have e : 1 - ((C - 100 * q.1 : ℤ) : ℝ) / C = (q.1 : ℝ) / (C / 100) := by push_cast; field_simp; ring
  rw [e] at a b
  have hWr : (0 : ℝ) < q.1 := by exact_mod_cast hW
  have hWi : (0 : ℤ) < q.1 := by exact_mod_cast hW
  have hTr : (0 : ℝ) ≤ T := by exact_mod_cast hT
  unfold momLo momHi
  generalize Real.log ((q.1 : ℝ) / (C / 100)) = L at a b ⊢
  generalize lgLo S (C - 100 * q.1) C = lo at *
  generalize lgHi S (C - 100 * q.1) C = hi at *
  have key : ∀ m : ℤ, S * T * (L * ((q.2 : ℝ) / q.1)) - ((m * q.2 * T : ℤ) : ℝ) / ((q.1 : ℤ) : ℝ) = (S * L - m) * q.2 * (T / q.1) := by
    intro m; push_cast; field_simp
  have hTW : (0 : ℝ) ≤ T / q.1 := div_nonneg hTr hWr.le
  constructor
  · refine (fdiv_le _ _ hWi).trans ?_
    rw [← sub_nonneg, key]
    refine mul_nonneg ?_ hTW
    split
    · rename_i h0
      exact mul_nonneg (by linarith) (by exact_mod_cast h0)
    · rename_i h0
      exact mul_nonneg_of_nonpos_of_nonpos (by linarith) (by exact_mod_cast (not_le.mp h0).le)
  · have := fdiv_le (-((if 0 ≤ q.2 then hi else lo) * q.2 * T)) _ hWi
    rw [Int.cast_neg] at this
    have k2 := key (if 0 ≤ q.2 then hi else lo)
    have : ((if 0 ≤ q.2 then hi else lo : ℤ) * q.2 * T : ℤ) / ((q.1 : ℤ) : ℝ) ≤ ((-(-((if 0 ≤ q.2 then hi else lo) * q.2 * T) / q.1) : ℤ) : ℝ) := by
      rw [Int.cast_neg]
      rw [neg_div] at this
      linarith
    refine le_trans ?_ this
    rw [← sub_nonpos, k2]
    refine mul_nonpos_of_nonpos_of_nonneg ?_ hTW
    split
    · rename_i h0
      exact mul_nonpos_of_nonpos_of_nonneg (by linarith) (by exact_mod_cast h0)
    · rename_i h0
      exact mul_nonpos_of_nonneg_of_nonpos (by linarith) (by exact_mod_cast (not_le.mp h0).le)

/-- lower bounds of `T P / W` -/
def wgtLo (T : ℤ) (q : ℕ × ℤ) : ℤ := q.2 * T / q.1

/-- twice the trapezoidal sum over rows of a file -/
def sumZ (G : ℕ × ℤ → ℤ) : List (ℕ × ℤ) → ℤ
  | p :: q :: l => ((q.1 : ℤ) - p.1) * (G p + G q) + sumZ G (q :: l)
  | _ => 0

theorem sumZ_le {G : ℕ × ℤ → ℤ} {f : ℕ × ℤ → ℝ} {k : ℝ} : ∀ {l : List (ℕ × ℤ)}, (l.map (fun q => (q.1 : ℝ))).Pairwise (· < ·) → (∀ q ∈ l, (G q : ℝ) ≤ k * f q) →
    (sumZ G l : ℝ) ≤ 2 * (k * trapRule (l.map (fun q => (q.1 : ℝ))) (l.map f))
  | [], _, _ => by simp [sumZ, trapRule]
  | [_], _, _ => by simp [sumZ, trapRule]
  | p :: q :: l, hp, h => by
    have ih := sumZ_le (l := q :: l) (List.Pairwise.of_cons hp) (fun a ha => h a (by simp [ha]))
    have h1 := h p (by simp)
    have h2 := h q (by simp)
    have h3 : (p.1 : ℝ) < q.1 := by have := List.rel_of_pairwise_cons hp (a' := (q.1 : ℝ)) (by simp); exact this
    simp only [List.map_cons] at ih
    simp only [sumZ, List.map_cons, trapRule]
    push_cast
    have := mul_le_mul_of_nonneg_left (add_le_add h1 h2) (sub_nonneg.mpr h3.le)
    linarith

/-- what the kernel checks: the effective wavelength of a file is between `A` and `B` hundredths of an Angstrom -/
def leffOK (S T A B : ℤ) (b : BandFile) : Bool :=
  decide (b.wdec = 0) && decide (0 < S) && decide (0 < T) &&
    b.rows.all (fun q => decide (0 < q.1) && decide (|A - 100 * q.1| < A) && decide (|B - 100 * q.1| < B)) &&
    decide (0 < sumZ (wgtLo T) b.rows) && decide (0 < sumZ (momLo S T A) b.rows) && decide (0 < sumZ (fun q => -momHi S T B q) b.rows)

theorem rows_wave {b : BandFile} (h : b.wdec = 0) : b.wave = b.rows.map (fun q => (q.1 : ℝ)) := by
  unfold BandFile.wave BandFile.w
  rw [h, List.map_map]
  refine List.map_congr_left fun q _ => ?_
  simp

theorem rows_zip {b : BandFile} (h : b.wdec = 0) (F : ℝ → ℝ → ℝ) :
    List.zipWith F b.wave b.resp = b.rows.map (fun q => F q.1 ((q.2 : ℝ) / 10 ^ b.pdec)) := by
  rw [rows_wave h]
  unfold BandFile.resp BandFile.p
  rw [List.map_map, List.zipWith_map, List.zipWith_self]
  refine List.map_congr_left fun q _ => ?_
  simp

theorem leffOK_sound {S T A B : ℤ} {b : BandFile} (hb : GoodFile b) (h : leffOK S T A B b = true) :
    (A : ℝ) / 100 < lambdaEffOf b.wave b.resp ∧ lambdaEffOf b.wave b.resp < (B : ℝ) / 100 := by
  simp only [leffOK, Bool.and_eq_true, decide_eq_true_eq, List.all_eq_true] at h
  obtain ⟨⟨⟨⟨⟨⟨h0, hS⟩, hT⟩, h3⟩, h4⟩, h5⟩, h6⟩ := h
  have hSr : (0 : ℝ) < S := by exact_mod_cast hS
  have hTr : (0 : ℝ) < T := by exact_mod_cast hT
  have ht : (0 : ℝ) < 10 ^ b.pdec := by positivity
  have incr : (b.rows.map (fun q => (q.1 : ℝ))).Pairwise (· < ·) := by rw [← rows_wave h0]; exact hb.incr
  have hne : b.wave ≠ [] := by rintro h; have := hb.four; rw [h] at this; simp at this
  have hd : ∀ {G : ℕ × ℤ → ℤ} {F : ℝ → ℝ → ℝ} {k : ℝ}, 0 < sumZ G b.rows →
      (∀ q ∈ b.rows, (G q : ℝ) ≤ k * F q.1 ((q.2 : ℝ) / 10 ^ b.pdec)) → 0 < k * trapRule b.wave (List.zipWith F b.wave b.resp) := by
    intro G F k hG hle
    have := sumZ_le incr hle
    have hG' : (0 : ℝ) < (sumZ G b.rows : ℝ) := by exact_mod_cast hG
    rw [rows_zip h0, rows_wave h0]
    linarith
  have hD : 0 < logWeight b.wave b.resp := by
    refine (mul_pos_iff_of_pos_left (show (0 : ℝ) < (T : ℝ) * 10 ^ b.pdec by positivity)).mp (hd h4 fun q hq => ?_)
    have hW : (0 : ℤ) < q.1 := by exact_mod_cast (h3 q hq).1.1
    refine (fdiv_le _ _ hW).trans (le_of_eq ?_)
    have : (q.1 : ℝ) ≠ 0 := by exact_mod_cast hW.ne'
    push_cast
    field_simp
  have hrow : ∀ q ∈ b.rows, A / 100 > (0 : ℝ) ∧ (B : ℝ) / 100 > 0 := fun q hq =>
    ⟨div_pos (by exact_mod_cast lt_of_le_of_lt (abs_nonneg _) (h3 q hq).1.2) (by norm_num), div_pos (by exact_mod_cast lt_of_le_of_lt (abs_nonneg _) (h3 q hq).2) (by norm_num)⟩
  obtain ⟨q0, hq0⟩ : ∃ q, q ∈ b.rows := by
    rw [rows_wave h0] at hne
    exact List.exists_mem_of_ne_nil _ (fun h => hne (by rw [h]; rfl))
  obtain ⟨p1, p2⟩ := hrow q0 hq0
  have hM1 : 0 < logMoment ((A : ℝ) / 100) b.wave b.resp := by
    refine (mul_pos_iff_of_pos_left (show (0 : ℝ) < (S : ℝ) * T * 10 ^ b.pdec by positivity)).mp (hd h5 fun q hq => ?_)
    refine ((mom_bounds S T A hS.le hT.le q (h3 q hq).1.1 (h3 q hq).1.2).1).trans (le_of_eq ?_)
    field_simp
  have hM2 : logMoment ((B : ℝ) / 100) b.wave b.resp < 0 := by
    have : 0 < -((S : ℝ) * T * 10 ^ b.pdec) * logMoment ((B : ℝ) / 100) b.wave b.resp := hd h6 fun q hq => by
      have := (mom_bounds S T B hS.le hT.le q (h3 q hq).1.1 (h3 q hq).2).2
      push_cast
      refine (neg_le_neg this).trans (le_of_eq ?_)
      field_simp
    rw [neg_mul, neg_pos] at this
    have hk : (0 : ℝ) < (S : ℝ) * T * 10 ^ b.pdec := by positivity
    by_contra hc
    exact absurd this (not_lt.mpr (mul_nonneg hk.le (not_lt.mp hc)))
  have hle : 0 < lambdaEffOf b.wave b.resp := Real.exp_pos _
  have ea := lambdaEff_rel p1 b.wave b.resp hb.pos hb.len hne (by rw [hb.first, hb.last]; simpa using hD.ne')
  have eb := lambdaEff_rel p2 b.wave b.resp hb.pos hb.len hne (by rw [hb.first, hb.last]; simpa using hD.ne')
  rw [hb.first, hb.last] at ea eb
  simp only [mul_zero, sub_zero] at ea eb
  constructor
  · rw [← Real.log_lt_log_iff p1 hle, ← sub_pos, ea]; exact div_pos hM1 hD
  · rw [← Real.log_lt_log_iff hle p2, ← sub_neg, eb]; exact div_neg_of_neg_of_pos hM2 hD

end KC
