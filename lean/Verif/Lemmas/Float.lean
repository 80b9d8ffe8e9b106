import Verif.Model.Float
import Mathlib.Tactic.Linarith
import Mathlib.Tactic.NormNum
import Mathlib.Tactic.Positivity
import Mathlib.Tactic.Ring
import Mathlib.Tactic.FieldSimp

/-!
# Rounding to a fixed number of bits
-/

namespace KC

/-! ### nearest integer -/

theorem rne_spec (x : ℝ) : |x - rne x| ≤ 1 / 2 ∧ (|x - rne x| = 1 / 2 → Even (rne x)) := by
  have h1 := Int.floor_le x
  have h2 := Int.lt_floor_add_one x
  unfold rne
  split_ifs with a b c
  · rw [abs_of_nonneg (by linarith)]
    exact ⟨a.le, fun h => absurd h a.ne⟩
  · push_cast
    rw [abs_of_nonpos (by linarith)]
    exact ⟨by linarith, fun h => by linarith⟩
  · rw [abs_of_nonneg (by linarith)]
    exact ⟨by linarith, fun _ => c⟩
  · push_cast
    rw [abs_of_nonpos (by linarith)]
    exact ⟨by linarith, fun _ => (Int.not_even_iff_odd.mp c).add_one⟩

theorem rne_unique {x : ℝ} {n : ℤ} (h : |x - n| ≤ 1 / 2) (he : |x - n| = 1 / 2 → Even n) : rne x = n := by
  obtain ⟨h', he'⟩ := rne_spec x
  by_contra hne
  have h1 := abs_le.mp h
  have h2 := abs_le.mp h'
  rcases lt_or_gt_of_ne hne with hlt | hlt
  · have hc : ((rne x : ℤ) : ℝ) + 1 ≤ n := by exact_mod_cast hlt
    have ea : |x - n| = 1 / 2 := by rw [abs_of_nonpos (by linarith)]; linarith
    have eb : |x - rne x| = 1 / 2 := by rw [abs_of_nonneg (by linarith)]; linarith
    have hn : n = rne x + 1 := by
      have : (n : ℝ) = rne x + 1 := by
        rw [abs_of_nonpos (by linarith)] at ea
        rw [abs_of_nonneg (by linarith)] at eb
        linarith
      exact_mod_cast this
    have := he ea
    rw [hn] at this
    exact (Int.not_even_iff_odd.mpr (he' eb).add_one) this
  · have hc : (n : ℝ) + 1 ≤ rne x := by exact_mod_cast hlt
    have ea : |x - n| = 1 / 2 := by rw [abs_of_nonneg (by linarith)]; linarith
    have eb : |x - rne x| = 1 / 2 := by rw [abs_of_nonpos (by linarith)]; linarith
    have hn : rne x = n + 1 := by
      have : (rne x : ℝ) = n + 1 := by
        rw [abs_of_nonneg (by linarith)] at ea
        rw [abs_of_nonpos (by linarith)] at eb
        linarith
      exact_mod_cast this
    have := he' eb
    rw [hn] at this
    exact (Int.not_even_iff_odd.mpr (he ea).add_one) this

theorem rne_int (n : ℤ) : rne (n : ℝ) = n := rne_unique (by simp) (by simp)

theorem rne_neg (x : ℝ) : rne (-x) = -rne x := by
  obtain ⟨h, he⟩ := rne_spec x
  have : |(-x) - ((-rne x : ℤ) : ℝ)| = |x - rne x| := by
    rw [← abs_neg]
    congr 1
    push_cast
    ring
  exact rne_unique (this ▸ h) (fun e => (he (this ▸ e)).neg)

theorem rne_mono {x y : ℝ} (h : x ≤ y) : rne x ≤ rne y := by
  by_contra hc
  have hc : rne y + 1 ≤ rne x := by omega
  have hc' : (rne y : ℝ) + 1 ≤ rne x := by exact_mod_cast hc
  have h1 := abs_le.mp (rne_spec x).1
  have h2 := abs_le.mp (rne_spec y).1
  have : x = y := by linarith
  subst this
  linarith

/-! ### rounding -/

theorem two_zpow_pos (e : ℤ) : (0 : ℝ) < 2 ^ e := zpow_pos (by norm_num) e

@[simp] theorem rd_zero (p : Nat) : rd p 0 = 0 := by
  unfold rd
  have : rne (0 : ℝ) = 0 := by simpa using rne_int 0
  simp [this]

theorem rd_neg (p : Nat) (x : ℝ) : rd p (-x) = -rd p x := by
  unfold rd ulpExp
  rw [abs_neg, neg_div, rne_neg]
  push_cast
  ring

theorem log_bounds {x : ℝ} (hx : x ≠ 0) : (2 : ℝ) ^ Int.log 2 |x| ≤ |x| ∧ |x| < 2 ^ (Int.log 2 |x| + 1) := by
  refine ⟨?_, ?_⟩
  · have := Int.zpow_log_le_self (b := 2) (r := |x|) (by norm_num) (abs_pos.mpr hx)
    exact_mod_cast this
  · have := Int.lt_zpow_succ_log_self (b := 2) (by norm_num) |x|
    exact_mod_cast this

theorem log_eq {x : ℝ} {e : ℤ} (h1 : (2 : ℝ) ^ e ≤ |x|) (h2 : |x| < 2 ^ (e + 1)) : Int.log 2 |x| = e := by
  have hx : 0 < |x| := lt_of_lt_of_le (two_zpow_pos e) h1
  have a : e ≤ Int.log 2 |x| := (Int.zpow_le_iff_le_log (b := 2) (by norm_num) hx).mp (by exact_mod_cast h1)
  have b : Int.log 2 |x| < e + 1 := (Int.lt_zpow_iff_log_lt (b := 2) (by norm_num) hx).mp (by exact_mod_cast h2)
  omega

/-- the rounded value of a number whose exponent is known -/
theorem rd_eq {p : Nat} {x : ℝ} {e n : ℤ} (h1 : (2 : ℝ) ^ e ≤ |x|) (h2 : |x| < 2 ^ (e + 1)) (h : |x - n * 2 ^ (e - p + 1)| < 2 ^ (e - p)) :
    rd p x = n * 2 ^ (e - p + 1) := by
  have hl := log_eq h1 h2
  unfold rd ulpExp
  rw [hl]
  congr 2
  have hp := two_zpow_pos (e - p + 1)
  have hlt : |x / 2 ^ (e - p + 1) - n| < 1 / 2 := by
    have : x / 2 ^ (e - p + 1) - n = (x - n * 2 ^ (e - p + 1)) / 2 ^ (e - p + 1) := by field_simp
    rw [this, abs_div, abs_of_pos hp, div_lt_iff₀ hp]
    have e2 : (2 : ℝ) ^ (e - p + 1) = 2 ^ (e - p) * 2 := zpow_add_one₀ (by norm_num) _
    calc _ < (2 : ℝ) ^ (e - p) := h
      _ = _ := by rw [e2]; ring
  exact rne_unique hlt.le (fun he => absurd he hlt.ne)

/-- the same for ties -/
theorem rd_eq_tie {p : Nat} {x : ℝ} {e n : ℤ} (h1 : (2 : ℝ) ^ e ≤ |x|) (h2 : |x| < 2 ^ (e + 1)) (h : |x - n * 2 ^ (e - p + 1)| ≤ 2 ^ (e - p)) (hn : Even n) :
    rd p x = n * 2 ^ (e - p + 1) := by
  have hl := log_eq h1 h2
  unfold rd ulpExp
  rw [hl]
  congr 2
  have hp := two_zpow_pos (e - p + 1)
  have hle : |x / 2 ^ (e - p + 1) - n| ≤ 1 / 2 := by
    have : x / 2 ^ (e - p + 1) - n = (x - n * 2 ^ (e - p + 1)) / 2 ^ (e - p + 1) := by field_simp
    rw [this, abs_div, abs_of_pos hp, div_le_iff₀ hp]
    have e2 : (2 : ℝ) ^ (e - p + 1) = 2 ^ (e - p) * 2 := zpow_add_one₀ (by norm_num) _
    calc _ ≤ (2 : ℝ) ^ (e - p) := h
      _ = _ := by rw [e2]; ring
  exact rne_unique hle (fun _ => hn)

/-- half a unit in the last place -/
theorem rd_half_ulp (p : Nat) (x : ℝ) : |rd p x - x| ≤ 2 ^ ulpExp p x / 2 := by
  unfold rd
  set t : ℝ := 2 ^ ulpExp p x
  have ht : 0 < t := two_zpow_pos _
  have h := (rne_spec (x / t)).1
  have e : rne (x / t) * t - x = -((x / t - rne (x / t)) * t) := by field_simp; ring
  rw [e, abs_neg, abs_mul, abs_of_pos ht]
  nlinarith

/-- the unit roundoff: relative error of one rounding to `p` bits -/
noncomputable def uro (p : Nat) : ℝ := 1 / 2 ^ p

theorem uro_pos (p : Nat) : 0 < uro p := by unfold uro; positivity

theorem uro_le_one (p : Nat) : uro p ≤ 1 := by
  unfold uro
  rw [div_le_one (by positivity)]
  exact one_le_pow₀ (by norm_num)

theorem ulp_le {p : Nat} {x : ℝ} (hx : x ≠ 0) : (2 : ℝ) ^ ulpExp p x / 2 ≤ uro p * |x| := by
  have h := (log_bounds hx).1
  unfold ulpExp uro
  have : (2 : ℝ) ^ (Int.log 2 |x| - p + 1) / 2 = 1 / 2 ^ p * 2 ^ Int.log 2 |x| := by
    rw [zpow_add_one₀ (by norm_num), zpow_sub₀ (by norm_num), zpow_natCast]
    field_simp
  rw [this]
  exact mul_le_mul_of_nonneg_left h (by positivity)

theorem rd_err (p : Nat) (x : ℝ) : |rd p x - x| ≤ uro p * |x| := by
  by_cases hx : x = 0
  · subst hx; simp
  · exact (rd_half_ulp p x).trans (ulp_le hx)

/-- A number of `p` significant bits. -/
def IsFloat (p : Nat) (x : ℝ) : Prop := ∃ n e : ℤ, x = n * 2 ^ e ∧ |n| < 2 ^ p

theorem isFloat_zero (p : Nat) : IsFloat p 0 := ⟨0, 0, by simp, by positivity⟩

theorem IsFloat.neg {p : Nat} {x : ℝ} (h : IsFloat p x) : IsFloat p (-x) := by
  obtain ⟨n, e, rfl, hn⟩ := h
  exact ⟨-n, e, by push_cast; ring, by simpa using hn⟩

theorem isFloat_neg {p : Nat} {x : ℝ} : IsFloat p (-x) ↔ IsFloat p x := ⟨fun h => by simpa using h.neg, IsFloat.neg⟩

/-- A float is a multiple of the last place of every number that is not larger. -/
theorem IsFloat.multiple {p : Nat} {x y : ℝ} (h : IsFloat p y) (hx : x ≠ 0) (hy : (2 : ℝ) ^ Int.log 2 |x| ≤ |y|) : ∃ m : ℤ, y = m * 2 ^ ulpExp p x := by
  obtain ⟨n, e, rfl, hn⟩ := h
  have hle : ulpExp p x ≤ e := by
    by_contra hc
    push Not at hc
    unfold ulpExp at hc
    have h2 := two_zpow_pos e
    have hn' : (|n| : ℝ) + 1 ≤ 2 ^ p := by
      have : |n| + 1 ≤ 2 ^ p := hn
      exact_mod_cast this
    rw [abs_mul, abs_of_pos h2] at hy
    have h3 : (2 : ℝ) ^ (e + p) ≤ 2 ^ Int.log 2 |x| := zpow_le_zpow_right₀ (by norm_num) (by omega)
    rw [zpow_add₀ (by norm_num), zpow_natCast] at h3
    nlinarith
  obtain ⟨k, hk⟩ := Int.le.dest hle
  refine ⟨n * 2 ^ k, ?_⟩
  rw [← hk, zpow_add₀ (by norm_num)]
  push_cast
  rw [zpow_natCast]
  ring

theorem rd_float {p : Nat} {x : ℝ} (h : IsFloat p x) : rd p x = x := by
  by_cases hx : x = 0
  · subst hx; simp
  · obtain ⟨m, hm⟩ := h.multiple hx (log_bounds hx).1
    unfold rd
    set t : ℝ := 2 ^ ulpExp p x with ht
    have hp : 0 < t := two_zpow_pos _
    have : x / t = m := by rw [hm]; field_simp
    rw [this, rne_int]
    exact hm.symm

theorem rd_abs_bounds {p : Nat} (hp : 0 < p) {x : ℝ} (hx : x ≠ 0) : (2 : ℝ) ^ Int.log 2 |x| ≤ |rd p x| ∧ |rd p x| ≤ 2 ^ (Int.log 2 |x| + 1) := by
  wlog h0 : 0 < x generalizing x
  · have := this (x := -x) (by simpa using hx) (by
      have : x < 0 := lt_of_le_of_ne (not_lt.mp h0) hx
      linarith)
    rwa [rd_neg, abs_neg, abs_neg] at this
  obtain ⟨h1, h2⟩ := log_bounds hx
  set e := Int.log 2 |x| with he
  rw [abs_of_pos h0] at h1 h2
  set t : ℝ := 2 ^ ulpExp p x with ht
  have htp : 0 < t := two_zpow_pos _
  have key : ∀ k : ℤ, 0 ≤ k - (ulpExp p x) → ∃ m : ℤ, (2 : ℝ) ^ k / t = m := by
    intro k hk
    obtain ⟨j, hj⟩ := Int.eq_ofNat_of_zero_le hk
    refine ⟨2 ^ j, ?_⟩
    rw [ht, ← zpow_sub₀ (by norm_num), hj]
    push_cast
    rw [zpow_natCast]
  obtain ⟨a, ha⟩ := key e (by unfold ulpExp; omega)
  obtain ⟨b, hb⟩ := key (e + 1) (by unfold ulpExp; omega)
  have l1 : a ≤ rne (x / t) := by
    rw [← rne_int a, ← ha]
    exact rne_mono (by gcongr)
  have l2 : rne (x / t) ≤ b := by
    rw [← rne_int b, ← hb]
    exact rne_mono (by gcongr)
  have l1' : (a : ℝ) ≤ rne (x / t) := by exact_mod_cast l1
  have l2' : (rne (x / t) : ℝ) ≤ b := by exact_mod_cast l2
  rw [← ha, div_le_iff₀ htp] at l1'
  rw [← hb, le_div_iff₀ htp] at l2'
  have hr : rd p x = rne (x / t) * t := rfl
  rw [hr, abs_of_nonneg ((two_zpow_pos e).le.trans l1')]
  exact ⟨l1', l2'⟩

theorem rd_isFloat {p : Nat} (hp : 0 < p) (x : ℝ) : IsFloat p (rd p x) := by
  by_cases hx : x = 0
  · subst hx; simpa using isFloat_zero p
  · obtain ⟨_, h2⟩ := rd_abs_bounds hp hx
    have hr : rd p x = rne (x / 2 ^ ulpExp p x) * 2 ^ ulpExp p x := rfl
    set m := rne (x / 2 ^ ulpExp p x) with hm
    have ht := two_zpow_pos (ulpExp p x)
    have hm2 : |m| ≤ 2 ^ p := by
      rw [hr, abs_mul, abs_of_pos ht] at h2
      have e : (2 : ℝ) ^ (Int.log 2 |x| + 1) = 2 ^ p * 2 ^ ulpExp p x := by
        rw [← zpow_natCast, ← zpow_add₀ (by norm_num)]
        congr 1
        unfold ulpExp
        omega
      rw [e] at h2
      have := le_of_mul_le_mul_right h2 ht
      exact_mod_cast this
    rcases lt_or_eq_of_le hm2 with hlt | heq
    · exact ⟨m, _, hr, hlt⟩
    · rcases abs_eq (by positivity) |>.mp heq with h | h
      · refine ⟨1, p + ulpExp p x, ?_, ?_⟩
        · rw [hr, h, zpow_add₀ (by norm_num)]; push_cast; rw [zpow_natCast]; ring
        · rw [abs_one]; exact one_lt_pow₀ (by norm_num) hp.ne'
      · refine ⟨-1, p + ulpExp p x, ?_, ?_⟩
        · rw [hr, h, zpow_add₀ (by norm_num)]; push_cast; rw [zpow_natCast]; ring
        · rw [abs_neg, abs_one]; exact one_lt_pow₀ (by norm_num) hp.ne'

theorem rd_rd {p : Nat} (hp : 0 < p) (x : ℝ) : rd p (rd p x) = rd p x := rd_float (rd_isFloat hp x)

theorem rd_nonneg {p : Nat} {x : ℝ} (hx : 0 ≤ x) : 0 ≤ rd p x := by
  unfold rd
  have : (0 : ℤ) ≤ rne (x / 2 ^ ulpExp p x) := by
    rw [← rne_int 0]
    exact rne_mono (by push_cast; positivity)
  have : (0 : ℝ) ≤ rne (x / 2 ^ ulpExp p x) := by exact_mod_cast this
  positivity

theorem rd_pos {p : Nat} (hp : 0 < p) {x : ℝ} (hx : 0 < x) : 0 < rd p x := by
  have h := (rd_abs_bounds hp hx.ne').1
  rw [abs_of_nonneg (rd_nonneg hx.le)] at h
  exact lt_of_lt_of_le (two_zpow_pos _) h

theorem rd_mono {p : Nat} (hp : 0 < p) {x y : ℝ} (h : x ≤ y) : rd p x ≤ rd p y := by
  have pos : ∀ {x y : ℝ}, 0 < x → x ≤ y → rd p x ≤ rd p y := by
    intro x y hx h
    have hy : 0 < y := lt_of_lt_of_le hx h
    have hl : Int.log 2 |x| ≤ Int.log 2 |y| := Int.log_mono_right (abs_pos.mpr hx.ne') (by rwa [abs_of_pos hx, abs_of_pos hy])
    rcases lt_or_eq_of_le hl with hlt | heq
    · have h1 := (rd_abs_bounds hp hx.ne').2
      have h2 := (rd_abs_bounds hp hy.ne').1
      rw [abs_of_nonneg (rd_nonneg hx.le)] at h1
      rw [abs_of_nonneg (rd_nonneg hy.le)] at h2
      exact h1.trans ((zpow_le_zpow_right₀ (by norm_num) (by omega)).trans h2)
    · unfold rd ulpExp
      rw [heq]
      have ht := two_zpow_pos (Int.log 2 |y| - p + 1)
      have := rne_mono (div_le_div_of_nonneg_right h ht.le)
      have : (rne (x / 2 ^ (Int.log 2 |y| - p + 1)) : ℝ) ≤ rne (y / 2 ^ (Int.log 2 |y| - p + 1)) := by exact_mod_cast this
      gcongr
  rcases lt_trichotomy x 0 with hx | hx | hx
  · rcases lt_or_ge y 0 with hy | hy
    · have := pos (x := -y) (y := -x) (by linarith) (by linarith)
      rw [rd_neg, rd_neg] at this
      linarith
    · have h1 : 0 ≤ rd p (-x) := rd_nonneg (by linarith)
      rw [rd_neg] at h1
      have h2 : 0 ≤ rd p y := rd_nonneg hy
      linarith
  · subst hx
    rw [rd_zero]
    exact rd_nonneg h
  · exact pos hx h

/-- The rounded value is a nearest one among the numbers of `p` bits. -/
theorem rd_nearest {p : Nat} (hp : 0 < p) (x : ℝ) {y : ℝ} (hy : IsFloat p y) : |rd p x - x| ≤ |y - x| := by
  by_cases hx : x = 0
  · subst hx; simp
  wlog h0 : 0 < x generalizing x y
  · have := this (-x) hy.neg (by simpa using hx) (by
      have : x < 0 := lt_of_le_of_ne (not_lt.mp h0) hx
      linarith)
    rw [rd_neg] at this
    have e1 : |-rd p x - -x| = |rd p x - x| := by rw [← abs_neg]; ring_nf
    have e2 : |-y - -x| = |y - x| := by rw [← abs_neg]; ring_nf
    rwa [e1, e2] at this
  obtain ⟨h1, h2⟩ := log_bounds hx
  have near : ∀ m : ℤ, |rd p x - x| ≤ |m * 2 ^ ulpExp p x - x| := by
    intro m
    unfold rd
    set t : ℝ := 2 ^ ulpExp p x
    have ht : 0 < t := two_zpow_pos _
    have hm : ∀ k : ℤ, |(k : ℝ) * t - x| = |x / t - k| * t := by
      intro k
      rw [← abs_of_pos ht, ← abs_mul, abs_of_pos ht, ← abs_neg]
      congr 1
      field_simp
      ring
    rw [hm, hm]
    refine mul_le_mul_of_nonneg_right ?_ ht.le
    by_contra hc
    push Not at hc
    have a := (rne_spec (x / t)).1
    have b : |x / t - m| < 1 / 2 := lt_of_lt_of_le hc a
    have : rne (x / t) = m := rne_unique b.le (fun h => absurd h b.ne)
    rw [this] at hc
    exact lt_irrefl _ hc
  by_cases hc : (2 : ℝ) ^ Int.log 2 |x| ≤ |y|
  · obtain ⟨m, hm⟩ := hy.multiple hx hc
    rw [hm]
    exact near m
  · push Not at hc
    have hk : ulpExp p x ≤ Int.log 2 |x| := by unfold ulpExp; omega
    obtain ⟨k, hk⟩ := Int.le.dest hk
    have := near (2 ^ k)
    have e : (((2 ^ k : ℤ)) : ℝ) * 2 ^ ulpExp p x = 2 ^ Int.log 2 |x| := by
      rw [← hk, zpow_add₀ (by norm_num), zpow_natCast]
      push_cast
      ring
    rw [e] at this
    refine this.trans ?_
    have hy' : y < 2 ^ Int.log 2 |x| := lt_of_le_of_lt (le_abs_self y) hc
    have h3 : (2 : ℝ) ^ Int.log 2 |x| ≤ x := h1.trans (abs_of_pos h0).le
    generalize (2 : ℝ) ^ Int.log 2 |x| = q at hy' h3
    rw [abs_of_nonpos (by linarith), abs_of_nonpos (by linarith)]
    linarith

/-- Fewer bits are more bits. -/
theorem IsFloat.mono {p q : Nat} (h : p ≤ q) {x : ℝ} (hx : IsFloat p x) : IsFloat q x := by
  obtain ⟨n, e, h1, h2⟩ := hx
  exact ⟨n, e, h1, lt_of_lt_of_le h2 (pow_le_pow_right₀ (by norm_num) h)⟩

end KC
