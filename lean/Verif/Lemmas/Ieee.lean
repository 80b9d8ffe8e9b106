import Verif.Model.Ieee
import Verif.Lemmas.Near
import Verif.Lemmas.FlOps

/-!
# IEEE-754 arithmetic agrees with unbounded floating point in the normal range
-/

namespace KC

/-- zero, or of a size that is a normal number of every dtype -/
def InR (x : ℝ) : Prop := x = 0 ∨ (2 : ℝ) ^ (-126 : ℤ) ≤ |x| ∧ |x| ≤ 2 ^ (127 : ℤ)

theorem rd_two_zpow {p : Nat} (hp : 0 < p) (e : ℤ) : rd p ((2 : ℝ) ^ e) = 2 ^ e := by
  apply rd_float
  refine ⟨1, e, by simp, ?_⟩
  rw [abs_one]
  exact one_lt_pow₀ (by norm_num) (by omega)

theorem rd_abs {p : Nat} (x : ℝ) : |rd p x| = rd p |x| := by
  rcases le_total 0 x with h | h
  · rw [abs_of_nonneg h, abs_of_nonneg (rd_nonneg h)]
  · rw [abs_of_nonpos h, rd_neg, abs_of_nonpos]
    have := rd_nonneg (p := p) (neg_nonneg.mpr h)
    rw [rd_neg] at this; linarith

theorem InR.rd {p : Nat} (hp : 0 < p) {x : ℝ} (h : InR x) : InR (rd p x) := by
  rcases h with rfl | ⟨h1, h2⟩
  · exact Or.inl (rd_zero p)
  · refine Or.inr ⟨?_, ?_⟩
    · rw [rd_abs, ← rd_two_zpow hp (-126)]; exact rd_mono hp h1
    · rw [rd_abs, ← rd_two_zpow hp 127]; exact rd_mono hp h2

/-- in the normal range the exponent range does not matter -/
theorem rdIe_inR (d : DT) {x : ℝ} (h : InR x) : rdIe d x = .fin (rd d.prec x) := by
  have hp : 0 < d.prec := by have := d.prec_ge; omega
  have hy : (rne (x / 2 ^ max (ulpExp d.prec x) d.emin) * 2 ^ max (ulpExp d.prec x) d.emin : ℝ) = rd d.prec x := by
    rcases h with rfl | ⟨h1, h2⟩
    · have : rne 0 = 0 := by simpa using rne_int 0
      simp [this]
    · have hx : x ≠ 0 := by
        rintro rfl
        have := two_zpow_pos (-126)
        simp at h1
        linarith
      have hlog : -126 ≤ Int.log 2 |x| := by
        rw [← Int.zpow_le_iff_le_log (by norm_num) (abs_pos.mpr hx)]
        exact_mod_cast h1
      have : max (ulpExp d.prec x) d.emin = ulpExp d.prec x := by
        apply max_eq_left
        unfold ulpExp
        cases d <;> simp only [DT.prec, DT.emin] <;> omega
      rw [this]; rfl
  have hb : |rd d.prec x| < 2 ^ d.emax := by
    have h1 : |rd d.prec x| ≤ 2 ^ (127 : ℤ) := by
      rcases h.rd hp with h | ⟨_, h⟩
      · rw [h, abs_zero]; positivity
      · exact h
    refine lt_of_le_of_lt h1 ?_
    apply zpow_lt_zpow_right₀ (by norm_num)
    cases d <;> simp [DT.emax]
  rw [abs_lt] at hb
  simp only [rdIe, hy]
  rw [if_neg (by linarith [hb.2]), if_neg (by linarith [hb.1])]

/-- too large for the dtype -/
theorem rdIe_over (d : DT) {x : ℝ} (h : (2 : ℝ) ^ d.emax ≤ x) : rdIe d x = .pinf := by
  have hp : 0 < d.prec := by have := d.prec_ge; omega
  have hx : 0 < x := lt_of_lt_of_le (two_zpow_pos _) h
  have hlog : d.emax ≤ Int.log 2 |x| := by
    rw [← Int.zpow_le_iff_le_log (by norm_num) (abs_pos.mpr hx.ne'), abs_of_pos hx]
    exact_mod_cast h
  have : max (ulpExp d.prec x) d.emin = ulpExp d.prec x := by
    apply max_eq_left
    unfold ulpExp
    cases d <;> simp only [DT.prec, DT.emin, DT.emax] at * <;> omega
  have h2 : (2 : ℝ) ^ d.emax ≤ rd d.prec x := by
    rw [← rd_two_zpow hp d.emax]; exact rd_mono hp h
  simp only [rdIe, this]
  exact if_pos h2

theorem rdIe_f64_of_f32 {x : ℝ} (h : InR x) (hf : IsFloat 24 x) (d : DT) : rdIe d x = .fin x := by
  rw [rdIe_inR d h, rd_float (hf.mono d.prec_ge)]

/-- A finite number of a numpy dtype, in the normal range. -/
structure IeNum (a : Ie) (x : ℝ) : Prop where
  val : a.v = .fin x
  dt : a.dt ≠ .weak
  float : IsFloat a.dt.prec x
  inR : InR x

theorem IeNum.conv {a : Ie} {x : ℝ} (h : IeNum a x) {d : DT} (hd : a.dt.prec ≤ d.prec) : a.v.round d = .fin x := by
  rw [h.val]
  show rdIe d x = _
  rw [rdIe_inR d h.inR, rd_float (h.float.mono hd)]

theorem ie_op2 {f : XR → XR → XR} {a b : Ie} {x y z : ℝ} (ha : IeNum a x) (hb : IeNum b y) (hf : f (.fin x) (.fin y) = .fin z) (hz : InR z) :
    IeNum (Ie.op2 f a b) (rd (a.dt.join b.dt).prec z) := by
  have hp : 0 < (a.dt.join b.dt).prec := by have := (a.dt.join b.dt).prec_ge; omega
  refine ⟨?_, join_ne ha.dt, rd_isFloat hp _, hz.rd hp⟩
  show (f (a.v.round _) (b.v.round _)).round _ = _
  rw [ha.conv (prec_join_left ha.dt), hb.conv (prec_join_right hb.dt), hf]
  exact rdIe_inR _ hz

theorem ie_mul {a b : Ie} {x y : ℝ} (ha : IeNum a x) (hb : IeNum b y) (hz : InR (x * y)) : ∃ z, IeNum (a * b) z ∧ Near 1 (x * y) z ∧ (a * b).dt = a.dt.join b.dt :=
  ⟨_, ie_op2 ha hb rfl hz, near_rd (DT.prec_ge _) _, rfl⟩

theorem ie_div {a b : Ie} {x y : ℝ} (ha : IeNum a x) (hb : IeNum b y) (hy : y ≠ 0) (hz : InR (x / y)) :
    ∃ z, IeNum (a / b) z ∧ Near 1 (x / y) z ∧ (a / b).dt = a.dt.join b.dt :=
  ⟨_, ie_op2 ha hb (by simp [XR.div, hy]) hz, near_rd (DT.prec_ge _) _, rfl⟩

theorem lit_conv (q : ℚ) (hq : InR (q : ℝ)) (d : DT) : ((lit q : Ie).v).round d = .fin (rd d.prec (rd 53 q)) := by
  have h1 : (lit q : Ie).v = .fin (rd 53 q) := rdIe_inR .weak hq
  rw [h1]
  exact rdIe_inR d (hq.rd (by norm_num))

theorem lit_near (q : ℚ) (d : DT) : Near 2 (q : ℝ) (rd d.prec (rd 53 q)) := (near_rd (by norm_num) _).trans (near_rd d.prec_ge _)

/-- literal `op` number -/
theorem ie_op2_lit {f : XR → XR → XR} (q : ℚ) (hq : InR (q : ℝ)) {b : Ie} {y z : ℝ} (hb : IeNum b y)
    (hf : f (.fin (rd b.dt.prec (rd 53 q))) (.fin y) = .fin z) (hz : InR z) : IeNum (Ie.op2 f (lit q) b) (rd b.dt.prec z) := by
  have hj : (lit q : Ie).dt.join b.dt = b.dt := rfl
  have hp : 0 < b.dt.prec := by have := b.dt.prec_ge; omega
  refine ⟨?_, hb.dt, rd_isFloat hp _, hz.rd hp⟩
  show (f ((lit q : Ie).v.round ((lit q : Ie).dt.join b.dt)) (b.v.round ((lit q : Ie).dt.join b.dt))).round ((lit q : Ie).dt.join b.dt) = _
  rw [hj, lit_conv q hq, hb.conv le_rfl, hf]
  exact rdIe_inR _ hz

/-- number `op` literal -/
theorem ie_op2_lit' {f : XR → XR → XR} (q : ℚ) (hq : InR (q : ℝ)) {b : Ie} {y z : ℝ} (hb : IeNum b y)
    (hf : f (.fin y) (.fin (rd b.dt.prec (rd 53 q))) = .fin z) (hz : InR z) : IeNum (Ie.op2 f b (lit q)) (rd b.dt.prec z) := by
  have hj : b.dt.join (lit q : Ie).dt = b.dt := by
    have := hb.dt
    show b.dt.join .weak = b.dt
    cases h : b.dt <;> simp_all [DT.join]
  have hp : 0 < b.dt.prec := by have := b.dt.prec_ge; omega
  refine ⟨?_, ?_, ?_, hz.rd hp⟩
  · show (f (b.v.round (b.dt.join (lit q : Ie).dt)) ((lit q : Ie).v.round (b.dt.join (lit q : Ie).dt))).round (b.dt.join (lit q : Ie).dt) = _
    rw [hj, lit_conv q hq, hb.conv le_rfl, hf]
    exact rdIe_inR _ hz
  · show b.dt.join (lit q : Ie).dt ≠ _
    rw [hj]; exact hb.dt
  · show IsFloat (b.dt.join (lit q : Ie).dt).prec _
    rw [hj]; exact rd_isFloat hp _

theorem ie_dt_lit_left (q : ℚ) (f) (b : Ie) : (Ie.op2 f (lit q) b).dt = b.dt := rfl

theorem ie_dt_lit_right (q : ℚ) (f) {b : Ie} {y : ℝ} (hb : IeNum b y) : (Ie.op2 f b (lit q)).dt = b.dt := by
  show b.dt.join .weak = b.dt
  have := hb.dt
  cases h : b.dt <;> simp_all [DT.join]

theorem ie_f32 {a : Ie} {x : ℝ} (hv : a.v = .fin x) (hx : InR x) : ∃ z, IeNum (f32 a) z ∧ Near 1 x z ∧ (f32 a).dt = .f32 := by
  refine ⟨rd 24 x, ⟨?_, by show DT.f32 ≠ .weak; simp, rd_isFloat (p := 24) (by norm_num) x, hx.rd (by norm_num)⟩, near_rd le_rfl x, rfl⟩
  show (a.v).round .f32 = _
  rw [hv]
  exact rdIe_inR .f32 hx

/-- In the normal range from bounds with a factor of two to spare. -/
theorem Near.inR {k : Nat} (hk : k ≤ 100) {x a : ℝ} (h : Near k x a) (h1 : (2 : ℝ) ^ (-125 : ℤ) ≤ x) (h2 : x ≤ 2 ^ (126 : ℤ)) : InR a ∧ 0 < a := by
  have hx : 0 < x := lt_of_lt_of_le (two_zpow_pos _) h1
  obtain ⟨b1, b2⟩ := h.bounds hx.le
  have hom : (1 : ℝ) / 2 ≤ om ^ k := by
    have h100 : om ^ 100 ≤ om ^ k := pow_le_pow_of_le_one om_pos.le om_lt_one.le hk
    refine le_trans ?_ h100
    have := one_add_mul_le_pow (a := -uro 24) (by have := uro_le_one 24; linarith) 100
    have hu : uro 24 ≤ 1e-7 := by unfold uro; norm_num
    have e : om = 1 + -uro 24 := by unfold om; ring
    rw [e]
    push_cast at this
    linarith
  have hap : 0 < a := h.pos hx
  have ha1 : x / 2 ≤ a := by nlinarith
  have ha2 : a ≤ 2 * x := by nlinarith
  refine ⟨Or.inr ⟨?_, ?_⟩, hap⟩
  · rw [abs_of_pos hap]
    have : (2 : ℝ) ^ (-126 : ℤ) = 2 ^ (-125 : ℤ) / 2 := by norm_num
    rw [this]
    exact (div_le_div_of_nonneg_right h1 (by norm_num)).trans ha1
  · rw [abs_of_pos hap]
    have : (2 : ℝ) ^ (127 : ℤ) = 2 * 2 ^ (126 : ℤ) := by norm_num
    rw [this]
    exact ha2.trans (mul_le_mul_of_nonneg_left h2 (by norm_num))

/-! ### Rounding is idempotent -/

theorem rne_fix {x : ℝ} {n : ℤ} (h : x = n) : (rne x : ℝ) = x := by rw [h, rne_int]

theorem rdIe_idem (d : DT) {x y : ℝ} (h : rdIe d x = .fin y) : rdIe d y = .fin y := by
  have hp : 0 < d.prec := by have := d.prec_ge; omega
  set e := max (ulpExp d.prec x) d.emin with he
  have hdef : rdIe d x = if 2 ^ d.emax ≤ (rne (x / 2 ^ e) * 2 ^ e : ℝ) then .pinf else if (rne (x / 2 ^ e) * 2 ^ e : ℝ) ≤ -2 ^ d.emax then .ninf
      else .fin (rne (x / 2 ^ e) * 2 ^ e) := rfl
  rw [hdef] at h
  split at h
  · cases h
  rename_i h1
  split at h
  · cases h
  rename_i h2
  have hy : (rne (x / 2 ^ e) : ℝ) * 2 ^ e = y := by simpa using h
  -- y is a multiple of the last place of its own
  have hmul : ∃ k : ℤ, y = k * 2 ^ max (ulpExp d.prec y) d.emin := by
    by_cases hy0 : y = 0
    · exact ⟨0, by simp [hy0]⟩
    by_cases hle : ulpExp d.prec y ≤ e
    · have hm : max (ulpExp d.prec y) d.emin ≤ e := max_le hle (le_max_right _ _)
      obtain ⟨j, hj⟩ := Int.eq_ofNat_of_zero_le (sub_nonneg.mpr hm)
      refine ⟨rne (x / 2 ^ e) * 2 ^ j, ?_⟩
      have : e = max (ulpExp d.prec y) d.emin + j := by omega
      have hpw : (2 : ℝ) ^ e = 2 ^ max (ulpExp d.prec y) d.emin * 2 ^ j := by
        conv_lhs => rw [this, zpow_add₀ (by norm_num), zpow_natCast]
      have hy' : y = (rne (x / 2 ^ e) : ℝ) * (2 ^ max (ulpExp d.prec y) d.emin * 2 ^ j) := by rw [← hpw, hy]
      push_cast
      linarith
    · push Not at hle
      -- the value is the power of two at the top of its binade
      have hlog : e + d.prec ≤ Int.log 2 |y| := by unfold ulpExp at hle; omega
      have hbig : (2 : ℝ) ^ (e + d.prec) ≤ |y| := by
        refine le_trans ?_ (log_bounds hy0).1
        exact zpow_le_zpow_right₀ (by norm_num) hlog
      have hx0 : x ≠ 0 := by
        rintro rfl
        have : rne (0 : ℝ) = 0 := by simpa using rne_int 0
        rw [zero_div, this] at hy
        simp at hy
        exact hy0 hy.symm
      have hsmall : |y| ≤ 2 ^ (e + d.prec) := by
        have hx : |x| ≤ 2 ^ (e + d.prec) := by
          refine (log_bounds hx0).2.le.trans (zpow_le_zpow_right₀ (by norm_num) ?_)
          have : ulpExp d.prec x ≤ e := le_max_left _ _
          unfold ulpExp at this
          omega
        have hq : |x / 2 ^ e| ≤ 2 ^ d.prec := by
          rw [abs_div, abs_of_pos (two_zpow_pos e), div_le_iff₀ (two_zpow_pos e)]
          rw [zpow_add₀ (by norm_num), zpow_natCast] at hx
          linarith
        have hr : |(rne (x / 2 ^ e) : ℝ)| ≤ 2 ^ d.prec := by
          rw [abs_le] at hq ⊢
          have a1 := rne_mono hq.1
          have a2 := rne_mono hq.2
          have c1 : rne ((2 : ℝ) ^ d.prec) = 2 ^ d.prec := by
            have := rne_int (2 ^ d.prec)
            push_cast at this
            exact this
          rw [rne_neg, c1] at a1
          rw [c1] at a2
          constructor
          · exact_mod_cast a1
          · exact_mod_cast a2
        rw [← hy, abs_mul, abs_of_pos (two_zpow_pos e), zpow_add₀ (by norm_num), zpow_natCast, mul_comm]
        exact mul_le_mul_of_nonneg_left hr (two_zpow_pos e).le
      have heq : |y| = 2 ^ (e + d.prec) := le_antisymm hsmall hbig
      have hlog' : Int.log 2 |y| = e + d.prec := by
        rw [heq]; exact_mod_cast Int.log_zpow (R := ℝ) (b := 2) (by norm_num) (e + d.prec)
      have hue : ulpExp d.prec y = e + 1 := by unfold ulpExp; rw [hlog']; ring
      have hmx : max (ulpExp d.prec y) d.emin = e + 1 := by
        rw [hue]
        have := le_max_right (ulpExp d.prec x) d.emin
        omega
      have hpow : (2 : ℝ) ^ (e + (d.prec : ℤ)) = (2 : ℝ) ^ (d.prec - 1) * 2 ^ (e + 1) := by
        rw [← zpow_natCast, ← zpow_add₀ (by norm_num)]
        congr 1
        omega
      rw [hmx]
      rcases abs_eq (by positivity) |>.mp heq with h | h
      · exact ⟨2 ^ (d.prec - 1), by rw [h, hpow]; push_cast; ring⟩
      · exact ⟨-2 ^ (d.prec - 1), by rw [h, hpow]; push_cast; ring⟩
  obtain ⟨k, hk⟩ := hmul
  have hfix : (rne (y / 2 ^ max (ulpExp d.prec y) d.emin) : ℝ) * 2 ^ max (ulpExp d.prec y) d.emin = y := by
    have h2e := two_zpow_pos (max (ulpExp d.prec y) d.emin)
    rw [rne_fix (n := k), div_mul_cancel₀ _ h2e.ne']
    rw [div_eq_iff h2e.ne', ← hk]
  have hdef' : rdIe d y = if 2 ^ d.emax ≤ (rne (y / 2 ^ max (ulpExp d.prec y) d.emin) * 2 ^ max (ulpExp d.prec y) d.emin : ℝ) then .pinf
      else if (rne (y / 2 ^ max (ulpExp d.prec y) d.emin) * 2 ^ max (ulpExp d.prec y) d.emin : ℝ) ≤ -2 ^ d.emax then .ninf
      else .fin (rne (y / 2 ^ max (ulpExp d.prec y) d.emin) * 2 ^ max (ulpExp d.prec y) d.emin) := rfl
  rw [hdef', hfix, if_neg (by rw [← hy]; exact h1), if_neg (by rw [← hy]; exact h2)]

theorem round_round (d : DT) (x : XR) : (x.round d).round d = x.round d := by
  cases x with
  | fin x =>
    show XR.round d (rdIe d x) = rdIe d x
    cases h : rdIe d x with
    | fin y => exact rdIe_idem d h
    | _ => rfl
  | _ => rfl

/-- storing a float32 value in a float32 array changes nothing -/
theorem ie_f32_idem (x : XR) : (f32 (⟨x.round .f32, .f32⟩ : Ie)) = ⟨x.round .f32, .f32⟩ := by
  show (⟨(x.round .f32).round .f32, .f32⟩ : Ie) = _
  rw [round_round]

end KC
