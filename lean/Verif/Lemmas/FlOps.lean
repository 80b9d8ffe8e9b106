import Verif.Props.FloatGrid

/-!
# Operations on numpy floats, up to rounding
-/

namespace KC

/-- a numpy float: a float32 or float64 number, not a Python float -/
def Fl.Num (a : Fl) : Prop := a.Ok ∧ a.dt ≠ .weak

theorem DT.prec_ge (d : DT) : 24 ≤ d.prec := by cases d <;> simp [DT.prec]

theorem join_ne {a b : DT} (ha : a ≠ .weak) : a.join b ≠ .weak := by
  cases a <;> cases b <;> simp_all [DT.join]

theorem join_ne' {a b : DT} (hb : b ≠ .weak) : a.join b ≠ .weak := by
  cases a <;> cases b <;> simp_all [DT.join]

theorem prec_join_left {a b : DT} (ha : a ≠ .weak) : a.prec ≤ (a.join b).prec := by
  cases a <;> cases b <;> simp_all [DT.join, DT.prec]

theorem prec_join_right {a b : DT} (hb : b ≠ .weak) : b.prec ≤ (a.join b).prec := by
  cases a <;> cases b <;> simp_all [DT.join, DT.prec]

theorem f32_num (a : Fl) : (f32 a).Num := ⟨isFloat_rd24 _, by simp [fl_f32]⟩

theorem op2_num (f : ℝ → ℝ → ℝ) {a b : Fl} (ha : a.dt ≠ .weak ∨ b.dt ≠ .weak) : (Fl.op2 f a b).Num := by
  refine ⟨rd_isFloat (lt_of_lt_of_le (by norm_num) (DT.prec_ge _)) _, ?_⟩
  rcases ha with h | h
  · exact join_ne h
  · exact join_ne' h

/-- two numpy floats: no rounding of the operands -/
theorem op2_val (f : ℝ → ℝ → ℝ) {a b : Fl} (ha : a.Num) (hb : b.Num) :
    (Fl.op2 f a b).val = rd (a.dt.join b.dt).prec (f a.val b.val) := by
  simp only [Fl.op2]
  rw [rd_float (ha.1.mono (prec_join_left ha.2)), rd_float (hb.1.mono (prec_join_right hb.2))]

/-- a Python float that float32 represents, and a numpy float -/
theorem op2_val_lit (f : ℝ → ℝ → ℝ) {x : ℝ} {b : Fl} (hx : IsFloat 24 x) (hb : b.Num) :
    (Fl.op2 f ⟨x, .weak⟩ b).val = rd b.dt.prec (f x b.val) := by
  have e : DT.join .weak b.dt = b.dt := by cases b.dt <;> rfl
  simp only [Fl.op2, e]
  rw [rd_float (hx.mono (DT.prec_ge _)), rd_float hb.1]

theorem mul_num {a b : Fl} (ha : a.Num) (hb : b.Num) : (a * b).Num ∧ Near 1 (a.val * b.val) (a * b).val :=
  ⟨op2_num _ (Or.inl ha.2), by rw [fl_mul, op2_val _ ha hb]; exact near_rd (DT.prec_ge _) _⟩

theorem div_num {a b : Fl} (ha : a.Num) (hb : b.Num) : (a / b).Num ∧ Near 1 (a.val / b.val) (a / b).val :=
  ⟨op2_num _ (Or.inl ha.2), by rw [fl_div, op2_val _ ha hb]; exact near_rd (DT.prec_ge _) _⟩

theorem add_num {a b : Fl} (ha : a.Num) (hb : b.Num) : (a + b).Num ∧ Near 1 (a.val + b.val) (a + b).val :=
  ⟨op2_num _ (Or.inl ha.2), by rw [fl_add, op2_val _ ha hb]; exact near_rd (DT.prec_ge _) _⟩

theorem sub_num {a b : Fl} (ha : a.Num) (hb : b.Num) : (a - b).Num ∧ Near 1 (a.val - b.val) (a - b).val :=
  ⟨op2_num _ (Or.inl ha.2), by rw [fl_sub, op2_val _ ha hb]; exact near_rd (DT.prec_ge _) _⟩

theorem lit_one : (lit 1 : Fl) = ⟨1, .weak⟩ := by simpa using lit_nat (n := 1) (by norm_num)

theorem isFloat_one : IsFloat 24 1 := by simpa using isFloat_nat (p := 24) (n := 1) (by norm_num) (by norm_num)

theorem one_div_num {b : Fl} (hb : b.Num) : (lit 1 / b : Fl).Num ∧ Near 1 (1 / b.val) (lit 1 / b : Fl).val := by
  refine ⟨op2_num _ (Or.inr hb.2), ?_⟩
  rw [fl_div, lit_one, op2_val_lit _ isFloat_one hb]
  exact near_rd (DT.prec_ge _) _

/-- a Python float, rounded to the precision of the array it meets -/
theorem lit_mul_num (q : ℚ) {b : Fl} (hb : b.Num) : (lit q * b : Fl).Num ∧ Near 3 (q * b.val) (lit q * b : Fl).val := by
  refine ⟨op2_num _ (Or.inr hb.2), ?_⟩
  have e : DT.join .weak b.dt = b.dt := by cases b.dt <;> rfl
  rw [fl_mul, fl_lit]
  simp only [Fl.op2, e]
  rw [rd_float hb.1]
  have h1 : Near 2 (q : ℝ) (rd b.dt.prec (rd 53 q)) := (near_rd (by norm_num) _).trans (near_rd (DT.prec_ge _) _)
  exact ((h1.mul (Near.refl b.val)).trans (near_rd (DT.prec_ge _) _))

theorem abs_num {a : Fl} (ha : a.Num) : (Arith.abs a : Fl).Num ∧ (Arith.abs a : Fl).val = |a.val| := by
  refine ⟨⟨?_, ha.2⟩, rfl⟩
  show IsFloat a.dt.prec |a.val|
  rcases abs_choice a.val with h | h
  · rw [h]; exact ha.1
  · rw [h]; exact ha.1.neg

theorem neg_num {a : Fl} (ha : a.Num) : (-a).Num ∧ (-a).val = -a.val := ⟨⟨ha.1.neg, ha.2⟩, rfl⟩

theorem DT.np_num {d : DT} (h : d ≠ .weak) : d.np = d := by cases d <;> first | exact absurd rfl h | rfl

theorem op1_num {a : Fl} (ha : a.Num) (f : ℝ → ℝ) : (Fl.op1 f a).Num ∧ Near 1 (f a.val) (Fl.op1 f a).val := by
  unfold Fl.op1
  rw [DT.np_num ha.2]
  exact ⟨⟨rd_isFloat (lt_of_lt_of_le (by norm_num) (DT.prec_ge _)) _, ha.2⟩, near_rd (DT.prec_ge _) _⟩

theorem sqrt_num {a : Fl} (ha : a.Num) : (Arith.sqrt a : Fl).Num ∧ Near 1 (Real.sqrt a.val) (Arith.sqrt a : Fl).val := op1_num ha _

theorem pow10_num {a : Fl} (ha : a.Num) : (pow10 a : Fl).Num ∧ Near 1 ((10 : ℝ) ^ a.val) (pow10 a : Fl).val :=
  ⟨⟨rd_isFloat (lt_of_lt_of_le (by norm_num) (DT.prec_ge _)) _, ha.2⟩, near_rd (DT.prec_ge _) _⟩

theorem f32_near (a : Fl) : Near 1 a.val (f32 a).val := near_rd le_rfl _

/-- storing in a float32 array what is already a float32 number -/
theorem f32_of_f32 {a : Fl} (ha : a.Num) (hd : a.dt = .f32) : f32 a = a := by
  have h : IsFloat 24 a.val := by
    have := ha.1
    unfold Fl.Ok at this
    rwa [hd] at this
  obtain ⟨v, d⟩ := a
  simp only at hd h
  subst hd
  rw [fl_f32]
  simp only
  rw [rd_float h]

theorem dt_mul (a b : Fl) : (a * b).dt = a.dt.join b.dt := rfl
theorem dt_div (a b : Fl) : (a / b).dt = a.dt.join b.dt := rfl
theorem dt_add (a b : Fl) : (a + b).dt = a.dt.join b.dt := rfl
theorem dt_sub (a b : Fl) : (a - b).dt = a.dt.join b.dt := rfl
theorem dt_f32 (a : Fl) : (f32 a).dt = .f32 := rfl
theorem dt_lit (q : ℚ) : (lit q : Fl).dt = .weak := rfl
theorem dt_pow10 (a : Fl) : (pow10 a : Fl).dt = a.dt := rfl
theorem dt_neg (a : Fl) : (-a).dt = a.dt := rfl

/-- the logarithms of numbers a few rounding errors apart -/
theorem Near.log {k : Nat} {x a : ℝ} (h : Near k x a) (hx : 0 < x) : |Real.log a - Real.log x| ≤ k * (uro 24 / (1 - uro 24)) := by
  obtain ⟨t, rfl, h1, h2⟩ := h
  have ht := Near.t_pos h1
  have hu := uro_pos 24
  have hom : Real.log om = -Real.log (1 / om) := by rw [one_div, Real.log_inv]; ring
  have h3 : Real.log (1 / om) ≤ uro 24 / (1 - uro 24) := by
    have := Real.log_le_sub_one_of_pos (show 0 < 1 / om by have := om_pos; positivity)
    have e : 1 / om - 1 = uro 24 / (1 - uro 24) := by
      have := om_pos
      unfold om at *
      field_simp
      ring
    linarith
  have hl1 : -(k * (uro 24 / (1 - uro 24))) ≤ Real.log t := by
    have := Real.log_le_log (om_pow_pos k) h1
    rw [Real.log_pow, hom] at this
    have hk : (0 : ℝ) ≤ k := Nat.cast_nonneg k
    nlinarith
  have hl2 : Real.log t ≤ k * (uro 24 / (1 - uro 24)) := by
    have := Real.log_le_log (by have := om_pow_pos k; positivity) h2
    rw [Real.log_mul ht.ne' (om_pow_pos k).ne', Real.log_pow, hom, Real.log_one] at this
    have hk : (0 : ℝ) ≤ k := Nat.cast_nonneg k
    nlinarith
  rw [Real.log_mul hx.ne' ht.ne', add_sub_cancel_left, abs_le]
  exact ⟨hl1, hl2⟩

/-- magnitudes of fluxes a few rounding errors apart: less than `1.09 k u` -/
theorem Near.mag {k : Nat} {x a : ℝ} (h : Near k x a) (hx : 0 < x) : |Spec.mag a - Spec.mag x| ≤ k * (1.1 * uro 24) := by
  have hl := h.log hx
  have h10 : (2.3 : ℝ) ≤ Real.log 10 := by
    have e : (10 : ℝ) = 2 ^ 3 * 1.25 := by norm_num
    have h2 := Real.log_two_gt_d9
    have h5 : (0.2206 : ℝ) ≤ Real.log 1.25 := by
      rw [Real.le_log_iff_exp_le (by norm_num)]
      have := Real.exp_bound' (x := 0.2206) (by norm_num) (by norm_num) (n := 5) (by norm_num)
      refine this.trans ?_
      norm_num [Finset.sum_range_succ, Nat.factorial]
    rw [e, Real.log_mul (by norm_num) (by norm_num), Real.log_pow]
    push_cast
    linarith
  have e : Spec.mag a - Spec.mag x = -(2.5 / Real.log 10) * (Real.log a - Real.log x) := by
    unfold Spec.mag Real.logb
    ring
  rw [e, abs_mul, abs_neg, abs_of_pos (by positivity)]
  have hk : (0 : ℝ) ≤ k := Nat.cast_nonneg k
  have hu : uro 24 / (1 - uro 24) ≤ 1.01 * uro 24 := by
    unfold uro
    norm_num
  have hq : 2.5 / Real.log 10 ≤ 1.087 := by
    rw [div_le_iff₀ (by linarith)]
    nlinarith
  have hu0 := uro_pos 24
  calc 2.5 / Real.log 10 * |Real.log a - Real.log x| ≤ 1.087 * (k * (1.01 * uro 24)) := by
        apply mul_le_mul hq (hl.trans (by gcongr)) (abs_nonneg _) (by norm_num)
    _ ≤ k * (1.1 * uro 24) := by nlinarith

end KC
