import Verif.Props.FloatMag
import Verif.Props.Consistent

/-!
# Masses and star formation ratios in floating point (C157, C158)
-/

namespace KC
open Spec

/-! ### order -/

/-- two floating-point numbers of the same dtype, in order -/
def Fl.Le (a b : Fl) : Prop := a.dt = b.dt ∧ a.val ≤ b.val

theorem prec_pos (d : DT) : 0 < d.prec := lt_of_lt_of_le (by norm_num) (DT.prec_ge d)

theorem Fl.Le.refl (a : Fl) : a.Le a := ⟨rfl, le_rfl⟩

theorem mul_le_fl {c a b : Fl} (hc : 0 ≤ c.val) (h : a.Le b) : (c * a).Le (c * b) := by
  obtain ⟨hd, hv⟩ := h
  refine ⟨by rw [dt_mul, dt_mul, hd], ?_⟩
  simp only [fl_mul, Fl.op2, hd]
  exact rd_mono (prec_pos _) (mul_le_mul_of_nonneg_left (rd_mono (prec_pos _) hv) (rd_nonneg hc))

theorem mul_le_fl' {c a b : Fl} (hc : 0 ≤ c.val) (h : a.Le b) : (a * c).Le (b * c) := by
  obtain ⟨hd, hv⟩ := h
  refine ⟨by rw [dt_mul, dt_mul, hd], ?_⟩
  simp only [fl_mul, Fl.op2, hd]
  exact rd_mono (prec_pos _) (mul_le_mul_of_nonneg_right (rd_mono (prec_pos _) hv) (rd_nonneg hc))

theorem add_le_fl {a b c d : Fl} (h : a.Le b) (h' : c.Le d) : (a + c).Le (b + d) := by
  obtain ⟨hd, hv⟩ := h
  obtain ⟨hd', hv'⟩ := h'
  refine ⟨by rw [dt_add, dt_add, hd, hd'], ?_⟩
  simp only [fl_add, Fl.op2, hd, hd']
  exact rd_mono (prec_pos _) (add_le_add (rd_mono (prec_pos _) hv) (rd_mono (prec_pos _) hv'))

theorem div_le_fl {a b c : Fl} (hc : 0 < c.val) (h : a.Le b) : (a / c).Le (b / c) := by
  obtain ⟨hd, hv⟩ := h
  refine ⟨by rw [dt_div, dt_div, hd], ?_⟩
  simp only [fl_div, Fl.op2, hd]
  exact rd_mono (prec_pos _) (div_le_div_of_nonneg_right (rd_mono (prec_pos _) hv) (rd_pos (prec_pos _) hc).le)

/-- a quotient of ordered numbers is at most 1 -/
theorem div_le_one_fl {a b : Fl} (hb : 0 < b.val) (h : a.Le b) : (a / b).val ≤ 1 := by
  obtain ⟨hd, hv⟩ := h
  simp only [fl_div, Fl.op2, hd]
  have h1 : rd (DT.join b.dt b.dt).prec 1 = 1 := rd_float (isFloat_one.mono (DT.prec_ge _))
  conv_rhs => rw [← h1]
  exact rd_mono (prec_pos _) ((div_le_one (rd_pos (prec_pos _) hb)).mpr (rd_mono (prec_pos _) hv))

theorem mul_nonneg_fl {a b : Fl} (ha : 0 ≤ a.val) (hb : 0 ≤ b.val) : 0 ≤ (a * b).val := by
  simp only [fl_mul, Fl.op2]
  exact rd_nonneg (mul_nonneg (rd_nonneg ha) (rd_nonneg hb))

theorem add_nonneg_fl {a b : Fl} (ha : 0 ≤ a.val) (hb : 0 ≤ b.val) : 0 ≤ (a + b).val := by
  simp only [fl_add, Fl.op2]
  exact rd_nonneg (add_nonneg (rd_nonneg ha) (rd_nonneg hb))

theorem div_nonneg_fl {a b : Fl} (ha : 0 ≤ a.val) (hb : 0 ≤ b.val) : 0 ≤ (a / b).val := by
  simp only [fl_div, Fl.op2]
  exact rd_nonneg (div_nonneg (rd_nonneg ha) (rd_nonneg hb))

theorem dot_le_fl : ∀ {c a b : List Fl}, (∀ v ∈ c, 0 ≤ v.val) → List.Forall₂ Fl.Le a b → (dot c a).Le (dot c b)
  | [], _, _, _, _ => by simp [dot, sumL, Fl.Le]
  | _ :: _, _, _, _, .nil => by simp [dot, Fl.Le]
  | x :: c, _, _, hc, .cons h hs => add_le_fl (mul_le_fl (hc x (by simp)) h) (dot_le_fl (c := c) (fun v hv => hc v (by simp [hv])) hs)

theorem dot_nonneg_fl : ∀ {c a : List Fl}, (∀ v ∈ c, 0 ≤ v.val) → (∀ v ∈ a, 0 ≤ v.val) → 0 ≤ (dot c a).val
  | [], _, _, _ => by simp [dot, sumL, lit_zero]
  | _ :: _, [], _, _ => by simp [dot, sumL, lit_zero]
  | x :: c, y :: a, hc, ha =>
    add_nonneg_fl (mul_nonneg_fl (hc x (by simp)) (ha y (by simp))) (dot_nonneg_fl (fun v hv => hc v (by simp [hv])) (fun v hv => ha v (by simp [hv])))

theorem f32_le {a b : Fl} (h : a.Le b) : (f32 a : Fl).Le (f32 b) := ⟨rfl, rd_mono (by norm_num) h.2⟩

/-- What the masses of a template in a file have in common with any star formation history (see `SfHistory`); one dtype. -/
structure FlHistory (t : Tmpl Fl) : Prop where
  m50 : ∀ v ∈ t.m50, 0 ≤ v.val
  le300 : List.Forall₂ Fl.Le t.m50 t.m300
  le1000 : List.Forall₂ Fl.Le t.m300 t.m1000
  leAll : List.Forall₂ Fl.Le t.m1000 t.intsfh
  rem : ∀ v ∈ t.mremain, 0 ≤ v.val
  leFormed : List.Forall₂ Fl.Le t.mremain t.intsfh

theorem derVals_ordered {t : Tmpl Fl} (ht : FlHistory t) (arr : Bool) (unit : Fl → Fl) (bs dm : Fl) (M : List (List Fl)) (ss c : List Fl)
    (hc : ∀ v ∈ c, 0 ≤ v.val) :
    let d := derVals t (if arr then f32 else id) unit bs dm M ss c
    Ordered d.b50.val d.b300.val d.b1000.val d.mremain.val d.intsfh.val := by
  intro d
  have hdf : 0 ≤ (pow10 (lit (2 / 5) * dm) : Fl).val := rd_nonneg (Real.rpow_nonneg (by norm_num) _)
  set df : Fl := pow10 (lit (2 / 5) * dm) with hdfe
  have h1 := mul_le_fl' hdf (dot_le_fl hc ht.le300)
  have h2 := mul_le_fl' hdf (dot_le_fl hc ht.le1000)
  have h3 := mul_le_fl' hdf (dot_le_fl hc ht.leAll)
  have h4 := mul_le_fl' hdf (dot_le_fl hc ht.leFormed)
  have h5 := mul_nonneg_fl (dot_nonneg_fl hc ht.m50) hdf
  have h6 := mul_nonneg_fl (dot_nonneg_fl hc ht.rem) hdf
  refine ⟨?_, ?_, ?_, ?_, h6, h4.2⟩ <;> simp only [d, derVals, ratio, gtb, fl_lt, decide_eq_true_eq, lit_zero] <;>
    simp only [← hdfe]
  · by_cases hp : 0 < (dot c t.mremain * df).val
    · rw [if_pos hp]
      have hq := div_nonneg_fl h5 (lt_of_lt_of_le hp h4.2).le
      cases arr
      · exact hq
      · exact rd_nonneg hq
    · rw [if_neg hp]
  · by_cases hp : 0 < (dot c t.mremain * df).val
    · rw [if_pos hp, if_pos hp]
      have hq := div_le_fl (lt_of_lt_of_le hp h4.2) h1
      cases arr
      · exact hq.2
      · exact (f32_le hq).2
    · rw [if_neg hp, if_neg hp]
  · by_cases hp : 0 < (dot c t.mremain * df).val
    · rw [if_pos hp, if_pos hp]
      have hq := div_le_fl (lt_of_lt_of_le hp h4.2) h2
      cases arr
      · exact hq.2
      · exact (f32_le hq).2
    · rw [if_neg hp, if_neg hp]
  · by_cases hp : 0 < (dot c t.mremain * df).val
    · rw [if_pos hp]
      have hq := div_le_one_fl (lt_of_lt_of_le hp h4.2) h3
      cases arr
      · exact hq
      · have h1 : rd 24 1 = 1 := rd_float isFloat_one
        show rd 24 _ ≤ 1
        conv_rhs => rw [← h1]
        exact rd_mono (by norm_num) hq
    · rw [if_neg hp]; norm_num

theorem map_ok_iff {β γ : Type} {f : β → γ} {x : Py β} {r : γ} : x.map f = .ok r ↔ ∃ b, x = .ok b ∧ r = f b := by
  cases x with
  | error e => simp [Except.map]
  | ok b => simp [Except.map, eq_comm]

/-- C157: the order of the derived quantities is exact in floating point: rounding never makes a ratio exceed 1 or two of them change order. -/
theorem C157_ordered (K : Kc Fl) (t : Tmpl Fl) (ht : K.templates = .template t) (hm : MassOK t K.templates.nsed) (Ao : AMat Fl) (hAo : K.AmatrixOut = some Ao)
    (hh : FlHistory t) (g : Reg Fl) (z : Fl) (c : List Fl) (hc : c.length = K.templates.nsed) (hc0 : ∀ v ∈ c, 0 ≤ v.val) (bs : Fl) (D : Derived Fl)
    (hD : K.derived g (some (.scalar z)) (some (.vec c)) bs none = .ok D) :
    ∃ b50 b300 b1000 mr is, D.b50 = .scalar b50 ∧ D.b300 = .scalar b300 ∧ D.b1000 = .scalar b1000 ∧ D.mremain = .scalar mr ∧ D.intsfh = .scalar is ∧
      Ordered b50.val b300.val b1000.val mr.val is.val := by
  rw [derived_scalar ht hm hAo g z c hc bs] at hD
  obtain ⟨d, hd, rfl⟩ := map_ok_iff.mp hD
  unfold derOne at hd
  obtain ⟨M, _, hd⟩ := bind_ok_iff.mp hd
  obtain ⟨ss, _, hd⟩ := bind_ok_iff.mp hd
  cases hd
  refine ⟨_, _, _, _, _, rfl, rfl, rfl, rfl, rfl, ?_⟩
  exact derVals_ordered hh false id bs _ M ss _ (by
    intro v hv
    obtain ⟨w, hw, rfl⟩ := List.mem_map.mp hv
    exact rd_nonneg (hc0 w hw))

/-- C157, batches. -/
theorem C157_batch (K : Kc Fl) (t : Tmpl Fl) (ht : K.templates = .template t) (hm : MassOK t K.templates.nsed) (Ao : AMat Fl) (hAo : K.AmatrixOut = some Ao)
    (hh : FlHistory t) (g : Reg Fl) (zs : List Fl) (cs : List (List Fl)) (hcs : cs.length = zs.length) (hc0 : ∀ c ∈ cs, ∀ v ∈ c, 0 ≤ v.val) (bs : Fl)
    (D : Derived Fl) (hD : K.derived g (some (.vec zs)) (some (.arr [zs.length] K.templates.nsed cs)) bs none = .ok D) (i : Nat) (hi : i < zs.length) :
    ∃ b50 b300 b1000 mr is, entry D.b50 0 i = some b50 ∧ entry D.b300 0 i = some b300 ∧ entry D.b1000 0 i = some b1000 ∧ entry D.mremain 0 i = some mr ∧
      entry D.intsfh 0 i = some is ∧ Ordered b50.val b300.val b1000.val mr.val is.val := by
  obtain ⟨_, _, ds, hall, rfl⟩ := (derived_array ht hm hAo g zs cs hcs bs D).mp hD
  have hzl : (List.zip zs cs).length = zs.length := by rw [List.length_zip]; omega
  have hdl : ds.length = zs.length := by rw [← hall.length_eq, hzl]
  have hone := (List.forall₂_iff_get.mp hall).2 i (by omega) (by omega)
  simp only [List.get_eq_getElem, List.getElem_zip] at hone
  have hi' : i < ds.length := by omega
  unfold derOne at hone
  obtain ⟨M, _, hone⟩ := bind_ok_iff.mp hone
  obtain ⟨ss, _, hone⟩ := bind_ok_iff.mp hone
  have hd : ds[i] = derVals t f32 (fun x => x * lit 1) bs (K.distmod (f32 zs[i])) M ss ((cs[i]'(by omega)).map f32) := (Except.ok.inj hone).symm
  have hl : ∀ q : Der1 Fl → Fl, entry (.vec (ds.map q)) 0 i = some (q ds[i]) := by
    intro q
    simp [entry, NDA.vec, hi']
  refine ⟨_, _, _, _, _, hl _, hl _, hl _, hl _, hl _, ?_⟩
  rw [hd]
  exact derVals_ordered hh true _ bs _ M ss _ (by
    intro v hv
    obtain ⟨w, hw, rfl⟩ := List.mem_map.mp hv
    exact rd_nonneg (hc0 _ (List.getElem_mem _) w hw))

/-! ### accuracy -/

/-- the numbers in a floating-point list -/
def vals (l : List Fl) : List ℝ := l.map Fl.val

theorem near_sum {k : Nat} : ∀ {xs ts : List ℝ}, (∀ x ∈ xs, 0 ≤ x) → List.Forall₂ (Near k) xs ts → Near k xs.sum ts.sum
  | _, _, _, .nil => (Near.refl 0).mono (Nat.zero_le _)
  | x :: xs, t :: ts, h0, .cons h hs => by
    rw [List.sum_cons, List.sum_cons]
    exact Near.add (h0 x (by simp)) (List.sum_nonneg (fun y hy => h0 y (by simp [hy]))) h (near_sum (fun y hy => h0 y (by simp [hy])) hs)

/-- a sum of coefficients times template masses, computed -/
theorem dot_near {c v : List Fl} (hl : c.length = v.length) (hne : c ≠ []) (hc : ∀ x ∈ c, 0 ≤ x.val) (hv : ∀ x ∈ v, x.Num ∧ 0 ≤ x.val) :
    (dot (c.map f32) v).Num ∧ Near (c.length + 2) (total (vals c) (vals v)) (dot (c.map f32) v).val := by
  obtain ⟨n, ts, hts, hs⟩ := C133_dot_any_order (a := c.map f32) (b := v) (s := dot (c.map f32) v) (by simpa using hl) (by simpa using hne) (map_f32_num c)
    (fun x hx => (hv x hx).1) (sums_sumL _)
  refine ⟨n, ?_⟩
  rw [hs]
  unfold total vals
  rw [List.forall₂_iff_get] at hts
  refine near_sum ?_ ?_
  · intro x hx
    obtain ⟨i, hi, rfl⟩ := List.mem_iff_getElem.mp hx
    simp only [List.getElem_zipWith, List.getElem_map]
    exact mul_nonneg (hc _ (List.getElem_mem _)) (hv _ (List.getElem_mem _)).2
  · rw [List.forall₂_iff_get]
    have hlen : ts.length = c.length := by rw [← hts.1]; simp [hl]
    refine ⟨by simp [hlen, hl], ?_⟩
    intro i h1 h2
    have := hts.2 i (by rw [hts.1]; exact h2) h2
    simp only [List.get_eq_getElem, List.getElem_zip, List.getElem_map, List.length_map, List.getElem_zipWith] at this ⊢
    have h3 := ((f32_near (c[i]'(by omega))).mul (Near.refl (v[i]'(by omega)).val)).trans this
    exact h3.mono (by omega)

/-- `10^(0.4 dm)`, computed: its magnitude is `-dm` -/
theorem df_close {dm : Fl} (hd : dm.Num) : (pow10 (lit (2 / 5) * dm) : Fl).Num ∧ 0 < (pow10 (lit (2 / 5) * dm) : Fl).val ∧
    |mag (pow10 (lit (2 / 5) * dm) : Fl).val - -dm.val| ≤ uro 24 * (1.1 + 4 * |dm.val|) := by
  obtain ⟨n1, e1⟩ := lit_mul_num (2 / 5) hd
  obtain ⟨n2, e2⟩ := pow10_num n1
  have hp : (0 : ℝ) < 10 ^ (lit (2 / 5) * dm : Fl).val := by positivity
  refine ⟨n2, e2.pos hp, ?_⟩
  have h1 := e2.mag hp
  have h2 := e1.rel_small (by norm_num)
  have em : mag ((10 : ℝ) ^ (lit (2 / 5) * dm : Fl).val) = -(5 / 2) * (lit (2 / 5) * dm : Fl).val := by
    unfold mag
    rw [Real.logb_rpow (by norm_num) (by norm_num)]
    try ring
  rw [em] at h1
  push_cast at h1 h2
  rw [abs_mul] at h2
  generalize mag (pow10 (lit (2 / 5) * dm) : Fl).val = m at *
  generalize (lit (2 / 5) * dm : Fl).val = e at *
  generalize dm.val = d at *
  have hu := uro_pos 24
  have h3 : |(2 / 5 : ℝ)| = 2 / 5 := by norm_num
  rw [h3] at h2
  have : m - -d = (m - -(5 / 2) * e) + (-(5 / 2)) * (e - 2 / 5 * d) := by ring
  rw [this]
  refine (abs_add_le _ _).trans ?_
  rw [abs_mul, show |(-(5 / 2) : ℝ)| = 5 / 2 by norm_num]
  have := abs_nonneg d
  have h4 : 0 ≤ uro 24 * |d| := by positivity
  nlinarith

/-- `a` is `x` up to a relative error of `k` roundings, `k u / (1 - k u)` with `u = 2^-24` -/
def RelErr (k : Nat) (x a : ℝ) : Prop := k * uro 24 < 1 → |a - x| ≤ k * uro 24 / (1 - k * uro 24) * |x|

/-- How close computed masses and ratios are to the quantities they stand for: `n` templates, distance modulus `D`, coefficients `c`, and for each template
the mass formed, the mass remaining, metallicity, and mass formed in the last 50, 300 and 1000 Myr. -/
structure MassClose (n : Nat) (D : ℝ) (c isf mr met m50 m300 m1000 : List ℝ) (o : Der1 Fl) : Prop where
  mremain : 0 < total c mr → |mag o.mremain.val - (mag (total c mr) - D)| ≤ uro 24 * (1.1 * (n + 4) + 4 * |D|)
  intsfh : 0 < total c isf → |mag o.intsfh.val - (mag (total c isf) - D)| ≤ uro 24 * (1.1 * (n + 4) + 4 * |D|)
  b50 : 0 < total c mr → 0 < total c isf → RelErr (2 * n + 9) (total c m50 / total c isf) o.b50.val
  b300 : 0 < total c mr → 0 < total c isf → RelErr (2 * n + 9) (total c m300 / total c isf) o.b300.val
  b1000 : 0 < total c mr → 0 < total c isf → RelErr (2 * n + 9) (total c m1000 / total c isf) o.b1000.val
  metallicity : 0 < total c mr → RelErr (2 * n + 9) (total c (List.zipWith (· * ·) mr met) / total c mr) o.metallicity.val
  none : total c mr = 0 → o.mremain.val = 0 ∧ o.b50.val = 0 ∧ o.b300.val = 0 ∧ o.b1000.val = 0 ∧ o.metallicity.val = 0

/-- the masses of a template file: numpy floats, not negative -/
structure FlMasses (t : Tmpl Fl) : Prop where
  intsfh : ∀ x ∈ t.intsfh, x.Num ∧ 0 ≤ x.val
  mremain : ∀ x ∈ t.mremain, x.Num ∧ 0 ≤ x.val
  mets : ∀ x ∈ t.mets, x.Num ∧ 0 ≤ x.val
  m50 : ∀ x ∈ t.m50, x.Num ∧ 0 ≤ x.val
  m300 : ∀ x ∈ t.m300, x.Num ∧ 0 ≤ x.val
  m1000 : ∀ x ∈ t.m1000, x.Num ∧ 0 ≤ x.val

theorem total_nonneg_vals {c v : List Fl} (hc : ∀ x ∈ c, 0 ≤ x.val) (hv : ∀ x ∈ v, x.Num ∧ 0 ≤ x.val) : 0 ≤ total (vals c) (vals v) := by
  unfold total vals
  refine List.sum_nonneg (fun x hx => ?_)
  obtain ⟨i, hi, rfl⟩ := List.mem_iff_getElem.mp hx
  simp only [List.getElem_zipWith, List.getElem_map]
  exact mul_nonneg (hc _ (List.getElem_mem _)) (hv _ (List.getElem_mem _)).2

/-- a mass, computed -/
theorem mass_close {c v : List Fl} {dm : Fl} (hd : dm.Num) (hl : c.length = v.length) (hne : c ≠ []) (hc : ∀ x ∈ c, 0 ≤ x.val)
    (hv : ∀ x ∈ v, x.Num ∧ 0 ≤ x.val) (hp : 0 < total (vals c) (vals v)) :
    |mag (dot (c.map f32) v * pow10 (lit (2 / 5) * dm) : Fl).val - (mag (total (vals c) (vals v)) - dm.val)| ≤
      uro 24 * (1.1 * (c.length + 4) + 4 * |dm.val|) := by
  obtain ⟨n1, e1⟩ := dot_near hl hne hc hv
  obtain ⟨n2, p2, e2⟩ := df_close hd
  obtain ⟨n3, e3⟩ := mul_num n1 n2
  have e4 := ((e1.mul (Near.refl (pow10 (lit (2 / 5) * dm) : Fl).val)).trans e3).mag (mul_pos hp p2)
  have em : mag (total (vals c) (vals v) * (pow10 (lit (2 / 5) * dm) : Fl).val) = mag (total (vals c) (vals v)) + mag (pow10 (lit (2 / 5) * dm) : Fl).val := by
    unfold mag
    rw [Real.logb_mul hp.ne' p2.ne']
    ring
  rw [em] at e4
  push_cast at e4
  generalize mag (pow10 (lit (2 / 5) * dm) : Fl).val = a at *
  generalize mag (total (vals c) (vals v)) = b at *
  generalize mag (dot (c.map f32) v * pow10 (lit (2 / 5) * dm) : Fl).val = r at *
  have : r - (b - dm.val) = (r - (b + a)) + (a - -dm.val) := by ring
  rw [this]
  refine (abs_add_le _ _).trans ?_
  linarith

/-- a ratio of two masses, computed: the distance cancels -/
theorem ratio_near {k l : Nat} {x y df : Fl} {X Y : ℝ} (nx : x.Num) (ny : y.Num) (nd : df.Num) (hd : 0 < df.val) (hx : Near k X x.val) (hy : Near l Y y.val) :
    Near (k + l + 3) (X / Y) (x * df / (y * df) : Fl).val := by
  obtain ⟨n1, e1⟩ := mul_num nx nd
  obtain ⟨n2, e2⟩ := mul_num ny nd
  obtain ⟨_, e3⟩ := div_num n1 n2
  have h := (((hx.mul (Near.refl df.val)).trans e1).div ((hy.mul (Near.refl df.val)).trans e2)).trans e3
  rw [mul_div_mul_right _ _ hd.ne'] at h
  exact h.mono (by omega)

theorem Near.relErr {k : Nat} {x a : ℝ} (h : Near k x a) : RelErr k x a := fun hk => h.rel hk

theorem round_near {k : Nat} (arr : Bool) {x : ℝ} {a : Fl} (h : Near k x a.val) : Near (k + 1) x ((if arr then f32 else id) a : Fl).val := by
  cases arr
  · exact h.mono (by omega)
  · exact h.trans (f32_near a)

/-- the products of remaining mass and metallicity, computed -/
theorem dot_prod_near {c v w : List Fl} (hl : c.length = v.length) (hl' : c.length = w.length) (hne : c ≠ []) (hc : ∀ x ∈ c, 0 ≤ x.val)
    (hv : ∀ x ∈ v, x.Num ∧ 0 ≤ x.val) (hw : ∀ x ∈ w, x.Num ∧ 0 ≤ x.val) :
    (dot (c.map f32) (List.zipWith (· * ·) v w)).Num ∧
      Near (c.length + 3) (total (vals c) (List.zipWith (· * ·) (vals v) (vals w))) (dot (c.map f32) (List.zipWith (· * ·) v w)).val := by
  have hp : ∀ x ∈ List.zipWith (fun x y : Fl => x * y) v w, x.Num ∧ 0 ≤ x.val := by
    intro x hx
    obtain ⟨i, hi, rfl⟩ := List.mem_iff_getElem.mp hx
    rw [List.getElem_zipWith]
    rw [List.length_zipWith] at hi
    have h1 := hv (v[i]'(by omega)) (List.getElem_mem _)
    have h2 := hw (w[i]'(by omega)) (List.getElem_mem _)
    exact ⟨(mul_num h1.1 h2.1).1, mul_nonneg_fl h1.2 h2.2⟩
  obtain ⟨n, e⟩ := dot_near (c := c) (v := List.zipWith (fun x y : Fl => x * y) v w) (by simp; omega) hne hc hp
  refine ⟨n, ?_⟩
  have h : Near 1 (total (vals c) (List.zipWith (· * ·) (vals v) (vals w))) (total (vals c) (vals (List.zipWith (fun x y : Fl => x * y) v w))) := by
    unfold total vals
    refine near_sum ?_ ?_
    · intro x hx
      obtain ⟨i, hi, rfl⟩ := List.mem_iff_getElem.mp hx
      simp only [List.getElem_zipWith, List.getElem_map]
      exact mul_nonneg (hc _ (List.getElem_mem _)) (mul_nonneg (hv _ (List.getElem_mem _)).2 (hw _ (List.getElem_mem _)).2)
    · rw [List.forall₂_iff_get]
      refine ⟨by simp, ?_⟩
      intro i h1 h2
      simp only [List.length_zipWith, List.length_map] at h1 h2
      simp only [List.get_eq_getElem, List.getElem_zipWith, List.getElem_map]
      have a1 := hv (v[i]'(by omega)) (List.getElem_mem _)
      have a2 := hw (w[i]'(by omega)) (List.getElem_mem _)
      exact ((Near.refl _).mul (mul_num a1.1 a2.1).2).mono (by omega)
  exact (h.trans e).mono (by omega)

theorem derVals_close {t : Tmpl Fl} (ht : FlMasses t) {c : List Fl} (hm : MassOK t c.length) (hne : c ≠ []) (hc : ∀ v ∈ c, 0 ≤ v.val) (arr : Bool)
    (unit : Fl → Fl) (bs : Fl) {dm : Fl} (hd : dm.Num) (M : List (List Fl)) (ss : List Fl) :
    MassClose c.length dm.val (vals c) (vals t.intsfh) (vals t.mremain) (vals t.mets) (vals t.m50) (vals t.m300) (vals t.m1000)
      (derVals t (if arr then f32 else id) unit bs dm M ss (c.map f32)) := by
  obtain ⟨nd, pd, _⟩ := df_close hd
  obtain ⟨nr, er⟩ := dot_near hm.mremain.symm hne hc ht.mremain
  obtain ⟨ni, ei⟩ := dot_near hm.intsfh.symm hne hc ht.intsfh
  obtain ⟨n5, e5⟩ := dot_near hm.m50.symm hne hc ht.m50
  obtain ⟨n3, e3⟩ := dot_near hm.m300.symm hne hc ht.m300
  obtain ⟨n1, e1⟩ := dot_near hm.m1000.symm hne hc ht.m1000
  obtain ⟨nm, em⟩ := dot_prod_near hm.mremain.symm hm.mets.symm hne hc ht.mremain ht.mets
  obtain ⟨nrd, erd⟩ := mul_num nr nd
  have hpos : 0 < total (vals c) (vals t.mremain) → 0 < (dot (c.map f32) t.mremain * pow10 (lit (2 / 5) * dm) : Fl).val :=
    fun hp => erd.pos (mul_pos (er.pos hp) pd)
  constructor
  · intro hp
    exact mass_close hd hm.mremain.symm hne hc ht.mremain hp
  · intro hp
    exact mass_close hd hm.intsfh.symm hne hc ht.intsfh hp
  · intro hp _
    simp only [derVals, ratio, gtb, fl_lt, decide_eq_true_eq, lit_zero]
    rw [if_pos (hpos hp)]
    exact ((round_near arr (ratio_near n5 ni nd pd e5 ei)).mono (by omega)).relErr
  · intro hp _
    simp only [derVals, ratio, gtb, fl_lt, decide_eq_true_eq, lit_zero]
    rw [if_pos (hpos hp)]
    exact ((round_near arr (ratio_near n3 ni nd pd e3 ei)).mono (by omega)).relErr
  · intro hp _
    simp only [derVals, ratio, gtb, fl_lt, decide_eq_true_eq, lit_zero]
    rw [if_pos (hpos hp)]
    exact ((round_near arr (ratio_near n1 ni nd pd e1 ei)).mono (by omega)).relErr
  · intro hp
    simp only [derVals, ratio, gtb, fl_lt, decide_eq_true_eq, lit_zero]
    rw [if_pos (hpos hp)]
    exact ((round_near arr (ratio_near nm nr nd pd em er)).mono (by omega)).relErr
  · intro h0
    have z1 : (dot (c.map f32) t.mremain).val = 0 := by rw [h0, near_zero] at er; exact er
    have z2 : (dot (c.map f32) t.mremain * pow10 (lit (2 / 5) * dm) : Fl).val = 0 := by rw [z1, zero_mul, near_zero] at erd; exact erd
    simp only [derVals, ratio, gtb, fl_lt, decide_eq_true_eq, lit_zero, z2, lt_irrefl, if_false, and_self]

/-- a mass-to-light ratio, computed from the mass, the model flux, the Sun's magnitude and the distance modulus -/
theorem mtol_close {mass f s dm : Fl} (nm : mass.Num) (pm : 0 < mass.val) (nf : f.Num) (pf : 0 < f.val) (ns : s.Num) (nd : dm.Num) :
    |mag (mtolEntry mass (f32 (f / pow10 (lit (-2 / 5) * (s + dm))))).val - (mag mass.val - (mag f.val - dm.val - s.val))| ≤
      uro 24 * (7 + 5 * |s.val + dm.val|) := by
  obtain ⟨n1, e1⟩ := add_num ns nd
  obtain ⟨n2, e2⟩ := lit_mul_num (-2 / 5) n1
  obtain ⟨n3, e3⟩ := pow10_num n2
  have hp : (0 : ℝ) < 10 ^ (lit (-2 / 5) * (s + dm) : Fl).val := by positivity
  have p3 := e3.pos hp
  obtain ⟨n4', e4'⟩ := div_num nf n3
  have n4 := f32_num (f / pow10 (lit (-2 / 5) * (s + dm)))
  have e4 := e4'.trans (f32_near _)
  have p4 := e4.pos (div_pos pf p3)
  obtain ⟨n5, e5⟩ := div_num nm n4
  have p5 := div_pos pm p4
  have e6 := (e5.trans (f32_near _)).mag p5
  have e7 := e4.mag (div_pos pf p3)
  have e8 := e3.mag hp
  have e9 := (((Near.refl (((-2 / 5 : ℚ)) : ℝ)).mul e1).trans e2).rel_small (by norm_num)
  have em : mag ((10 : ℝ) ^ (lit (-2 / 5) * (s + dm) : Fl).val) = -(5 / 2) * (lit (-2 / 5) * (s + dm) : Fl).val := by
    unfold mag
    rw [Real.logb_rpow (by norm_num) (by norm_num)]
    try ring
  have md : ∀ x y : ℝ, 0 < x → 0 < y → mag (x / y) = mag x - mag y := by
    intro x y hx hy
    unfold mag
    rw [Real.logb_div hx.ne' hy.ne']
    ring
  rw [md _ _ pm p4] at e6
  rw [md _ _ pf p3] at e7
  rw [em] at e8
  unfold mtolEntry
  rw [if_pos (by rw [gtb, fl_lt, lit_zero]; simpa using p4)]
  push_cast at e6 e7 e8 e9
  rw [abs_mul, show |(-2 / 5 : ℝ)| = 2 / 5 by norm_num] at e9
  generalize mag (f32 (mass / f32 (f / pow10 (lit (-2 / 5) * (s + dm))) : Fl) : Fl).val = r at *
  generalize mag (f32 (f / pow10 (lit (-2 / 5) * (s + dm))) : Fl).val = l at *
  generalize mag (pow10 (lit (-2 / 5) * (s + dm)) : Fl).val = q at *
  generalize (lit (-2 / 5) * (s + dm) : Fl).val = e at *
  generalize mag mass.val = m at *
  generalize mag f.val = g at *
  have hu := uro_pos 24
  have h0 := abs_nonneg (s.val + dm.val)
  have : r - (m - (g - dm.val - s.val)) = (r - (m - l)) - (l - (g - q)) + (q - -(5 / 2) * e) + (-(5 / 2)) * (e - -2 / 5 * (s.val + dm.val)) := by ring
  rw [this]
  have h1 := abs_add_le ((r - (m - l)) - (l - (g - q)) + (q - -(5 / 2) * e)) ((-(5 / 2)) * (e - -2 / 5 * (s.val + dm.val)))
  have h2 := abs_add_le ((r - (m - l)) - (l - (g - q))) (q - -(5 / 2) * e)
  have h3 := abs_sub (r - (m - l)) (l - (g - q))
  rw [abs_mul, show |(-(5 / 2) : ℝ)| = 5 / 2 by norm_num] at h1
  have h4 : 0 ≤ uro 24 * |s.val + dm.val| := by positivity
  nlinarith

theorem mtolRow_get {ss row : List Fl} {dm mass : Fl} {j : Nat} {s f : Fl} (hs : ss[j]? = some s) (hf : row[j]? = some f) :
    (mtolRow ss dm mass row)[j]? = some (mtolEntry mass (f32 (f / pow10 (lit (-2 / 5) * (s + dm))))) := by
  unfold mtolRow
  rw [List.getElem?_mapIdx, hf]
  simp [hs]

theorem solMags_get {g : Reg Fl} {names : List Name} {ss : List Fl} (h : names.mapM (solMag g) = .ok ss) {j : Nat} {n : Name} {o : RespObj Fl} {s : Fl}
    (hn : names[j]? = some n) (ho : g n = some o) (hs : o.solarMag = some s) : ss[j]? = some s := by
  have hf := mapM_ok_iff.mp h
  have hj := (List.getElem?_eq_some_iff.mp hn).1
  have hj' : j < ss.length := by rw [← hf.length_eq]; exact hj
  have := (List.forall₂_iff_get.mp hf).2 j hj hj'
  simp only [List.get_eq_getElem, (List.getElem?_eq_some_iff.mp hn).2] at this
  unfold solMag at this
  rw [ho] at this
  simp only [hs, Except.ok.injEq] at this
  rw [List.getElem?_eq_getElem hj', this]

/-- C158, one object: masses and ratios up to rounding. -/
theorem C158_masses (K : Kc Fl) (t : Tmpl Fl) (ht : K.templates = .template t) (hm : MassOK t K.templates.nsed) (Ao : AMat Fl) (hAo : K.AmatrixOut = some Ao)
    (hf : FlMasses t) (g : Reg Fl) (z : Fl) (hdm : (K.distmod (f32 z)).Num) (c : List Fl) (hc : c.length = K.templates.nsed) (hne : c ≠ [])
    (hc0 : ∀ v ∈ c, 0 ≤ v.val) (bs : Fl) (D : Derived Fl) (hD : K.derived g (some (.scalar z)) (some (.vec c)) bs none = .ok D) :
    ∃ o : Der1 Fl, D.mremain = .scalar o.mremain ∧ D.intsfh = .scalar o.intsfh ∧ D.b50 = .scalar o.b50 ∧ D.b300 = .scalar o.b300 ∧ D.b1000 = .scalar o.b1000 ∧
      D.metallicity = .scalar o.metallicity ∧ MassClose K.templates.nsed (K.distmod (f32 z)).val (vals c) (vals t.intsfh) (vals t.mremain) (vals t.mets)
        (vals t.m50) (vals t.m300) (vals t.m1000) o := by
  rw [derived_scalar ht hm hAo g z c hc bs] at hD
  obtain ⟨d, hd, rfl⟩ := map_ok_iff.mp hD
  unfold derOne at hd
  obtain ⟨M, _, hd⟩ := bind_ok_iff.mp hd
  obtain ⟨ss, _, hd⟩ := bind_ok_iff.mp hd
  cases hd
  refine ⟨_, rfl, rfl, rfl, rfl, rfl, rfl, ?_⟩
  rw [← hc]
  exact derVals_close hf (hc ▸ hm) hne hc0 false id bs hdm M ss

/-- C158, one object: mass-to-light ratios. For each output band, the computed ratio is the mass that `derived` returns over the luminosity of the model in
units of the Sun's, with the model flux as `reconstruct_out` gives it. -/
theorem C158_mtol (K : Kc Fl) (t : Tmpl Fl) (ht : K.templates = .template t) (hm : MassOK t K.templates.nsed) (Ao : AMat Fl) (hAo : K.AmatrixOut = some Ao)
    (gAo : FlGood Ao) (g : Reg Fl) (z : Fl) (hdm : (K.distmod (f32 z)).Num) (c : List Fl) (hc : c.length = K.templates.nsed) (bs : Fl)
    (D : Derived Fl) (hD : K.derived g (some (.scalar z)) (some (.vec c)) bs none = .ok D) {b : NDA Fl}
    (hb : K.reconstructOut (some (.scalar (lit 0))) (some (.vec c)) bs = .ok b) :
    ∃ mr : Fl, D.mremain = .scalar mr ∧ ∀ (j : Nat) (n : Name) (o : RespObj Fl) (s f : Fl), K.responsesOut[j]? = some n → g n = some o → o.solarMag = some s →
      s.Num → entry b 0 j = some f → 0 < f.val → 0 < mr.val → ∃ v, entry D.mtol 0 j = some v ∧
        |mag v.val - (mag mr.val - (mag f.val - (K.distmod (f32 z)).val - s.val))| ≤ uro 24 * (7 + 5 * |s.val + (K.distmod (f32 z)).val|) := by
  unfold Kc.reconstructOut at hb
  rw [hAo, recon_scalar _ _ _ _ _ hc] at hb
  obtain ⟨M', hM', rfl⟩ := map_ok_iff.mp hb
  rw [derived_scalar ht hm hAo g z c hc bs] at hD
  obtain ⟨d, hd, rfl⟩ := map_ok_iff.mp hD
  unfold derOne at hd
  obtain ⟨M, hM, hd⟩ := bind_ok_iff.mp hd
  obtain ⟨ss, hss, hd⟩ := bind_ok_iff.mp hd
  cases hd
  rw [hM'] at hM
  cases hM
  refine ⟨_, rfl, ?_⟩
  intro j n o s f hn ho hs ns hfj pf pm
  simp only [entry, List.getElem?_cons_zero, Option.bind_some] at hfj ⊢
  simp only [derVals, map_f32_f32] at pm ⊢
  have nf := reconRow_num (fun row hr => ((at_num gAo (shiftOf_num _ _) hM').2 row hr).2) c (List.mem_of_getElem? hfj) pf.ne'
  have nm : (dot (c.map f32) t.mremain * pow10 (lit (2 / 5) * K.distmod (f32 z)) : Fl).Num :=
    op2_num _ (Or.inr (df_close hdm).1.2)
  exact ⟨_, mtolRow_get (solMags_get hss hn ho hs) hfj, mtol_close nm pm nf pf ns hdm⟩

/-- C158, batches: masses and ratios. -/
theorem C158_batch (K : Kc Fl) (t : Tmpl Fl) (ht : K.templates = .template t) (hm : MassOK t K.templates.nsed) (Ao : AMat Fl) (hAo : K.AmatrixOut = some Ao)
    (gAo : FlGood Ao) (hf : FlMasses t) (g : Reg Fl) (zs : List Fl) (hdm : ∀ z ∈ zs, (K.distmod (f32 z)).Num) (cs : List (List Fl)) (hcs : cs.length = zs.length)
    (hc : ∀ c ∈ cs, c.length = K.templates.nsed) (hne : 0 < K.templates.nsed) (hc0 : ∀ c ∈ cs, ∀ v ∈ c, 0 ≤ v.val) (bs : Fl) (D : Derived Fl)
    (hD : K.derived g (some (.vec zs)) (some (.arr [zs.length] K.templates.nsed cs)) bs none = .ok D) (i : Nat) (z : Fl) (c : List Fl) (hz : zs[i]? = some z)
    (hci : cs[i]? = some c) :
    ∃ o : Der1 Fl, entry D.mremain 0 i = some o.mremain ∧ entry D.intsfh 0 i = some o.intsfh ∧ entry D.b50 0 i = some o.b50 ∧ entry D.b300 0 i = some o.b300 ∧
      entry D.b1000 0 i = some o.b1000 ∧ entry D.metallicity 0 i = some o.metallicity ∧
      MassClose K.templates.nsed (K.distmod (f32 z)).val (vals c) (vals t.intsfh) (vals t.mremain) (vals t.mets) (vals t.m50) (vals t.m300) (vals t.m1000) o ∧
      ∀ (b : NDA Fl), K.reconstructOut (some (.scalar (lit 0))) (some (.vec c)) bs = .ok b → ∀ (j : Nat) (n : Name) (r : RespObj Fl) (s f : Fl),
        K.responsesOut[j]? = some n → g n = some r → r.solarMag = some s → s.Num → entry b 0 j = some f → 0 < f.val → 0 < o.mremain.val →
        ∃ v, entry D.mtol i j = some v ∧
          |mag v.val - (mag o.mremain.val - (mag f.val - (K.distmod (f32 z)).val - s.val))| ≤ uro 24 * (7 + 5 * |s.val + (K.distmod (f32 z)).val|) := by
  obtain ⟨_, _, ds, hall, rfl⟩ := (derived_array ht hm hAo g zs cs hcs bs D).mp hD
  obtain ⟨hi, hzi⟩ := List.getElem?_eq_some_iff.mp hz
  have hzl : (List.zip zs cs).length = zs.length := by rw [List.length_zip]; omega
  have hdl : ds.length = zs.length := by rw [← hall.length_eq, hzl]
  have hone := (List.forall₂_iff_get.mp hall).2 i (by omega) (by omega)
  simp only [List.get_eq_getElem, List.getElem_zip] at hone
  rw [hzi, (List.getElem?_eq_some_iff.mp hci).2] at hone
  have hi' : i < ds.length := by omega
  have hcn := hc c (List.mem_of_getElem? hci)
  have hdz := hdm z (List.mem_of_getElem? hz)
  unfold derOne at hone
  obtain ⟨M, hM, hone⟩ := bind_ok_iff.mp hone
  obtain ⟨ss, hss, hone⟩ := bind_ok_iff.mp hone
  have hd : ds[i] = derVals t f32 (fun x => x * lit 1) bs (K.distmod (f32 z)) M ss (c.map f32) := (Except.ok.inj hone).symm
  have hl : ∀ q : Der1 Fl → Fl, entry (.vec (ds.map q)) 0 i = some (q ds[i]) := by
    intro q
    simp [entry, NDA.vec, hi']
  refine ⟨ds[i], hl _, hl _, hl _, hl _, hl _, hl _, ?_, ?_⟩
  · rw [hd, ← hcn]
    exact derVals_close hf (hcn ▸ hm) (by intro h; rw [h] at hcn; simp at hcn; omega) (hc0 c (List.mem_of_getElem? hci)) true _ bs hdz M ss
  · intro b hb j n r s f hn hr hs ns hfj pf pm
    unfold Kc.reconstructOut at hb
    rw [hAo, recon_scalar _ _ _ _ _ hcn] at hb
    obtain ⟨M', hM', rfl⟩ := map_ok_iff.mp hb
    rw [hM'] at hM
    obtain rfl := Except.ok.inj hM
    have nm : (dot (c.map f32) t.mremain * pow10 (lit (2 / 5) * K.distmod (f32 z)) : Fl).Num :=
      op2_num _ (Or.inr (df_close hdz).1.2)
    simp only [entry, List.getElem?_cons_zero, Option.bind_some] at hfj
    have hrow : ds[i].mtol = mtolRow ss (K.distmod (f32 z)) ds[i].mremain (reconRow bs M' (c.map f32)) := by
      rw [hd]
      simp only [derVals, map_f32_f32]
      rw [mul_lit_one nm]
    have nmr : ds[i].mremain.Num := by rw [hd]; exact nm
    have nf := reconRow_num (fun row hr => ((at_num gAo (shiftOf_num _ _) hM').2 row hr).2) c (List.mem_of_getElem? hfj) pf.ne'
    refine ⟨_, ?_, mtol_close nmr pm nf pf ns hdz⟩
    simp only [entry, List.getElem?_map, List.getElem?_eq_getElem hi', Option.map_some, Option.bind_some, hrow]
    exact mtolRow_get (solMags_get hss hn hr hs) hfj

/-! ### the hypotheses can be met -/

/-- one template that formed 8, of which 4 remain, and formed 1, 2 and 4 in the last 50, 300 and 1000 Myr -/
noncomputable def flTmpl : Tmpl Fl :=
  ⟨⟨[], [[]], [], [[]], lit 0, false, none, false⟩, [s32 8], [s32 4], [s32 (1 / 2)], [s32 2], [s32 4], [s32 1]⟩

noncomputable def flMassKc : Kc Fl := { flKc with templates := .template flTmpl }

noncomputable def flSun : Reg Fl := fun n => if n = ['x'] then some ⟨none, none, none, none, some (s32 4), none, none⟩ else none

theorem isFloat_int (k : ℤ) (h : |k| < 2 ^ 24) : IsFloat 24 (k : ℝ) := ⟨k, 0, by norm_num, by exact_mod_cast h⟩

example : FlHistory flTmpl := by
  constructor <;> simp [flTmpl, Fl.Le] <;> norm_num

theorem s32_num {x : ℝ} (h : IsFloat 24 x) : (s32 x).Num := ⟨h, by simp⟩

theorem flTmpl_masses : FlMasses flTmpl := by
  have h : ∀ k : ℤ, |k| < 2 ^ 24 → 0 ≤ k → ∀ x ∈ [s32 (k : ℝ)], x.Num ∧ 0 ≤ x.val := by
    intro k hk h0 x hx
    rw [List.mem_singleton] at hx
    subst hx
    exact ⟨s32_num (isFloat_int k hk), Int.cast_nonneg h0⟩
  refine ⟨?_, ?_, ?_, ?_, ?_, ?_⟩
  · exact_mod_cast h 8 (by norm_num) (by norm_num)
  · exact_mod_cast h 4 (by norm_num) (by norm_num)
  · intro x hx
    simp only [flTmpl, List.mem_singleton] at hx
    subst hx
    exact ⟨s32_num ⟨1, -1, by norm_num, by norm_num⟩, by norm_num⟩
  · have := h 1 (by norm_num) (by norm_num)
    rw [Int.cast_one] at this
    exact this
  · exact_mod_cast h 2 (by norm_num) (by norm_num)
  · exact_mod_cast h 4 (by norm_num) (by norm_num)

/-- Not vacuous (C157, C158): the derived quantities of this object exist, and all the hypotheses hold. -/
example : MassOK flTmpl flMassKc.templates.nsed ∧ FlMasses flTmpl ∧ (flMassKc.distmod (f32 (s32 1))).Num ∧ FlGood (twoNodes 0 1 2 1) ∧
    (∃ D, flMassKc.derived flSun (some (.scalar (s32 1))) (some (.vec [s32 1])) (lit 0) none = .ok D) ∧
    (∃ D, flMassKc.derived flSun (some (.vec [s32 1])) (some (.arr [1] 1 [[s32 1]])) (lit 0) none = .ok D) ∧
    flMassKc.reconstructOut (some (.scalar (lit 0))) (some (.vec [s32 1])) (lit 0) = .ok (.arr [] 1 [[s32 2]]) ∧
    0 < total (vals [s32 1]) (vals flTmpl.mremain) := by
  have hm : MassOK flTmpl flMassKc.templates.nsed := ⟨rfl, rfl, rfl, rfl, rfl, rfl⟩
  have hs : flMassKc.responsesOut.mapM (solMag flSun) = .ok [s32 4] := rfl
  refine ⟨hm, flTmpl_masses, ⟨⟨40, 0, by norm_num [flMassKc, flKc], by norm_num [flMassKc, flKc, DT.prec]⟩, by simp [flMassKc, flKc]⟩, flKc_good, ?_, ?_, ?_, ?_⟩
  · rw [derived_scalar (K := flMassKc) (t := flTmpl) rfl hm (Ao := twoNodes 0 1 2 1) rfl _ _ _ rfl]
    unfold derOne
    rw [flKc_at0, ok_bind, hs, ok_bind]
    exact ⟨_, rfl⟩
  · refine ⟨_, (derived_array (K := flMassKc) (t := flTmpl) rfl hm (Ao := twoNodes 0 1 2 1) rfl flSun [s32 1] [[s32 1]] rfl (lit 0) _).mpr
      ⟨rfl, ⟨_, hs⟩, [derVals flTmpl f32 (fun x => x * lit 1) (lit 0) (flMassKc.distmod (f32 (s32 1))) [[s32 2]] [s32 4] ([s32 1].map f32)], ?_, rfl⟩⟩
    refine .cons ?_ .nil
    unfold derOne
    rw [flKc_at0, ok_bind, hs, ok_bind]
    rfl
  · unfold Kc.reconstructOut
    have := recon_scalar flMassKc.toFitter (twoNodes 0 1 2 1) (lit 0) [s32 1] (lit 0) rfl
    rw [flKc_at0] at this
    simp only [Except.map, List.map_cons, List.map_nil, flKc_recon isFloat_two] at this
    exact this
  · simp [total, vals, flTmpl]

end KC
