import Verif.Lemmas.FlOps
import Verif.Lemmas.AMat
import Verif.Lemmas.Build

/-!
# The interpolator of the A matrix in floating point
-/

namespace KC

theorem isNan_fl (a : Fl) : isNan a = false := by simp [isNan, fl_le]

theorem searchLeft_fl (x : List Fl) (q : Fl) : searchLeft x q = searchLeft (x.map Fl.val) q.val := by
  rw [searchLeft_real]
  unfold searchLeft
  rw [List.takeWhile_map, List.length_map]
  congr 1
  have : (fun a : Fl => ltb a q || (isNan q && !isNan a)) = (fun a => decide (a < q.val)) ∘ Fl.val := by
    funext a
    simp [isNan_fl, fl_lt]
  rw [this]

theorem lit_zero : (lit 0 : Fl) = ⟨0, .weak⟩ := by simp [fl_lit]

theorem ent_fl (x : List Fl) (i : Nat) : (ent x i).val = ent (x.map Fl.val) i := by
  unfold ent List.getD
  rw [List.getElem?_map]
  cases x[i]? <;> simp [lit_zero]

theorem headD_fl (x : List Fl) : (x.headD (lit 0)).val = (x.map Fl.val).headD 0 := by
  cases x <;> simp [lit_zero]

theorem getLastD_fl (x : List Fl) : (x.getLastD (lit 0)).val = (x.map Fl.val).getLastD 0 := by
  rw [List.getLastD_eq_getLast?, List.getLastD_eq_getLast?, List.getLast?_map]
  cases x.getLast? <;> simp [lit_zero]

/-- An interpolator of floats: at least two distinct increasing nodes, matrices of one shape, all numbers numpy floats. -/
structure FlGood (m : AMat Fl) : Prop where
  incr : m.x.Pairwise (fun a b => a.val < b.val)
  two : 2 ≤ m.x.length
  len : m.ys.length = m.x.length
  rows : ∀ M ∈ m.ys, M.length = m.nrow ∧ ∀ row ∈ M, row.length = m.ncol
  numx : ∀ z ∈ m.x, z.Num
  numy : ∀ M ∈ m.ys, ∀ row ∈ M, ∀ a ∈ row, a.Num

theorem FlGood.ne {m : AMat Fl} (h : FlGood m) : m.x ≠ [] := by
  have := h.two; intro h0; simp [h0] at this

theorem FlGood.ent_num {m : AMat Fl} (h : FlGood m) {i : Nat} (hi : i < m.x.length) : (ent m.x i).Num := by
  unfold ent
  rw [getD_lt hi]
  exact h.numx _ (List.getElem_mem _)

/-- the matrix of node `i` -/
def AMat.node (m : AMat Fl) (i : Nat) : List (List Fl) := m.ys.getD i []

theorem FlGood.node_mem {m : AMat Fl} (h : FlGood m) {i : Nat} (hi : i < m.x.length) : m.node i ∈ m.ys := by
  unfold AMat.node
  rw [getD_lt (by rw [h.len]; exact hi)]
  exact List.getElem_mem _

/-- The interpolator inside its range: the two nodes around the redshift. -/
theorem at_fl {m : AMat Fl} (h : FlGood m) {q : Fl} {M : List (List Fl)} (hM : m.at q = .ok M) :
    ∃ i, i + 1 < m.x.length ∧ (ent m.x i).val < (ent m.x (i + 1)).val ∧ (ent m.x i).val ≤ q.val ∧ q.val ≤ (ent m.x (i + 1)).val ∧
      M = linBetween (ent m.x i) (ent m.x (i + 1)) q (m.node i) (m.node (i + 1)) := by
  unfold AMat.at at hM
  rw [if_neg (by simpa using h.ne)] at hM
  split at hM
  · cases hM
  · rename_i hr
    rw [fl_lt, fl_lt, headD_fl, getLastD_fl] at hr
    simp only [Bool.or_eq_true, decide_eq_true_eq, not_or, not_lt] at hr
    have hs : (m.x.map Fl.val).Pairwise (· < ·) := by rw [List.pairwise_map]; exact h.incr
    have h2 : 2 ≤ (m.x.map Fl.val).length := by simpa using h.two
    obtain ⟨b1, b2, b3, b4⟩ := bracket_idx hs h2 hr
    simp only [searchLeft_fl, List.length_map] at b1 b2 b3 b4 hM
    set c := clipIdx m.x.length (searchLeft (m.x.map Fl.val) q.val) with hc
    have e : c - 1 + 1 = c := by omega
    refine ⟨c - 1, by omega, ?_, ?_, ?_, ?_⟩
    · rw [ent_fl, ent_fl]
      exact ent_lt hs (by omega) (by rw [List.length_map]; omega)
    · rw [ent_fl]; exact b3
    · rw [e, ent_fl]; exact b4
    · rw [e]
      simp only [Except.ok.injEq] at hM
      exact hM.symm

/-- One entry: the interpolated value has the error of one rounding, and six roundings of the change between the nodes. -/
theorem linEntry_fl {xlo xhi q a b : Fl} (nlo : xlo.Num) (nhi : xhi.Num) (nq : q.Num) (na : a.Num) (nb : b.Num) (hlt : xlo.val < xhi.val)
    (h1 : xlo.val ≤ q.val) (h2 : q.val ≤ xhi.val) :
    (linEntry xlo xhi q a b).Num ∧
    |(linEntry xlo xhi q a b).val - linEntry xlo.val xhi.val q.val a.val b.val| ≤ 6 * uro 24 * |b.val - a.val| + uro 24 * max |a.val| |b.val| := by
  obtain ⟨n1, e1⟩ := sub_num nb na
  obtain ⟨n2, e2⟩ := sub_num nhi nlo
  obtain ⟨n3, e3⟩ := div_num n1 n2
  obtain ⟨n4, e4⟩ := sub_num nq nlo
  obtain ⟨n5, e5⟩ := mul_num n3 n4
  obtain ⟨n6, e6⟩ := add_num n5 na
  refine ⟨n6, ?_⟩
  have hT : Near 5 ((b.val - a.val) / (xhi.val - xlo.val) * (q.val - xlo.val)) ((b - a) / (xhi - xlo) * (q - xlo) : Fl).val := by
    have hA := ((e1.div e2).trans e3)
    have hB := (hA.mul e4).trans e5
    exact hB.mono (by norm_num)
  set E := (b.val - a.val) / (xhi.val - xlo.val) * (q.val - xlo.val) with hE
  set T := ((b - a) / (xhi - xlo) * (q - xlo) : Fl).val with hTd
  have hEb : |E| ≤ |b.val - a.val| := by
    rw [hE, abs_mul, abs_div, abs_of_pos (sub_pos.mpr hlt), abs_of_nonneg (sub_nonneg.mpr h1), div_mul_eq_mul_div,
      div_le_iff₀ (sub_pos.mpr hlt)]
    gcongr
  have hTE := hT.rel (by unfold uro; norm_num)
  have hc5 : ((5 : ℕ) : ℝ) * uro 24 / (1 - ((5 : ℕ) : ℝ) * uro 24) ≤ 5.1 * uro 24 := by unfold uro; norm_num
  have hTE' : |T - E| ≤ 5.1 * uro 24 * |b.val - a.val| := by
    have hu := uro_pos 24
    calc |T - E| ≤ 5.1 * uro 24 * |E| := hTE.trans (by gcongr)
      _ ≤ _ := by gcongr
  have hL : linEntry xlo.val xhi.val q.val a.val b.val = E + a.val := by rw [hE]; rfl
  have hLb : |E + a.val| ≤ max |a.val| |b.val| := by
    have := linEntry_between (a := a.val) (b := b.val) hlt h1 h2
    rw [hL] at this
    rw [abs_le]
    constructor
    · have m1 : -max |a.val| |b.val| ≤ min a.val b.val := by
        apply le_min
        · have := neg_abs_le a.val
          have := le_max_left |a.val| |b.val|
          linarith
        · have := neg_abs_le b.val
          have := le_max_right |a.val| |b.val|
          linarith
      linarith
    · have m1 : max a.val b.val ≤ max |a.val| |b.val| := max_le_max (le_abs_self _) (le_abs_self _)
      linarith
  have e6' := e6.rel (by unfold uro; norm_num)
  have hadd : (linEntry xlo xhi q a b).val = ((b - a) / (xhi - xlo) * (q - xlo) + a : Fl).val := rfl
  -- one rounding of the sum, in the sharp form
  have hround : |((b - a) / (xhi - xlo) * (q - xlo) + a : Fl).val - (T + a.val)| ≤ uro 24 * |T + a.val| := by
    rw [fl_add, op2_val _ n5 na]
    exact (rd_err _ _).trans (mul_le_mul_of_nonneg_right (uro_mono (DT.prec_ge _)) (abs_nonneg _))
  rw [hadd, hL]
  set y := ((b - a) / (xhi - xlo) * (q - xlo) + a : Fl).val with hy
  have hu := uro_pos 24
  have hu' := uro_small'
  have t1 : |T + a.val| ≤ max |a.val| |b.val| + 5.1 * uro 24 * |b.val - a.val| := by
    have := abs_add_le (E + a.val) (T - E)
    have e : E + a.val + (T - E) = T + a.val := by ring
    rw [e] at this
    linarith
  have t2 : |y - (E + a.val)| ≤ |y - (T + a.val)| + |T - E| := by
    have := abs_add_le (y - (T + a.val)) (T - E)
    have e : y - (T + a.val) + (T - E) = y - (E + a.val) := by ring
    rwa [e] at this
  have hd := abs_nonneg (b.val - a.val)
  nlinarith [mul_nonneg hu.le hd, mul_nonneg hu.le (mul_nonneg hu.le hd)]
where
  uro_small' : uro 24 ≤ 1e-7 := by unfold uro; norm_num

end KC
