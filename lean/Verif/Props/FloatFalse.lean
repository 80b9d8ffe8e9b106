import Verif.Props.FloatRecon

/-!
# C134, C135: the values at the nodes and the sign of reconstructed fluxes, in float32
-/

namespace KC
open Spec

/-- a float32 number -/
abbrev s32 (x : ℝ) : Fl := ⟨x, .f32⟩

theorem s32_sub (x y : ℝ) : s32 x - s32 y = s32 (rd 24 (rd 24 x - rd 24 y)) := rfl
theorem s32_add (x y : ℝ) : s32 x + s32 y = s32 (rd 24 (rd 24 x + rd 24 y)) := rfl
theorem s32_mul (x y : ℝ) : s32 x * s32 y = s32 (rd 24 (rd 24 x * rd 24 y)) := rfl
theorem s32_div (x y : ℝ) : s32 x / s32 y = s32 (rd 24 (rd 24 x / rd 24 y)) := rfl

/-- a matrix with two nodes, one band and one template -/
noncomputable def twoNodes (x0 x1 a b : ℝ) : AMat Fl := ⟨[s32 x0, s32 x1], [[[s32 a]], [[s32 b]]], 1, 1⟩

theorem twoNodes_built {x0 x1 a b : ℝ} (h : x0 < x1) : mkAMat [s32 x0, s32 x1] [[[s32 a]], [[s32 b]]] 1 1 = .ok (twoNodes x0 x1 a b) := by
  have hs : [s32 x0, s32 x1].Pairwise (fun a b => a.val ≤ b.val) := by simp [h.le]
  unfold mkAMat
  rw [if_pos (by simp), argsort_fl hs, gather_range _ _ rfl]
  rfl

theorem twoNodes_at {x0 x1 a b : ℝ} (h : x0 < x1) : (twoNodes x0 x1 a b).at (s32 x1) = .ok [[linEntry (s32 x0) (s32 x1) (s32 x1) (s32 a) (s32 b)]] := by
  unfold AMat.at twoNodes
  rw [if_neg (by simp), if_neg (by simp [fl_lt, h.le])]
  have : searchLeft [s32 x0, s32 x1] (s32 x1) = 1 := by
    unfold searchLeft
    simp [isNan_fl, fl_lt, List.takeWhile, h]
  simp only [this]
  rfl

theorem twoNodes_at0 {x0 x1 a b : ℝ} (h : x0 < x1) : (twoNodes x0 x1 a b).at (s32 x0) = .ok [[linEntry (s32 x0) (s32 x1) (s32 x0) (s32 a) (s32 b)]] := by
  unfold AMat.at twoNodes
  rw [if_neg (by simp), if_neg (by simp [fl_lt, h.le])]
  have : searchLeft [s32 x0, s32 x1] (s32 x0) = 0 := by
    unfold searchLeft
    simp [isNan_fl, fl_lt, List.takeWhile]
  simp only [this]
  rfl

theorem twoNodes_good {x0 x1 a b : ℝ} (h : x0 < x1) (h0 : IsFloat 24 x0) (h1 : IsFloat 24 x1) (ha : IsFloat 24 a) (hb : IsFloat 24 b) :
    FlGood (twoNodes x0 x1 a b) := by
  have num : ∀ {x : ℝ}, IsFloat 24 x → (s32 x).Num := fun h => ⟨h, by simp⟩
  refine ⟨by simp [twoNodes, h], by simp [twoNodes], rfl, by simp [twoNodes], ?_, ?_⟩
  · simp only [twoNodes, List.mem_cons, List.not_mem_nil, or_false]
    rintro z (rfl | rfl)
    · exact num h0
    · exact num h1
  · simp only [twoNodes, List.mem_cons, List.not_mem_nil, or_false]
    rintro M (rfl | rfl) row hr a' ha' <;> simp only [List.mem_singleton] at hr <;> subst hr <;> simp only [List.mem_singleton] at ha' <;> subst ha'
    · exact num ha
    · exact num hb

/-- `7 / (13/8) * (13/8)` is more than 7 in float32. -/
theorem overshoot : linEntry (s32 0) (s32 (13 / 8)) (s32 (13 / 8)) (s32 7) (s32 0) = s32 (-(1 / 2 ^ 21)) := by
  have f13 : rd 24 (13 / 8 : ℝ) = 13 / 8 := rd_float ⟨13, -3, by norm_num, by norm_num⟩
  have f7 : rd 24 (7 : ℝ) = 7 := rd_float ⟨7, 0, by norm_num, by norm_num⟩
  have f7' : rd 24 (-7 : ℝ) = -7 := by rw [rd_neg, f7]
  have h1 : rd 24 (-7 / (13 / 8) : ℝ) = -(9033886 / 2 ^ 21) := by
    have : rd 24 (-7 / (13 / 8) : ℝ) = ((-9033886 : ℤ) : ℝ) * 2 ^ ((2 : ℤ) - (24 : ℕ) + 1) := by
      apply rd_eq
      · rw [abs_of_neg (by norm_num)]; norm_num
      · rw [abs_of_neg (by norm_num)]; norm_num
      · rw [abs_of_pos (by norm_num)]; norm_num
    rw [this]; norm_num
  have f1 : rd 24 (-(9033886 / 2 ^ 21) : ℝ) = -(9033886 / 2 ^ 21) := rd_float ⟨-9033886, -21, by norm_num, by norm_num⟩
  have h2 : rd 24 (-(9033886 / 2 ^ 21) * (13 / 8) : ℝ) = -(14680065 / 2 ^ 21) := by
    have : rd 24 (-(9033886 / 2 ^ 21) * (13 / 8) : ℝ) = ((-14680065 : ℤ) : ℝ) * 2 ^ ((2 : ℤ) - (24 : ℕ) + 1) := by
      apply rd_eq
      · rw [abs_of_neg (by norm_num)]; norm_num
      · rw [abs_of_neg (by norm_num)]; norm_num
      · rw [abs_of_pos (by norm_num)]; norm_num
    rw [this]; norm_num
  have f2 : rd 24 (-(14680065 / 2 ^ 21) : ℝ) = -(14680065 / 2 ^ 21) := rd_float ⟨-14680065, -21, by norm_num, by norm_num⟩
  have f3 : rd 24 (-(1 / 2 ^ 21) : ℝ) = -(1 / 2 ^ 21) := rd_float ⟨-1, -21, by norm_num, by norm_num⟩
  unfold linEntry
  simp only [s32_sub, s32_div, s32_mul, s32_add, rd_zero, f13, f7, sub_zero, zero_sub, f7', h1, f1, h2, f2]
  have : (-(14680065 / 2 ^ 21) + 7 : ℝ) = -(1 / 2 ^ 21) := by norm_num
  rw [this, f3]

/-- A small value next to a large one is lost. -/
theorem lost : linEntry (s32 0) (s32 1) (s32 1) (s32 1) (s32 (1 / 2 ^ 30)) = s32 0 := by
  have f1 : rd 24 (1 : ℝ) = 1 := rd_float isFloat_one
  have f1' : rd 24 (-1 : ℝ) = -1 := by rw [rd_neg, f1]
  have fs : rd 24 (1 / 2 ^ 30 : ℝ) = 1 / 2 ^ 30 := rd_float ⟨1, -30, by norm_num, by norm_num⟩
  have h1 : rd 24 (1 / 2 ^ 30 - 1 : ℝ) = -1 := by
    have : rd 24 (1 / 2 ^ 30 - 1 : ℝ) = ((-2 ^ 24 : ℤ) : ℝ) * 2 ^ ((-1 : ℤ) - (24 : ℕ) + 1) := by
      apply rd_eq
      · rw [abs_of_neg (by norm_num)]; norm_num
      · rw [abs_of_neg (by norm_num)]; norm_num
      · rw [abs_of_pos (by norm_num)]; norm_num
    rw [this]; norm_num
  unfold linEntry
  simp only [s32_sub, s32_div, s32_mul, s32_add, rd_zero, f1, fs, sub_zero, h1, f1', div_one, mul_one]
  norm_num

/-- **C134, false of the code.** A matrix element of `2^-30` at the second redshift, with 1 at the first one, is saved as 0. -/
theorem C134_false (K : Kc Fl) (hA : K.Amatrix = some (twoNodes 0 1 1 (1 / 2 ^ 30))) (hO : K.AmatrixOut = some (twoNodes 0 1 1 (1 / 2 ^ 30)))
    (hz : K.redshifts = [s32 0, s32 1]) :
    FlGood (twoNodes 0 1 1 (1 / 2 ^ 30)) ∧ mkAMat [s32 0, s32 1] [[[s32 1]], [[s32 (1 / 2 ^ 30)]]] 1 1 = .ok (twoNodes 0 1 1 (1 / 2 ^ 30)) ∧
    ∃ h, K.hdus = .ok h ∧ (Ext.A, Hdu.image (.arr [2, 1] 1 [[s32 1], [s32 0]])) ∈ h := by
  have hlt : (0 : ℝ) < 1 := one_pos
  have f0 : IsFloat 24 (0 : ℝ) := isFloat_zero _
  have fs : IsFloat 24 (1 / 2 ^ 30 : ℝ) := ⟨1, -30, by norm_num, by norm_num⟩
  refine ⟨twoNodes_good hlt f0 isFloat_one isFloat_one fs, twoNodes_built hlt, ?_⟩
  have e0 : linEntry (s32 0) (s32 1) (s32 0) (s32 1) (s32 (1 / 2 ^ 30)) = s32 1 := by
    have nm : ∀ {x : ℝ}, IsFloat 24 x → (s32 x).Num := fun h => ⟨h, by simp⟩
    have hv := linEntry_node_fl (nm f0) (nm isFloat_one) (nm isFloat_one) (nm fs)
    have hd : (linEntry (s32 0) (s32 1) (s32 0) (s32 1) (s32 (1 / 2 ^ 30))).dt = .f32 := rfl
    generalize linEntry (s32 0) (s32 1) (s32 0) (s32 1) (s32 (1 / 2 ^ 30)) = y at *
    obtain ⟨v, d⟩ := y
    simp only at hv hd
    rw [hv, hd]
  have hat : (twoNodes 0 1 1 (1 / 2 ^ 30)).atAll [s32 0, s32 1] = .ok [[[s32 1]], [[s32 0]]] := by
    unfold AMat.atAll
    rw [mapM_ok_iff]
    refine .cons ?_ (.cons ?_ .nil)
    · rw [twoNodes_at0 hlt, e0]
    · rw [twoNodes_at hlt, lost]
  unfold Kc.hdus
  rw [hA, hO, hz]
  simp only [ok_bind, hat]
  refine ⟨_, rfl, ?_⟩
  simp [twoNodes]

/-- **C135, false of the code.** All matrix elements and coefficients are nonnegative, and the reconstructed flux is negative. -/
theorem C135_false (F : Fitter Fl) (hA : F.Amatrix = some (twoNodes 0 (13 / 8) 7 0)) (hn : F.templates.nsed = 1) :
    FlGood (twoNodes 0 (13 / 8) 7 0) ∧ mkAMat [s32 0, s32 (13 / 8)] [[[s32 7]], [[s32 0]]] 1 1 = .ok (twoNodes 0 (13 / 8) 7 0) ∧
    F.reconstruct (some (.vec [s32 (13 / 8)])) (some (.arr [1] 1 [[s32 1]])) (lit 0) = .ok (.arr [1] 1 [[s32 (-(1 / 2 ^ 21))]]) := by
  have hlt : (0 : ℝ) < 13 / 8 := by norm_num
  have i13 : IsFloat 24 (13 / 8 : ℝ) := ⟨13, -3, by norm_num, by norm_num⟩
  have i7 : IsFloat 24 (7 : ℝ) := ⟨7, 0, by norm_num, by norm_num⟩
  have f13 := rd_float i13
  have f21 : rd 24 (21 / 8 : ℝ) = 21 / 8 := rd_float ⟨21, -3, by norm_num, by norm_num⟩
  have f1 : rd 24 (1 : ℝ) = 1 := rd_float isFloat_one
  have f3 : rd 24 (-(1 / 2 ^ 21) : ℝ) = -(1 / 2 ^ 21) := rd_float ⟨-1, -21, by norm_num, by norm_num⟩
  refine ⟨twoNodes_good hlt (isFloat_zero _) i13 i7 (isFloat_zero _), twoNodes_built hlt, ?_⟩
  unfold Fitter.reconstruct
  have hr := recon_array F (twoNodes 0 (13 / 8) 7 0) [s32 (13 / 8)] [[s32 1]] (lit 0)
  rw [hn] at hr
  simp only [List.length_singleton] at hr
  rw [hA, hr]
  have hq : shiftOf (f32 (s32 (13 / 8))) (lit 0) = s32 (13 / 8) := by
    rw [fl_f32]
    simp only [f13]
    rw [shift_float i13]
    have : (1 + 13 / 8 : ℝ) = 21 / 8 := by norm_num
    have h2 : (21 / 8 - 1 : ℝ) = 13 / 8 := by norm_num
    rw [this, f21, h2, f13]
  have hat : (twoNodes 0 (13 / 8) 7 0).atAll ([s32 (13 / 8)].map (fun z => shiftOf (f32 z) (lit 0))) = .ok [[[s32 (-(1 / 2 ^ 21))]]] := by
    unfold AMat.atAll
    rw [mapM_ok_iff, List.map_singleton, hq]
    exact .cons (by rw [twoNodes_at hlt, overshoot]) .nil
  rw [hat]
  have hrow : reconRow (lit 0) [[s32 (-(1 / 2 ^ 21))]] [f32 (s32 1)] = [s32 (-(1 / 2 ^ 21))] := by
    unfold reconRow dot sumL
    have h10 : (lit 1 : Fl) + lit 0 = ⟨1, .weak⟩ := by
      rw [lit_one, lit_zero, fl_add]
      simp only [Fl.op2, DT.join, DT.prec, rd_zero, add_zero]
      rw [rd_float (isFloat_one.mono (by norm_num)), rd_float (isFloat_one.mono (by norm_num))]
    have hp : (s32 (-(1 / 2 ^ 21)) * f32 (s32 1) + lit 0 : Fl) = s32 (-(1 / 2 ^ 21)) := by
      rw [fl_f32, lit_zero]
      simp only [f1]
      rw [s32_mul, f1, mul_one, f3, f3]
      show s32 (rd 24 (rd 24 _ + rd 24 0)) = _
      rw [rd_zero, add_zero, f3, f3]
    simp only [List.map_cons, List.map_nil, List.zipWith_cons_cons, List.zipWith_nil_left, List.foldr_cons, List.foldr_nil, hp, h10]
    show [s32 (rd 24 (rd 24 _ / rd 24 1))] = _
    rw [f1, div_one, f3, f3]
  simp only [Except.map, List.map_cons, List.map_nil, List.zipWith_cons_cons, List.zipWith_nil_left, hrow]
  rfl

/-- **C135, what holds.** With nonnegative matrix elements and coefficients the reconstructed fluxes are no less than minus `nsed + 22` rounding errors of the sum
over templates of coefficient times the larger of the two node values. -/
theorem C135_nonneg_partial (F : Fitter Fl) {A : AMat Fl} (hFA : F.Amatrix = some A) (h : FlGood A) (hcol : A.ncol = F.templates.nsed)
    (hpos : 0 < F.templates.nsed) (hN : ((F.templates.nsed + 22 : Nat) : ℝ) * uro 24 < 1) (hA : ∀ M ∈ A.ys, ∀ row ∈ M, ∀ a ∈ row, (0 : ℝ) ≤ a.val)
    (zs : List Fl) (cs : List (List Fl)) (bs : Fl) (hl : cs.length = zs.length)
    (hc : ∀ c ∈ cs, c.length = F.templates.nsed ∧ ∀ x ∈ c, (0 : ℝ) ≤ x.val) (hz : ∀ z ∈ zs, 0 ≤ z.val) (hb : 0 ≤ bs.val) (out : NDA Fl)
    (hout : F.reconstruct (some (.vec zs)) (some (.arr [zs.length] F.templates.nsed cs)) bs = .ok out) :
    ∃ rows : List (List Fl), out = .arr [zs.length] A.nrow rows ∧ rows.length = zs.length ∧
      ∀ (j : Nat) (c row : List Fl), cs[j]? = some c → rows[j]? = some row →
        ∃ i, i + 1 < A.x.length ∧ ∀ (r : Nat) (y : Fl), row[r]? = some y → ∃ ra rb : List Fl, (A.node i)[r]? = some ra ∧ (A.node (i + 1))[r]? = some rb ∧
          -(gam (F.templates.nsed + 22) * ((List.zipWith (fun (p : Fl × Fl) x => max p.1.val p.2.val * x.val) (ra.zip rb) c).sum / (1 + bs.val))) ≤ y.val := by
  obtain ⟨rows, h1, h2, h3⟩ := C133_reconstruct_accuracy F hFA h hcol hpos hN zs cs bs hl (fun c hm => (hc c hm).1) hz hb out hout
  refine ⟨rows, h1, h2, ?_⟩
  intro j c row hcj hrj
  have hj := (List.getElem?_eq_some_iff.mp hcj).1
  obtain ⟨_, q, i, _, hi, q1, q2, h5⟩ := h3 j _ c row (List.getElem?_eq_getElem (by omega)) hcj hrj
  refine ⟨i, hi, ?_⟩
  intro r y hy
  obtain ⟨ra, rb, hra, hrb, hbd⟩ := h5 r y hy
  refine ⟨ra, rb, hra, hrb, ?_⟩
  have na := hA _ (h.node_mem (i := i) (by omega)) _ (List.mem_of_getElem? hra)
  have nb := hA _ (h.node_mem (i := i + 1) hi) _ (List.mem_of_getElem? hrb)
  have nc := (hc c (List.mem_of_getElem? hcj)).2
  have hx := h.ent_lt (i := i) hi (by omega)
  have hd : 0 < (ent A.x (i + 1)).val - (ent A.x i).val := by linarith
  have ht0 : 0 ≤ (q - (ent A.x i).val) / ((ent A.x (i + 1)).val - (ent A.x i).val) := div_nonneg (by linarith) hd.le
  have ht1 : (q - (ent A.x i).val) / ((ent A.x (i + 1)).val - (ent A.x i).val) ≤ 1 := by rw [div_le_one hd]; linarith
  generalize (q - (ent A.x i).val) / ((ent A.x (i + 1)).val - (ent A.x i).val) = t at *
  have hmem : ∀ p ∈ ra.zip rb, 0 ≤ p.1.val ∧ 0 ≤ p.2.val := fun p hp => ⟨na _ (List.of_mem_zip (a := p.1) (b := p.2) hp).1, nb _ (List.of_mem_zip (a := p.1) (b := p.2) hp).2⟩
  have e : List.zipWith (fun (p : Fl × Fl) x => max |p.1.val| |p.2.val| * |x.val|) (ra.zip rb) c =
      List.zipWith (fun (p : Fl × Fl) x => max p.1.val p.2.val * x.val) (ra.zip rb) c := by
    apply List.ext_getElem (by simp)
    intro k hk _
    simp only [List.length_zipWith] at hk
    rw [List.getElem_zipWith, List.getElem_zipWith]
    obtain ⟨a1, a2⟩ := hmem _ (List.getElem_mem (l := ra.zip rb) (n := k) (by omega))
    rw [abs_of_nonneg a1, abs_of_nonneg a2, abs_of_nonneg (nc _ (List.getElem_mem _))]
  have hs : 0 ≤ (List.zipWith (fun p (x : Fl) => lineAt t p * x.val) (ra.zip rb) c).sum := by
    apply List.sum_nonneg
    intro x hx'
    obtain ⟨k, hk, rfl⟩ := List.mem_iff_getElem.mp hx'
    simp only [List.length_zipWith] at hk
    rw [List.getElem_zipWith]
    obtain ⟨a1, a2⟩ := hmem _ (List.getElem_mem (l := ra.zip rb) (n := k) (by omega))
    refine mul_nonneg ?_ (nc _ (List.getElem_mem _))
    unfold lineAt
    nlinarith
  rw [e] at hbd
  have := (abs_le.mp hbd).1
  have : 0 ≤ (List.zipWith (fun p (x : Fl) => lineAt t p * x.val) (ra.zip rb) c).sum / (1 + bs.val) := div_nonneg hs (by linarith)
  linarith

/-- Not vacuous (C132–C134): the default grid, with 2 bands. -/
example (lib : Lib Fl) (disk : Disk Fl) (c : Curve Fl) :
    (∃ w' F, (Fitter.mk' .base [['x'], ['y']] (.sed flSed) (lit 0) (lit 2) 4000 false).setAmatrix lib disk ⟨flReg c, flSed⟩ = (w', .ok F)) ∧
    FineGrid (lit 0) (lit 2) 4000 ∧ ((5 + 22 : Nat) : ℝ) * uro 24 < 1 := by
  have e0 : (lit 0 : Fl).val = 0 := by simp [fl_lit]
  have e2 : (lit 2 : Fl).val = 2 := by
    have := lit_nat (n := 2) (by norm_num)
    norm_num at this
    rw [this]
  have hf2 : IsFloat 24 2 := by simpa using isFloat_nat (p := 24) (n := 2) (by norm_num) (by norm_num)
  refine ⟨fl_build lib disk c _ _ _ (by norm_num) (by norm_num) (by rw [e0]) (by rw [e0, e2]; norm_num), ⟨by norm_num, by norm_num, by rw [e0], by rw [e0, e2]; norm_num, ?_⟩, ?_⟩
  · simp only [fl_f32, e0, e2, rd_zero, rd_float hf2]
    unfold uro
    norm_num
  · unfold uro; norm_num

end KC
