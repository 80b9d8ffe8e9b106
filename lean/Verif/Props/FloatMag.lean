import Verif.Props.FloatFalse
import Verif.Props.Absmag

/-!
# C138, C139: K-corrections and absolute magnitudes in floating point
-/

namespace KC
open Spec

/-! ### magnitudes -/

theorem Near.rel_small {k : Nat} (hk : k ≤ 20) {x a : ℝ} (h : Near k x a) : |a - x| ≤ 1.01 * k * uro 24 * |x| := by
  have hu := uro_pos 24
  have hu1 : uro 24 ≤ 1 / 10000 := by unfold uro; norm_num
  have hk' : (k : ℝ) ≤ 20 := by exact_mod_cast hk
  have hk0 : (0 : ℝ) ≤ k := Nat.cast_nonneg k
  have hku : k * uro 24 ≤ 1 / 500 := by nlinarith
  refine (h.rel (by linarith)).trans (mul_le_mul_of_nonneg_right ?_ (abs_nonneg x))
  rw [div_le_iff₀ (by linarith)]
  have : 0 ≤ k * uro 24 := by positivity
  nlinarith

theorem log10_num {a : Fl} (ha : a.Num) : (log10 a : Fl).Num ∧ Near 1 (Real.logb 10 a.val) (log10 a : Fl).val := op1_num ha _

theorem isFloat_five_halves : IsFloat 24 (5 / 2) := ⟨5, -1, by norm_num, by norm_num⟩

theorem lit_exact (q : ℚ) (h : IsFloat 24 (q : ℝ)) : (lit q : Fl) = ⟨q, .weak⟩ := by
  rw [fl_lit, rd_float (h.mono (by norm_num))]

theorem lit_mul_exact {q : ℚ} (hq : IsFloat 24 (q : ℝ)) {b : Fl} (hb : b.Num) : (lit q * b : Fl).Num ∧ Near 1 (q * b.val) (lit q * b : Fl).val := by
  refine ⟨op2_num _ (Or.inr hb.2), ?_⟩
  rw [lit_exact q hq, fl_mul, op2_val_lit _ hq hb]
  exact near_rd (DT.prec_ge _) _

theorem isFloat_mfh : IsFloat 24 (((-5 / 2 : ℚ)) : ℝ) := by
  have e : (((-5 / 2 : ℚ)) : ℝ) = -(5 / 2) := by push_cast; ring
  rw [e]
  exact isFloat_five_halves.neg

theorem isFloat_fh : IsFloat 24 (((5 / 2 : ℚ)) : ℝ) := by
  have e : (((5 / 2 : ℚ)) : ℝ) = 5 / 2 := by push_cast; ring
  rw [e]
  exact isFloat_five_halves

/-- `-2.5 * np.log10(x)` -/
theorem magOf_fl {a : Fl} (ha : a.Num) : (magOf a).Num ∧ Near 2 (mag a.val) (magOf a).val := by
  obtain ⟨n1, e1⟩ := log10_num ha
  obtain ⟨n2, e2⟩ := lit_mul_exact isFloat_mfh n1
  refine ⟨n2, ?_⟩
  have h := ((Near.refl (((-5 / 2 : ℚ)) : ℝ)).mul e1).trans e2
  have e : (((-5 / 2 : ℚ)) : ℝ) * Real.logb 10 a.val = mag a.val := by
    unfold mag; push_cast; ring
  rw [e] at h
  exact h

/-! ### reconstructed fluxes are numpy floats -/

theorem shiftOf_num (z bs : Fl) : (shiftOf (f32 z) bs).Num := by
  unfold shiftOf
  refine op2_num _ (Or.inl ?_)
  rw [dt_mul]
  exact join_ne (by rw [dt_add, dt_f32]; exact join_ne' (by simp))

theorem at_num {A : AMat Fl} (h : FlGood A) {q : Fl} (nq : q.Num) {M : List (List Fl)} (hM : A.at q = .ok M) :
    M.length = A.nrow ∧ ∀ row ∈ M, row.length = A.ncol ∧ ∀ a ∈ row, a.Num := by
  obtain ⟨i, hi, h1, h2, h3, rfl⟩ := at_fl h hM
  have m1 := h.node_mem (i := i) (by omega)
  have m2 := h.node_mem (i := i + 1) hi
  have l1 := h.rows _ m1
  have l2 := h.rows _ m2
  unfold linBetween
  refine ⟨by simp [l1.1, l2.1], ?_⟩
  intro row hr
  obtain ⟨k, hk, rfl⟩ := List.mem_iff_getElem.mp hr
  rw [List.getElem_zipWith]
  have hk1 : k < (A.node i).length := by simp at hk; omega
  have hk2 : k < (A.node (i + 1)).length := by simp at hk; omega
  refine ⟨by simp [l1.2 _ (List.getElem_mem hk1), l2.2 _ (List.getElem_mem hk2)], ?_⟩
  intro a ha
  obtain ⟨j, hj, rfl⟩ := List.mem_iff_getElem.mp ha
  rw [List.getElem_zipWith]
  exact (linEntry_fl (h.ent_num (i := i) (by omega)) (h.ent_num hi) nq (h.numy _ m1 _ (List.getElem_mem hk1) _ (List.getElem_mem _))
    (h.numy _ m2 _ (List.getElem_mem hk2) _ (List.getElem_mem _)) h1 h2 h3).1

theorem dot_num {a b : List Fl} (ha : ∀ x ∈ a, x.Num) (hb : ∀ x ∈ b, x.Num) : (dot a b).Num ∨ dot a b = lit 0 := by
  have hn : ∀ x ∈ List.zipWith (· * ·) a b, x.Num := by
    intro x hx
    obtain ⟨i, hi, rfl⟩ := List.mem_iff_getElem.mp hx
    rw [List.getElem_zipWith]
    exact (mul_num (ha _ (List.getElem_mem _)) (hb _ (List.getElem_mem _))).1
  rcases sums_near (sums_sumL _) hn with ⟨_, h⟩ | ⟨h, _⟩
  · exact Or.inr h
  · exact Or.inl h

theorem dot_num' {a b : List Fl} (ha : ∀ x ∈ a, x.Num) (hb : ∀ x ∈ b, x.Num) (ha0 : a ≠ []) (hb0 : b ≠ []) : (dot a b).Num := by
  have hn : ∀ x ∈ List.zipWith (· * ·) a b, x.Num := by
    intro x hx
    obtain ⟨i, hi, rfl⟩ := List.mem_iff_getElem.mp hx
    rw [List.getElem_zipWith]
    exact (mul_num (ha _ (List.getElem_mem _)) (hb _ (List.getElem_mem _))).1
  rcases sums_near (sums_sumL _) hn with ⟨h0, _⟩ | ⟨h, _⟩
  · rw [List.zipWith_eq_nil_iff] at h0
    rcases h0 with h0 | h0
    · exact absurd h0 ha0
    · exact absurd h0 hb0
  · exact h

theorem map_f32_num (c : List Fl) : ∀ x ∈ c.map (f32 : Fl → Fl), x.Num := by
  intro a ha
  obtain ⟨b, _, rfl⟩ := List.mem_map.mp ha
  exact f32_num b

/-- a nonzero reconstructed flux is a numpy float -/
theorem reconRow_num {bs : Fl} {M : List (List Fl)} (hM : ∀ row ∈ M, ∀ a ∈ row, a.Num) (c : List Fl) {y : Fl} (hy : y ∈ reconRow bs M (c.map f32))
    (h0 : y.val ≠ 0) : y.Num := by
  unfold reconRow at hy
  obtain ⟨row, hr, rfl⟩ := List.mem_map.mp hy
  rcases dot_num (hM row hr) (map_f32_num c) with h | h
  · exact op2_num _ (Or.inl h.2)
  · exfalso
    apply h0
    rw [h, lit_zero, fl_div]
    simp [Fl.op2]

/-- with at least one template every reconstructed flux is a numpy float -/
theorem reconRow_num' {bs : Fl} {M : List (List Fl)} (hM : ∀ row ∈ M, row ≠ [] ∧ ∀ a ∈ row, a.Num) {c : List Fl} (hc : c ≠ []) {y : Fl}
    (hy : y ∈ reconRow bs M (c.map f32)) : y.Num := by
  unfold reconRow at hy
  obtain ⟨row, hr, rfl⟩ := List.mem_map.mp hy
  exact op2_num _ (Or.inl (dot_num' (hM row hr).2 (map_f32_num c) (hM row hr).1 (by simpa using hc)).2)

theorem f32_f32 (a : Fl) : f32 (f32 a) = f32 a := f32_of_f32 (f32_num a) rfl

theorem map_f32_f32 (c : List Fl) : (c.map f32).map f32 = c.map (f32 : Fl → Fl) := by
  rw [List.map_map]
  exact List.map_congr_left (fun a _ => f32_f32 a)

theorem f32_zero_mul (z : Fl) : f32 (lit 0 * f32 z) = f32 (lit 0 : Fl) := by
  rw [fl_mul, lit_zero]
  simp [Fl.op2, fl_f32]

/-- the sum of coefficients, none negative and one positive -/
theorem sumL_pos {c : List Fl} (h0 : ∀ x ∈ c, 0 ≤ x.val) (h1 : ∃ x ∈ c, 0 < x.val) : 0 < (sumL (c.map f32) : Fl).val := by
  obtain ⟨x, hx, hx0⟩ := h1
  rcases sums_near (sums_sumL _) (map_f32_num c) with ⟨h, _⟩ | ⟨_, _, ts, ht, hs⟩
  · rw [List.map_eq_nil_iff] at h
    rw [h] at hx
    simp at hx
  · rw [hs]
    rw [List.forall₂_iff_get] at ht
    have hnn : ∀ t ∈ ts, 0 ≤ t := by
      intro t ht'
      obtain ⟨i, hi, rfl⟩ := List.mem_iff_getElem.mp ht'
      have := ht.2 i (by rw [ht.1]; exact hi) hi
      simp only [List.get_eq_getElem, List.getElem_map] at this
      exact this.nonneg ((f32_near _).nonneg (h0 _ (List.getElem_mem _)))
    obtain ⟨i, hi, rfl⟩ := List.mem_iff_getElem.mp hx
    have hi' : i < ts.length := by rw [← ht.1]; simpa using hi
    have := ht.2 i (by simpa using hi) hi'
    simp only [List.get_eq_getElem, List.getElem_map] at this
    have hp : 0 < ts[i] := this.pos ((f32_near _).pos hx0)
    exact lt_of_lt_of_le hp (List.single_le_sum hnn _ (List.getElem_mem hi'))

/-! ### C138 -/

/-- `-2.5 log10 (x / y)` computed, and the difference of the two magnitudes -/
theorem kEntry_fl {x y : Fl} (nx : x.Num) (ny : y.Num) (hx : 0 < x.val) (hy : 0 < y.val) :
    (magOf (x / y)).Num ∧ |(magOf (x / y)).val - (mag x.val - mag y.val)| ≤ uro 24 * (2 + 3 * |mag x.val - mag y.val|) := by
  obtain ⟨n1, e1⟩ := div_num nx ny
  obtain ⟨n2, e2⟩ := magOf_fl n1
  refine ⟨n2, ?_⟩
  have hq : 0 < x.val / y.val := div_pos hx hy
  have em : mag x.val - mag y.val = mag (x.val / y.val) := by
    unfold mag
    rw [Real.logb_div hx.ne' hy.ne']
    ring
  rw [em]
  have h1 := e1.mag hq
  have h2 := e2.rel_small (by norm_num)
  push_cast at h1 h2
  generalize mag (x.val / y.val) = m at *
  generalize mag (x / y : Fl).val = m1 at *
  generalize (magOf (x / y)).val = r at *
  have hu := uro_pos 24
  have hu1 : uro 24 ≤ 1 / 10000 := by unfold uro; norm_num
  have h3 : |m1| ≤ |m| + 1.1 * uro 24 := by
    have : m1 = m + (m1 - m) := by ring
    rw [this]
    refine (abs_add_le _ _).trans ?_
    linarith
  have : r - m = (r - m1) + (m1 - m) := by ring
  rw [this]
  refine (abs_add_le _ _).trans ?_
  have hm := abs_nonneg m
  nlinarith

theorem kRow_get_fl {imap : List Nat} {round : Fl → Fl} {c a b : List Fl} (hs : 0 < (sumL c : Fl).val) {j i : Nat} {x y : Fl} (hj : imap[j]? = some i)
    (hx : a[i]? = some x) (hy : b[j]? = some y) : (kRow imap round c a b)[j]? = some (round (magOf (x / y))) := by
  unfold kRow
  rw [if_pos (by rw [gtb, fl_lt, lit_zero]; simpa using hs)]
  simp [gather, List.getElem?_zipWith, hj, hx, hy]

/-- a K-correction of one object and the reconstructed fluxes it is made from -/
theorem kOne_fl {imap : List Nat} {A Ao : AMat Fl} (gA : FlGood A) (gAo : FlGood Ao) {round : Fl → Fl} {bs z : Fl} {c : List Fl}
    (h0 : ∀ x ∈ c, 0 ≤ x.val) (h1 : ∃ x ∈ c, 0 < x.val) {k : List Fl} {M Mo : List (List Fl)} (hk : kOne imap A Ao round bs (f32 z) (c.map f32) = .ok k)
    (hM : A.at (shiftOf (f32 z) (lit 0)) = .ok M) (hMo : Ao.at (shiftOf (f32 (lit 0)) bs) = .ok Mo) :
    ∀ (j i : Nat) (fa fb : Fl), imap[j]? = some i → (reconRow (lit 0) M (c.map f32))[i]? = some fa → (reconRow bs Mo (c.map f32))[j]? = some fb →
      0 < fa.val → 0 < fb.val → ∃ kv : Fl, k[j]? = some (round kv) ∧ kv.Num ∧
        |kv.val - (mag fa.val - mag fb.val)| ≤ uro 24 * (2 + 3 * |mag fa.val - mag fb.val|) := by
  unfold kOne at hk
  rw [f32_f32, f32_zero_mul, hM, ok_bind, hMo, ok_bind, map_f32_f32, pure_py] at hk
  cases hk
  intro j i fa fb hj ha hb pa pb
  have na := reconRow_num (fun row hr => ((at_num gA (shiftOf_num _ _) hM).2 row hr).2) c (List.mem_of_getElem? ha) pa.ne'
  have nb := reconRow_num (fun row hr => ((at_num gAo (shiftOf_num _ _) hMo).2 row hr).2) c (List.mem_of_getElem? hb) pb.ne'
  obtain ⟨n, e⟩ := kEntry_fl na nb pa pb
  exact ⟨_, kRow_get_fl (sumL_pos h0 h1) hj ha hb, n, e⟩

/-- **C138, one object.** In floating point the K-correction in an output band is the difference of the two model magnitudes, computed from the maggies that
`reconstruct` and `reconstruct_out` return, up to two units of single-precision rounding and three relative to its size. -/
theorem C138_kcorrect_accuracy {K : Kc Fl} {A Ao : AMat Fl} (hA : K.Amatrix = some A) (hAo : K.AmatrixOut = some Ao) (gA : FlGood A) (gAo : FlGood Ao)
    (z bs : Fl) (c : List Fl) (hc : c.length = K.templates.nsed) (h0 : ∀ x ∈ c, 0 ≤ x.val) (h1 : ∃ x ∈ c, 0 < x.val) {k a b : NDA Fl}
    (hk : K.kcorrect (some (.scalar z)) (some (.vec c)) bs = .ok k) (ha : K.reconstruct (some (.scalar z)) (some (.vec c)) (lit 0) = .ok a)
    (hb : K.reconstructOut (some (.scalar (lit 0))) (some (.vec c)) bs = .ok b) :
    k.shape = b.shape ∧ ∀ (j i : Nat) (fa fb : Fl), K.imap[j]? = some i → entry a 0 i = some fa → entry b 0 j = some fb → 0 < fa.val → 0 < fb.val →
      ∃ kv : Fl, entry k 0 j = some kv ∧ |kv.val - (mag fa.val - mag fb.val)| ≤ uro 24 * (2 + 3 * |mag fa.val - mag fb.val|) := by
  unfold Fitter.reconstruct at ha
  unfold Kc.reconstructOut at hb
  rw [hA, recon_scalar _ _ _ _ _ hc] at ha
  rw [hAo, recon_scalar _ _ _ _ _ hc] at hb
  rw [kcorrect_scalar hA hAo _ _ hc] at hk
  cases hM : A.at (shiftOf (f32 z) (lit 0)) with
  | error e => rw [hM] at ha; cases ha
  | ok M =>
    cases hMo : Ao.at (shiftOf (f32 (lit 0)) bs) with
    | error e => rw [hMo] at hb; cases hb
    | ok Mo =>
      rw [hM] at ha
      rw [hMo] at hb
      cases ha
      cases hb
      cases hk' : kOne K.imap A Ao id bs (f32 z) (c.map f32) with
      | error e => rw [hk'] at hk; cases hk
      | ok kr =>
        rw [hk'] at hk
        cases hk
        refine ⟨rfl, ?_⟩
        intro j i fa fb hj ha hb pa pb
        simp only [entry, List.getElem?_cons_zero, Option.bind_some] at ha hb ⊢
        obtain ⟨kv, e1, _, e2⟩ := kOne_fl gA gAo h0 h1 hk' hM hMo j i fa fb hj ha hb pa pb
        exact ⟨kv, e1, e2⟩

/-- the rows of a batch are the single results, converted to float32 -/
theorem kOne_f32 {imap : List Nat} {A Ao : AMat Fl} {bs z : Fl} {c : List Fl} {k : List Fl} (h : kOne imap A Ao f32 bs z c = .ok k) :
    ∃ k1, kOne imap A Ao id bs z c = .ok k1 ∧ k1.length = k.length ∧ ∀ (j : Nat) kv, k[j]? = some kv → ∃ k1v, k1[j]? = some k1v ∧ kv.val = (f32 k1v).val := by
  unfold kOne at h ⊢
  rw [bind_ok_iff] at h
  obtain ⟨M, hM, h⟩ := h
  rw [bind_ok_iff] at h
  obtain ⟨Mo, hMo, h⟩ := h
  rw [pure_py] at h
  cases h
  rw [hM, ok_bind, hMo, ok_bind, pure_py]
  refine ⟨_, rfl, ?_⟩
  unfold kRow
  split
  · refine ⟨by simp, ?_⟩
    intro j kv hkv
    rw [List.getElem?_zipWith] at hkv ⊢
    cases h1 : (gather (reconRow (lit 0) M (c.map f32)) imap)[j]? with
    | none => rw [h1] at hkv; simp at hkv
    | some x =>
      cases h2 : (reconRow bs Mo (c.map f32))[j]? with
      | none => rw [h1, h2] at hkv; simp at hkv
      | some y =>
        rw [h1, h2] at hkv
        simp only [Option.some.injEq] at hkv
        exact ⟨_, rfl, by rw [← hkv]; rfl⟩
  · refine ⟨rfl, ?_⟩
    intro j kv hkv
    refine ⟨kv, hkv, ?_⟩
    have := List.mem_of_getElem? hkv
    unfold zeros at this
    rw [(List.mem_replicate.mp this).2, lit_zero]
    simp [fl_f32]

/-- **C138, batches.** A batch gives for each object the numbers the call for that object gives, rounded to float32. -/
theorem C138_batch {K : Kc Fl} {A Ao : AMat Fl} (hA : K.Amatrix = some A) (hAo : K.AmatrixOut = some Ao) (zs : List Fl) (cs : List (List Fl)) (bs : Fl)
    (hcs : cs.length = zs.length) (hc : ∀ c ∈ cs, c.length = K.templates.nsed) {out : NDA Fl}
    (hk : K.kcorrect (some (.vec zs)) (some (.arr [zs.length] K.templates.nsed cs)) bs = .ok out) :
    out.shape = [zs.length, Ao.nrow] ∧ ∀ (r : Nat) z c, zs[r]? = some z → cs[r]? = some c →
      ∃ k, K.kcorrect (some (.scalar z)) (some (.vec c)) bs = .ok k ∧ ∀ (j : Nat) (kv : Fl), entry out r j = some kv →
        ∃ k1, entry k 0 j = some k1 ∧ kv.val = rd 24 k1.val := by
  obtain ⟨rows, hf, rfl⟩ := ((kcorrect_array hA hAo zs cs hcs bs).1 out).mp hk
  refine ⟨rfl, ?_⟩
  intro r z c hz hcr
  have hr := (List.getElem?_eq_some_iff.mp hz).1
  have hr2 : r < (List.zip zs cs).length := by simp [hcs, hr]
  have hr3 : r < rows.length := by rw [← hf.length_eq]; exact hr2
  have := (List.forall₂_iff_get.mp hf).2 r hr2 hr3
  simp only [List.get_eq_getElem, List.getElem_zip] at this
  rw [(List.getElem?_eq_some_iff.mp hz).2, (List.getElem?_eq_some_iff.mp hcr).2] at this
  obtain ⟨k1, h1, _, h3⟩ := kOne_f32 this
  refine ⟨_, by rw [kcorrect_scalar hA hAo z c (hc c (List.mem_of_getElem? hcr)), h1]; rfl, ?_⟩
  intro j kv hkv
  simp only [entry, List.getElem?_eq_getElem hr3, Option.bind_some] at hkv
  simp only [entry, List.getElem?_cons_zero, Option.bind_some]
  exact h3 j kv hkv

/-- **C138, at rest.** With the default output bands, at redshift 0 and without band shift, the computed K-correction is exactly 0 in every band with positive
model flux. -/
theorem C138_rest {lib : Lib Fl} {disk : Disk Fl} {cls : Cls} {R : List Name} {T : Tpl Fl} {lo hi : Fl} {n : Nat} {ab : Bool} {dm : Fl → Fl}
    {w w' : Shared Fl} {K : Kc Fl} (hK : Kc.init lib disk cls R T none none lo hi n ab dm w = (w', .ok K)) (hg : FineGrid lo hi n)
    (c : List Fl) (hc : c.length = K.templates.nsed) {k r : NDA Fl} (hr : K.reconstruct (some (.scalar (lit 0))) (some (.vec c)) (lit 0) = .ok r)
    (hk : K.kcorrect (some (.scalar (lit 0))) (some (.vec c)) (lit 0) = .ok k) :
    k.shape = r.shape ∧ ∀ (j : Nat) (f : Fl), j < R.length → entry r 0 j = some f → 0 < f.val → ∃ kv : Fl, entry k 0 j = some kv ∧ kv.val = 0 := by
  obtain ⟨w1, A, hcalc, hF, _⟩ := init_ok hK
  obtain ⟨_, _, hO, hlen, hmap, _⟩ := C63_defaults _ _ _ _ _ _ _ _ _ _ _ _ _ hK
  have hA : K.Amatrix = some A := by rw [hF]
  have hAo : K.AmatrixOut = some A := by rw [hO, hA]
  obtain ⟨gA, _⟩ := calc_good_fl hg.two hg.most hg.le (C129_strict lo hi hg.two hg.most hg.nonneg hg.step hg.le) hcalc
  unfold Fitter.reconstruct at hr
  rw [hA, recon_scalar _ _ _ _ _ hc] at hr
  rw [kcorrect_scalar hA hAo _ _ hc] at hk
  cases hM : A.at (shiftOf (f32 (lit 0)) (lit 0)) with
  | error e => rw [hM] at hr; cases hr
  | ok M =>
    rw [hM] at hr
    cases hr
    unfold kOne at hk
    rw [f32_f32, f32_zero_mul, hM, ok_bind, ok_bind, map_f32_f32, pure_py] at hk
    cases hk
    refine ⟨rfl, ?_⟩
    intro j f hj hf pf
    simp only [entry, List.getElem?_cons_zero, Option.bind_some] at hf ⊢
    obtain ⟨i, hi, hR⟩ := hmap j R[j] (List.getElem?_eq_getElem hj)
    have hiR := (List.getElem?_eq_some_iff.mp hR).1
    have hsame : M[i]? = M[j]? := calc_sameRows hcalc hM i j hiR hj (by rw [hR, List.getElem?_eq_getElem hj])
    have hfi : (reconRow (lit 0) M (c.map f32))[i]? = some f := by
      unfold reconRow at hf ⊢
      rw [List.getElem?_map] at hf ⊢
      rw [hsame, hf]
    have nf := reconRow_num (fun row hr => ((at_num gA (shiftOf_num _ _) hM).2 row hr).2) c (List.mem_of_getElem? hf) pf.ne'
    by_cases hs : 0 < (sumL (c.map f32) : Fl).val
    · refine ⟨_, kRow_get_fl hs hi hfi hf, ?_⟩
      have e1 : (f / f : Fl).val = 1 := by
        rw [fl_div, op2_val _ nf nf, div_self pf.ne']
        exact rd_float (isFloat_one.mono (DT.prec_ge _))
      have e2 := (magOf_fl (div_num nf nf).1).2
      have e3 : mag 1 = 0 := by simp [mag]
      rw [e1, e3, near_zero] at e2
      exact e2
    · unfold kRow
      rw [if_neg (by rw [gtb, fl_lt, lit_zero]; simpa using hs)]
      have hjl : j < (reconRow (lit 0) M (c.map f32)).length := (List.getElem?_eq_some_iff.mp hf).1
      exact ⟨lit 0, by simp [zeros, hjl], by rw [lit_zero]⟩

/-! ### C139 -/

/-- numbers that enter a difference: numpy floats, and the literal 0 where no K-correction is applied -/
def Fl.NumZ (a : Fl) : Prop := a.Num ∨ a = lit 0

theorem sub_numZ {a b : Fl} (ha : a.Num) (hb : b.NumZ) : (a - b).Num ∧ Near 1 (a.val - b.val) (a - b).val := by
  rcases hb with hb | rfl
  · exact sub_num ha hb
  · refine ⟨op2_num _ (Or.inl ha.2), ?_⟩
    have e1 : DT.join a.dt .weak = a.dt := by cases a.dt <;> rfl
    rw [fl_sub, lit_zero]
    simp only [Fl.op2, e1, rd_zero, sub_zero]
    rw [rd_float ha.1]
    exact near_rd (DT.prec_ge _) _

/-- Magnitude minus distance modulus minus K-correction, as computed. -/
theorem absVal_fl {x dm k : Fl} {X D : ℝ} (nx : x.Num) (hX : Near 3 X x.val) (pX : 0 < X) (nd : dm.Num) (nk : k.NumZ)
    (hD : |dm.val - D| ≤ uro 24 * (15 + 3 * |D|)) :
    |(f32 (f32 (magOf x) - dm - k)).val - (mag X - D - k.val)| ≤ uro 24 * (20 + 7 * |mag X| + 7 * |D| + 3 * |k.val|) := by
  obtain ⟨n1, e1⟩ := magOf_fl nx
  have e2 := (e1.trans (f32_near (magOf x))).rel_small (by norm_num)
  have e0 := hX.mag pX
  obtain ⟨n3, e3⟩ := sub_num (f32_num (magOf x)) nd
  obtain ⟨n4, e4⟩ := sub_numZ n3 nk
  have e5 := (f32_near (f32 (magOf x) - dm - k)).rel_small (by norm_num)
  have e3 := e3.rel_small (by norm_num)
  have e4 := e4.rel_small (by norm_num)
  push_cast at e0 e2 e3 e4 e5
  generalize (f32 (f32 (magOf x) - dm - k)).val = r at *
  generalize (f32 (magOf x) - dm - k : Fl).val = r1 at *
  generalize (f32 (magOf x) - dm : Fl).val = r2 at *
  generalize (f32 (magOf x) : Fl).val = r3 at *
  generalize mag x.val = m1 at *
  generalize mag X = m at *
  generalize dm.val = d at *
  generalize k.val = kv at *
  have hu := uro_pos 24
  have hu1 : uro 24 ≤ 1 / 10000 := by unfold uro; norm_num
  have tri : ∀ a b : ℝ, |a| ≤ |b| + |a - b| := by
    intro a b
    have : a = b + (a - b) := by ring
    calc |a| = |b + (a - b)| := by rw [← this]
      _ ≤ _ := abs_add_le _ _
  have a1 := tri m1 m
  have a2 := tri r3 m1
  have a3 := tri d D
  have a4 : |r3 - d| ≤ |r3| + |d| := abs_sub _ _
  have a5 := tri r2 (r3 - d)
  have a6 : |r2 - kv| ≤ |r2| + |kv| := abs_sub _ _
  have a7 := tri r1 (r2 - kv)
  have b0 := abs_nonneg m
  have b1 := abs_nonneg D
  have b2 := abs_nonneg kv
  have key : |r - (m - D - kv)| ≤ |r - r1| + |r1 - (r2 - kv)| + |r2 - (r3 - d)| + |r3 - m1| + |m1 - m| + |d - D| := by
    have : r - (m - D - kv) = (r - r1) + (r1 - (r2 - kv)) + (r2 - (r3 - d)) + (r3 - m1) + (m1 - m) - (d - D) := by ring
    rw [this]
    refine (abs_sub _ _).trans ?_
    gcongr
    refine (abs_add_le _ _).trans ?_
    gcongr
    refine (abs_add_le _ _).trans ?_
    gcongr
    refine (abs_add_le _ _).trans ?_
    gcongr
    exact abs_add_le _ _
  -- sizes, in units where one rounding is at most 1/10000
  have sz : ∀ {e S n : ℝ}, 0 ≤ n → 0 ≤ S → e ≤ 1.01 * n * uro 24 * S → e ≤ 1.01 / 10000 * (n * S) := by
    intro e S n hn hS h
    have := mul_le_mul_of_nonneg_right hu1 (mul_nonneg hn hS)
    linarith
  have g3 := sz (by norm_num) (abs_nonneg m1) e2
  have g2 := sz (by norm_num) (abs_nonneg (r3 - d)) e3
  have g1 := sz (by norm_num) (abs_nonneg (r2 - kv)) e4
  have uD : uro 24 * |D| ≤ 1 / 10000 * |D| := mul_le_mul_of_nonneg_right hu1 b1
  have s1 : |m1| ≤ |m| + 1 / 2000 := by linarith
  have s3 : |r3| ≤ 1.001 * |m| + 1 / 1000 := by linarith
  have sd : |d| ≤ 1.001 * |D| + 1 / 500 := by linarith
  have s2 : |r2| ≤ 1.002 * (|m| + |D|) + 1 / 250 := by linarith
  have t1 : |r1| ≤ 1.003 * (|m| + |D| + |kv|) + 1 / 200 := by linarith
  have up : ∀ {e S n B : ℝ}, 0 ≤ n → S ≤ B → e ≤ 1.01 * n * uro 24 * S → e ≤ uro 24 * (1.01 * n * B) := by
    intro e S n B hn hS h
    have := mul_le_mul_of_nonneg_left hS (mul_nonneg hn hu.le)
    linarith
  have f1 := up (by norm_num) s1 e2
  have f2 := up (B := 1.002 * (|m| + |D|) + 1 / 250) (by norm_num) (by linarith) e3
  have f3 := up (B := 1.003 * (|m| + |D| + |kv|) + 1 / 200) (by norm_num) (by linarith) e4
  have f4 := up (by norm_num) t1 e5
  have um : 0 ≤ uro 24 * |m| := by positivity
  have ud : 0 ≤ uro 24 * |D| := by positivity
  have uk : 0 ≤ uro 24 * |kv| := by positivity
  linarith

theorem lit_m9999 : (lit (-9999) : Fl).val = -9999 := by
  have h : IsFloat 53 ((9999 : Nat) : ℝ) := isFloat_nat (by norm_num) (by norm_num)
  rw [fl_lit]
  have e : (((-9999 : ℚ)) : ℝ) = -((9999 : Nat) : ℝ) := by push_cast; norm_num
  simp only
  rw [e, rd_float h.neg]
  norm_num

/-- one entry of the absolute magnitudes -/
theorem absEntry_fl {m v dm k : Fl} {D : ℝ} (nd : dm.Num) (nk : k.NumZ) (hD : |dm.val - D| ≤ uro 24 * (15 + 3 * |D|)) :
    (0 < m.val ∧ 0 < v.val → |(absEntry dm k (f32 m) (f32 v)).val - (mag m.val - D - k.val)| ≤
        uro 24 * (20 + 7 * |mag m.val| + 7 * |D| + 3 * |k.val|)) ∧
      (¬(0 < m.val ∧ 0 < v.val) → (absEntry dm k (f32 m) (f32 v)).val = -9999) := by
  have pm := (f32_near m).pos_iff
  have pv := (f32_near v).pos_iff
  unfold absEntry
  simp only [gtb, fl_lt, fl_le, lit_zero]
  constructor
  · rintro ⟨h1, h2⟩
    rw [pm] at h1
    rw [pv] at h2
    rw [if_neg (by simp [h1, h2]), if_pos (by simp [h1, h2])]
    exact absVal_fl (f32_num m) ((f32_near m).mono (by norm_num)) (pm.mpr h1) nd nk hD
  · intro h
    rw [pm, pv] at h
    rw [if_pos ?_, lit_m9999]
    by_cases h1 : 0 < (f32 m).val
    · have : ¬ 0 < (f32 v).val := fun h2 => h ⟨h1, h2⟩
      simp only [Bool.or_eq_true, decide_eq_true_eq]
      exact Or.inr (not_lt.mp this)
    · simp only [Bool.or_eq_true, decide_eq_true_eq]
      exact Or.inl (not_lt.mp h1)

/-- one entry of the reconstructed absolute magnitudes -/
theorem recEntry_fl {o dm k : Fl} {D : ℝ} (no : 0 < o.val → o.Num) (nd : dm.Num) (nk : k.NumZ) (hD : |dm.val - D| ≤ uro 24 * (15 + 3 * |D|)) :
    (0 < o.val → |(recEntry dm k o).val - (mag o.val - D - k.val)| ≤ uro 24 * (20 + 7 * |mag o.val| + 7 * |D| + 3 * |k.val|)) ∧
      (¬ 0 < o.val → (recEntry dm k o).val = -9999) := by
  unfold recEntry
  simp only [gtb, fl_lt, fl_le, lit_zero]
  constructor
  · intro h1
    rw [if_neg (by simp [h1]), if_pos (by simp [h1])]
    exact absVal_fl (no h1) ((Near.refl _).mono (by norm_num)) h1 nd nk hD
  · intro h
    rw [if_pos (by simpa using not_lt.mp h), lit_m9999]

/-- one entry of the limits -/
theorem limEntry_fl {v dm k : Fl} {D : ℝ} (nd : dm.Num) (nk : k.NumZ) (hD : |dm.val - D| ≤ uro 24 * (15 + 3 * |D|)) :
    (0 < v.val → |(limEntry dm k (f32 v)).val - (mag (1 / Real.sqrt v.val) - D - k.val)| ≤
        uro 24 * (20 + 7 * |mag (1 / Real.sqrt v.val)| + 7 * |D| + 3 * |k.val|)) ∧
      (¬ 0 < v.val → (limEntry dm k (f32 v)).val = -9999) := by
  have pv := (f32_near v).pos_iff
  unfold limEntry
  simp only [gtb, fl_lt, fl_le, lit_zero]
  constructor
  · intro h1
    have h2 := pv.mp h1
    rw [if_neg (by simp [h2]), if_pos (by simp [h2])]
    obtain ⟨n1, e1⟩ := sqrt_num (f32_num v)
    obtain ⟨n2, e2⟩ := one_div_num n1
    have h3 : Near 1 (Real.sqrt v.val) (Real.sqrt (f32 v).val) := ((f32_near v).mono (by norm_num : 1 ≤ 2 * 1)).sqrt
    have h4 := (((Near.refl 1).div (h3.trans e1)).trans e2)
    exact absVal_fl n2 (h4.mono (by norm_num)) (by positivity) nd nk hD
  · intro h
    rw [pv] at h
    rw [if_pos (by simpa using not_lt.mp h), lit_m9999]

/-- the distance modulus: of the cosmology at the redshift in single precision, or of the distance -/
noncomputable def dmReal (K : Kc Fl) (z : Fl) : Option Fl → ℝ
  | none => (K.distmod (f32 z)).val
  | some d => distanceModulus d.val

/-- the distance modulus as computed -/
theorem dm1_fl (K : Kc Fl) (z : Fl) (dist : Option Fl) (hn : dist = none → (K.distmod (f32 z)).Num) (hd : ∀ d ∈ dist, 0 < d.val) :
    (dm1 K (f32 z) dist).Num ∧ |(dm1 K (f32 z) dist).val - dmReal K z dist| ≤ uro 24 * (15 + 3 * |dmReal K z dist|) := by
  have hu := uro_pos 24
  cases dist with
  | none =>
    refine ⟨hn rfl, ?_⟩
    unfold dm1 dmReal
    rw [sub_self, abs_zero]
    have := abs_nonneg (K.distmod (f32 z)).val
    positivity
  | some d =>
    have hd0 := hd d (by simp)
    have hl : Near 1 ((1 / 100000 : ℚ) : ℝ) (lit (1 / 100000) : Fl).val := by rw [fl_lit]; exact near_rd (by norm_num) _
    have e1 : Near 5 (d.val / ((1 / 100000 : ℚ) : ℝ)) (f32 d / lit (1 / 100000) : Fl).val :=
      op2_near (· / ·) (f32_near d) hl (m := 4) (fun a' b' ha hb => ha.div hb)
    have n1 : (f32 d / lit (1 / 100000) : Fl).Num := op2_num _ (Or.inl (by simp [dt_f32]))
    obtain ⟨n2, e2⟩ := mul_num n1 n1
    have e3 := (e1.mul e1).trans e2
    obtain ⟨n4, e4⟩ := log10_num n2
    obtain ⟨n5, e5⟩ := lit_mul_exact isFloat_fh n4
    refine ⟨n5, ?_⟩
    have e6 := ((Near.refl (((5 / 2 : ℚ)) : ℝ)).mul e4).trans e5
    have hp : 0 < d.val / ((1 / 100000 : ℚ) : ℝ) := by push_cast; positivity
    have e7 := e3.mag (mul_pos hp hp)
    have eD : dmReal K z (some d) = -mag (d.val / ((1 / 100000 : ℚ) : ℝ) * (d.val / ((1 / 100000 : ℚ) : ℝ))) := by
      simp only [dmReal]
      unfold distanceModulus mag
      rw [Real.logb_mul hp.ne' hp.ne']
      have : d.val * 10 ^ 6 / 10 = d.val / ((1 / 100000 : ℚ) : ℝ) := by push_cast; ring
      rw [this]
      ring
    have eM : (((5 / 2 : ℚ)) : ℝ) * Real.logb 10 (f32 d / lit (1 / 100000) * (f32 d / lit (1 / 100000)) : Fl).val =
        -mag (f32 d / lit (1 / 100000) * (f32 d / lit (1 / 100000)) : Fl).val := by
      unfold mag; push_cast; ring
    rw [eM] at e6
    have e8 := e6.rel_small (by norm_num)
    have eV : (dm1 K (f32 z) (some d)).val = (lit (5 / 2) * log10 (f32 d / lit (1 / 100000) * (f32 d / lit (1 / 100000))) : Fl).val := rfl
    rw [eD, eV, abs_neg]
    generalize (lit (5 / 2) * log10 (f32 d / lit (1 / 100000) * (f32 d / lit (1 / 100000))) : Fl).val = r at *
    generalize mag (f32 d / lit (1 / 100000) * (f32 d / lit (1 / 100000)) : Fl).val = m1 at *
    generalize mag (d.val / ((1 / 100000 : ℚ) : ℝ) * (d.val / ((1 / 100000 : ℚ) : ℝ))) = m at *
    push_cast at e7 e8
    rw [abs_neg] at e8
    have hu1 : uro 24 ≤ 1 / 10000 := by unfold uro; norm_num
    have hm := abs_nonneg m
    have a1 : |m1| ≤ |m| + |m1 - m| := by
      have : m1 = m + (m1 - m) := by ring
      calc |m1| = |m + (m1 - m)| := by rw [← this]
        _ ≤ _ := abs_add_le _ _
    have key : |r - -m| ≤ |r - -m1| + |m1 - m| := by
      have : r - -m = (r - -m1) - (m1 - m) := by ring
      rw [this]
      exact abs_sub _ _
    nlinarith

/-- the computed absolute magnitude `y` of a flux `X`, for distance modulus `D` and K-correction `k` -/
def AbsClose (D X k y : ℝ) : Prop := |y - (mag X - D - k)| ≤ uro 24 * (20 + 7 * |mag X| + 7 * |D| + 3 * |k|)

/-- the three arrays of magnitudes of one object, by row -/
theorem absRows_fl {imap : List Nat} {l kk : Bool} {dm : Fl} {k m iv : List Fl} {o : Option (List Fl)} {D : ℝ} (nd : dm.Num)
    (hD : |dm.val - D| ≤ uro 24 * (15 + 3 * |D|)) (nk : ∀ x ∈ k, x.NumZ) (no : ∀ o', o = some o' → ∀ x ∈ o', 0 < x.val → x.Num) :
    (∀ (j i : Nat) (mv v kv : Fl), imap[j]? = some i → m[i]? = some mv → iv[i]? = some v → k[j]? = some kv →
      ∃ y : Fl, ((absRows imap l kk dm k (m.map f32) (iv.map f32) o).getD 0 [])[j]? = some y ∧
        (0 < mv.val ∧ 0 < v.val → AbsClose D mv.val kv.val y.val) ∧ (¬(0 < mv.val ∧ 0 < v.val) → y.val = -9999)) ∧
    (∀ o', o = some o' → ∀ (j : Nat) (kv ov : Fl), k[j]? = some kv → o'[j]? = some ov →
      ∃ y : Fl, ((absRows imap l kk dm k (m.map f32) (iv.map f32) o).getD 1 [])[j]? = some y ∧
        (0 < ov.val → AbsClose D ov.val kv.val y.val) ∧ (¬ 0 < ov.val → y.val = -9999)) ∧
    (l = true → ∀ (j i : Nat) (v kv : Fl), imap[j]? = some i → iv[i]? = some v → k[j]? = some kv →
      ∃ y : Fl, ((absRows imap l kk dm k (m.map f32) (iv.map f32) o).getD (if o.isSome then 2 else 1) [])[j]? = some y ∧
        (0 < v.val → AbsClose D (1 / Real.sqrt v.val) kv.val y.val) ∧ (¬ 0 < v.val → y.val = -9999)) := by
  have hg : ∀ (row : List Fl) (j i : Nat) (v : Fl), imap[j]? = some i → row[i]? = some v → (gather (row.map f32) imap)[j]? = some (f32 v) := by
    intro row j i v h1 h2
    simp [gather, h1, h2]
  refine ⟨?_, ?_, ?_⟩
  · intro j i mv v kv hj hm hv hk
    have e : (absRows imap l kk dm k (m.map f32) (iv.map f32) o).getD 0 [] = zip3 (absEntry dm) k (gather (m.map f32) imap) (gather (iv.map f32) imap) := by
      unfold absRows; rfl
    rw [e]
    exact ⟨_, zip3_get _ _ _ _ hk (hg m j i mv hj hm) (hg iv j i v hj hv), absEntry_fl nd (nk kv (List.mem_of_getElem? hk)) hD⟩
  · rintro o' rfl j kv ov hk ho
    have e : (absRows imap l kk dm k (m.map f32) (iv.map f32) (some o')).getD 1 [] = List.zipWith (recEntry dm) k o' := by
      unfold absRows; rfl
    rw [e]
    exact ⟨recEntry dm kv ov, by simp [List.getElem?_zipWith, hk, ho], recEntry_fl (no o' rfl ov (List.mem_of_getElem? ho)) nd (nk kv (List.mem_of_getElem? hk)) hD⟩
  · rintro rfl j i v kv hj hv hk
    have e : (absRows imap true kk dm k (m.map f32) (iv.map f32) o).getD (if o.isSome then 2 else 1) [] =
        List.zipWith (limEntry dm) k (gather (iv.map f32) imap) := by
      unfold absRows; cases o <;> rfl
    rw [e]
    exact ⟨limEntry dm kv (f32 v), by simp [List.getElem?_zipWith, hk, hg iv j i v hj hv], limEntry_fl nd (nk kv (List.mem_of_getElem? hk)) hD⟩

/-- K-corrections are numpy floats, or the literal zeros for objects without template light. -/
theorem kOne_numZ {imap : List Nat} {A Ao : AMat Fl} (gAo : FlGood Ao) {round : Fl → Fl} (hr : ∀ a : Fl, a.Num → (round a).Num) {bs z : Fl} {c : List Fl}
    (hc : c.length = Ao.ncol) {k : List Fl} (hk : kOne imap A Ao round bs (f32 z) (c.map f32) = .ok k) : ∀ x ∈ k, x.NumZ := by
  unfold kOne at hk
  rw [bind_ok_iff] at hk
  obtain ⟨M, hM, hk⟩ := hk
  rw [bind_ok_iff] at hk
  obtain ⟨Mo, hMo, hk⟩ := hk
  rw [pure_py, map_f32_f32] at hk
  cases hk
  intro x hx
  unfold kRow at hx
  split at hx
  · rename_i hs
    left
    have hc0 : c ≠ [] := by
      rintro rfl
      rw [gtb, fl_lt] at hs
      simp [sumL] at hs
    obtain ⟨j, hj, rfl⟩ := List.mem_iff_getElem.mp hx
    rw [List.getElem_zipWith]
    apply hr
    have hrow := (at_num gAo (shiftOf_num _ _) hMo).2
    have ny := reconRow_num' (bs := bs) (fun row h => ⟨by
      intro h0
      have := (hrow row h).1
      rw [h0, ← hc] at this
      exact hc0 (List.length_eq_zero_iff.mp this.symm), (hrow row h).2⟩) hc0 (List.getElem_mem (l := reconRow bs Mo (c.map f32)) (n := j)
        (by simp at hj ⊢; exact hj.2))
    exact (magOf_fl (op2_num _ (Or.inr ny.2))).1
  · right
    unfold zeros at hx
    exact (List.mem_replicate.mp hx).2

theorem mkRet_list {α : Type} (l : List (NDA α)) : (mkRet l).list = l := by
  unfold mkRet
  split <;> rfl

/-- **C139, one object.** The absolute magnitudes, those of the model and the limits that `absmag` returns, in floating point: each is magnitude minus distance modulus minus
the K-correction that `kcorrect` returns, up to a few single-precision rounding errors of the terms; `-9999` exactly where there is no magnitude. -/
theorem C139_absmag_accuracy {K : Kc Fl} (hF : NoAb K.toFitter) {A Ao : AMat Fl} (hA : K.Amatrix = some A) (hAo : K.AmatrixOut = some Ao) (gAo : FlGood Ao)
    (hcol : Ao.ncol = K.templates.nsed) (z bs : Fl) (m iv c : List Fl) (hm : m.length = K.responses.length) (hiv : iv.length = K.responses.length)
    (hc : c.length = K.templates.nsed) (dist : Option Fl) (hdm : dist = none → (K.distmod (f32 z)).Num) (hd : ∀ d ∈ dist, 0 < d.val) (r l kk : Bool) {ret : Ret Fl}
    (h : K.absmag (some (.vec m)) (some (.vec iv)) (some (.scalar z)) (some (.vec c)) bs (dist.map .scalar) r l kk = .ok ret) :
    ∃ k, K.kcorrect (some (.scalar z)) (some (.vec c)) bs = .ok k ∧
      (∃ a, ret.list[0]? = some a ∧ a.shape = k.shape ∧ ∀ (j i : Nat) (mv v kv : Fl), K.imap[j]? = some i → m[i]? = some mv → iv[i]? = some v →
        entry k 0 j = some kv → ∃ y : Fl, entry a 0 j = some y ∧ (0 < mv.val ∧ 0 < v.val → AbsClose (dmReal K z dist) mv.val kv.val y.val) ∧
          (¬(0 < mv.val ∧ 0 < v.val) → y.val = -9999)) ∧
      (r = true → ∃ rc o, ret.list[1]? = some rc ∧ rc.shape = k.shape ∧ K.reconstructOut (some (.scalar z)) (some (.vec c)) bs = .ok o ∧
        ∀ (j : Nat) (kv ov : Fl), entry k 0 j = some kv → entry o 0 j = some ov → ∃ y : Fl, entry rc 0 j = some y ∧
          (0 < ov.val → AbsClose (dmReal K z dist) ov.val kv.val y.val) ∧ (¬ 0 < ov.val → y.val = -9999)) ∧
      (l = true → ∃ lm, ret.list[if r then 2 else 1]? = some lm ∧ lm.shape = k.shape ∧ ∀ (j i : Nat) (v kv : Fl), K.imap[j]? = some i → iv[i]? = some v →
        entry k 0 j = some kv → ∃ y : Fl, entry lm 0 j = some y ∧ (0 < v.val → AbsClose (dmReal K z dist) (1 / Real.sqrt v.val) kv.val y.val) ∧
          (¬ 0 < v.val → y.val = -9999)) := by
  rw [absmag_scalar hF hA hAo z m iv c hm hiv hc] at h
  unfold absOne at h
  rw [f32_f32, map_f32_f32] at h
  rw [kcorrect_scalar hA hAo z c hc]
  obtain ⟨nd, eD⟩ := dm1_fl K z dist hdm hd
  cases hk : kOne K.imap A Ao id bs (f32 z) (c.map f32) with
  | error e => rw [hk] at h; cases h
  | ok k =>
    rw [hk, ok_bind] at h
    have nk := kOne_numZ gAo (round := id) (fun _ h => h) (by rw [hc, hcol]) hk
    refine ⟨_, rfl, ?_⟩
    unfold Kc.reconstructOut
    rw [hAo, recon_scalar _ _ _ _ _ hc]
    cases r with
    | false =>
      simp only [Bool.false_eq_true, if_false, ok_bind, pure_py] at h
      cases h
      obtain ⟨p1, _, p3⟩ := absRows_fl (imap := K.imap) (l := l) (kk := kk) (m := m) (iv := iv) (o := none) nd eD nk (by simp)
      rw [mkRet_list]
      refine ⟨⟨.arr [] Ao.nrow [(absRows K.imap l kk (dm1 K (f32 z) dist) k (m.map f32) (iv.map f32) none).getD 0 []], by unfold absRows; rfl, rfl, ?_⟩, by simp, ?_⟩
      · exact p1
      · rintro rfl
        exact ⟨.arr [] Ao.nrow [(absRows K.imap true kk (dm1 K (f32 z) dist) k (m.map f32) (iv.map f32) none).getD 1 []], by unfold absRows; rfl, rfl, p3 rfl⟩
    | true =>
      cases hM : Ao.at (shiftOf (f32 z) bs) with
      | error e => rw [hM] at h; cases h
      | ok M =>
        rw [hM] at h
        simp only [if_true, Except.map, ok_bind, pure_py] at h
        cases h
        have no : ∀ x ∈ reconRow bs M (c.map f32), 0 < x.val → x.Num := fun x hx px =>
          reconRow_num (fun row hr => ((at_num gAo (shiftOf_num _ _) hM).2 row hr).2) c hx px.ne'
        obtain ⟨p1, p2, p3⟩ := absRows_fl (imap := K.imap) (l := l) (kk := kk) (m := m) (iv := iv) (o := some (reconRow bs M (c.map f32))) nd eD nk
          (by rintro o' h; cases h; exact no)
        rw [mkRet_list]
        refine ⟨⟨.arr [] Ao.nrow [(absRows K.imap l kk (dm1 K (f32 z) dist) k (m.map f32) (iv.map f32) (some (reconRow bs M (c.map f32)))).getD 0 []],
          by unfold absRows; rfl, rfl, p1⟩, ?_, ?_⟩
        · intro _
          exact ⟨.arr [] Ao.nrow [(absRows K.imap l kk (dm1 K (f32 z) dist) k (m.map f32) (iv.map f32) (some (reconRow bs M (c.map f32)))).getD 1 []], _,
            by unfold absRows; rfl, rfl, rfl, p2 _ rfl⟩
        · rintro rfl
          exact ⟨.arr [] Ao.nrow [(absRows K.imap true kk (dm1 K (f32 z) dist) k (m.map f32) (iv.map f32) (some (reconRow bs M (c.map f32)))).getD 2 []],
            by unfold absRows; rfl, rfl, p3 rfl⟩

theorem mul_lit_one {a : Fl} (ha : a.Num) : (a * lit 1 : Fl) = a := by
  have e1 : DT.join a.dt .weak = a.dt := by cases a.dt <;> rfl
  rw [lit_one, fl_mul]
  obtain ⟨v, d⟩ := a
  simp only at e1
  have := ha.1
  unfold Fl.Ok at this
  simp only at this
  simp only [Fl.op2, e1]
  rw [rd_float (isFloat_one.mono (DT.prec_ge d)), rd_float this, mul_one, rd_float this]

/-- the distance of object `r` of a batch, if distances are given -/
def distAt (dist : Option (List Fl)) (r : Nat) : Option Fl := dist.bind (fun ds => ds[r]?)

/-- **C139, batches.** The same for every object of a batch. -/
theorem C139_batch {K : Kc Fl} (hF : NoAb K.toFitter) {A Ao : AMat Fl} (hA : K.Amatrix = some A) (hAo : K.AmatrixOut = some Ao) (gAo : FlGood Ao)
    (hcol : Ao.ncol = K.templates.nsed) (zs : List Fl) (bs : Fl) (ms ivs cs : List (List Fl)) (hm : ms.length = zs.length) (hiv : ivs.length = zs.length)
    (hcs : cs.length = zs.length) (hc : ∀ c ∈ cs, c.length = K.templates.nsed) (dist : Option (List Fl)) (hdl : ∀ ds ∈ dist, ds.length = zs.length)
    (hdm : dist = none → ∀ z ∈ zs, (K.distmod (f32 z)).Num) (hd : ∀ ds ∈ dist, ∀ d ∈ ds, 0 < d.val) (r l kk : Bool) {ret : Ret Fl}
    (h : K.absmag (some (.arr [zs.length] K.responses.length ms)) (some (.arr [zs.length] K.responses.length ivs)) (some (.vec zs))
      (some (.arr [zs.length] K.templates.nsed cs)) bs (dist.map .vec) r l kk = .ok ret) :
    ∃ k, K.kcorrect (some (.vec zs)) (some (.arr [zs.length] K.templates.nsed cs)) bs = .ok k ∧
      (∃ a, ret.list[0]? = some a ∧ a.shape = k.shape ∧ ∀ (t j i : Nat) (z : Fl) (m iv : List Fl) (mv v kv : Fl), zs[t]? = some z → ms[t]? = some m →
        ivs[t]? = some iv → K.imap[j]? = some i → m[i]? = some mv → iv[i]? = some v → entry k t j = some kv →
        ∃ y : Fl, entry a t j = some y ∧ (0 < mv.val ∧ 0 < v.val → AbsClose (dmReal K z (distAt dist t)) mv.val kv.val y.val) ∧
          (¬(0 < mv.val ∧ 0 < v.val) → y.val = -9999)) ∧
      (r = true → ∃ rc o, ret.list[1]? = some rc ∧ rc.shape = k.shape ∧
        K.reconstructOut (some (.vec zs)) (some (.arr [zs.length] K.templates.nsed cs)) bs = .ok o ∧
        ∀ (t j : Nat) (z kv ov : Fl), zs[t]? = some z → entry k t j = some kv → entry o t j = some ov → ∃ y : Fl, entry rc t j = some y ∧
          (0 < ov.val → AbsClose (dmReal K z (distAt dist t)) ov.val kv.val y.val) ∧ (¬ 0 < ov.val → y.val = -9999)) ∧
      (l = true → ∃ lm, ret.list[if r then 2 else 1]? = some lm ∧ lm.shape = k.shape ∧ ∀ (t j i : Nat) (z : Fl) (iv : List Fl) (v kv : Fl), zs[t]? = some z →
        ivs[t]? = some iv → K.imap[j]? = some i → iv[i]? = some v → entry k t j = some kv →
        ∃ y : Fl, entry lm t j = some y ∧ (0 < v.val → AbsClose (dmReal K z (distAt dist t)) (1 / Real.sqrt v.val) kv.val y.val) ∧
          (¬ 0 < v.val → y.val = -9999)) := by
  obtain ⟨rowss, hf, rfl⟩ := (absmag_array hF hA hAo zs ms ivs cs hm hiv hcs bs dist hdl r l kk ret).mp h
  have hdml : (dms K (zs.map f32) dist).length = zs.length := by
    cases dist with
    | none => simp [dms]
    | some ds => simp [dms, hdl ds (by simp)]
  have hol : (objs (dms K (zs.map f32) dist) (zs.map f32) (ms.map (List.map f32)) (ivs.map (List.map f32)) (cs.map (List.map f32))).length = zs.length := by
    simp [objs, hdml, hm, hiv, hcs]
  have hrl : rowss.length = zs.length := by rw [← hf.length_eq, hol]
  -- object by object
  have hobj : ∀ t (ht : t < zs.length), (dms K (zs.map f32) dist)[t]'(by omega) = dm1 K (f32 zs[t]) (distAt dist t) ∧
      ∃ k o, kOne K.imap A Ao f32 bs (f32 zs[t]) ((cs[t]'(by omega)).map f32) = .ok k ∧ o.isSome = r ∧
        (∀ o', o = some o' → (∃ M, Ao.at (shiftOf (f32 zs[t]) bs) = .ok M ∧ o' = reconRow bs M ((cs[t]'(by omega)).map f32)) ∧ ∀ x ∈ o', 0 < x.val → x.Num) ∧
        rowss[t]'(by omega) = absRows K.imap l kk (dm1 K (f32 zs[t]) (distAt dist t) * lit 1) k ((ms[t]'(by omega)).map f32) ((ivs[t]'(by omega)).map f32) o := by
    intro t ht
    have e : (dms K (zs.map f32) dist)[t]'(by omega) = dm1 K (f32 zs[t]) (distAt dist t) := by
      cases dist with
      | none => simp [dms, distAt]
      | some ds =>
        have : t < ds.length := by rw [hdl ds (by simp)]; exact ht
        simp [dms, distAt, this, dm1]
    refine ⟨e, ?_⟩
    have hx := (List.forall₂_iff_get.mp hf).2 t (by rw [hol]; exact ht) (by omega)
    unfold objs at hx
    simp only [List.get_eq_getElem, List.getElem_zip, List.getElem_map, e] at hx
    unfold absOne at hx
    rw [f32_f32, map_f32_f32, bind_ok_iff] at hx
    obtain ⟨k, hk, hx⟩ := hx
    cases r with
    | false =>
      simp only [Bool.false_eq_true, if_false, ok_bind, pure_py, Except.ok.injEq] at hx
      exact ⟨k, none, hk, rfl, by simp, hx.symm⟩
    | true =>
      cases hM : Ao.at (shiftOf (f32 zs[t]) bs) with
      | error e => rw [hM] at hx; cases hx
      | ok M =>
        rw [hM] at hx
        simp only [if_true, Except.map, ok_bind, pure_py, Except.ok.injEq] at hx
        refine ⟨k, _, hk, rfl, ?_, hx.symm⟩
        intro o' ho'
        cases ho'
        exact ⟨⟨M, rfl, rfl⟩, fun x hx px => reconRow_num (fun row hr => ((at_num gAo (shiftOf_num _ _) hM).2 row hr).2) _ hx px.ne'⟩
  have hkall : ∃ krows, (List.zip zs cs).mapM (fun p => kOne K.imap A Ao f32 bs (f32 p.1) (p.2.map f32)) = .ok krows := by
    apply mapM_exists
    rintro ⟨z, c⟩ hp
    obtain ⟨t, ht, he⟩ := List.mem_iff_getElem.mp hp
    rw [List.getElem_zip] at he
    simp only [Prod.mk.injEq] at he
    have ht' : t < zs.length := by simp at ht; exact ht.1
    obtain ⟨_, k, _, hk, _⟩ := hobj t ht'
    rw [he.1, he.2] at hk
    exact ⟨k, hk⟩
  obtain ⟨krows, hkr⟩ := hkall
  rw [mapM_ok_iff] at hkr
  have hkl : krows.length = zs.length := by rw [← hkr.length_eq]; simp [hcs]
  refine ⟨_, ((kcorrect_array hA hAo zs cs hcs bs).1 _).mpr ⟨krows, hkr, rfl⟩, ?_⟩
  -- one object, with the K-corrections of the batch
  have key : ∀ t (ht : t < zs.length), ∃ o : Option (List Fl), o.isSome = r ∧
      (∀ o', o = some o' → (∃ M, Ao.at (shiftOf (f32 zs[t]) bs) = .ok M ∧ o' = reconRow bs M ((cs[t]'(by omega)).map f32)) ∧ ∀ x ∈ o', 0 < x.val → x.Num) ∧
      (dm1 K (f32 zs[t]) (distAt dist t)).Num ∧ |(dm1 K (f32 zs[t]) (distAt dist t)).val - dmReal K zs[t] (distAt dist t)| ≤
        uro 24 * (15 + 3 * |dmReal K zs[t] (distAt dist t)|) ∧ (∀ x ∈ krows[t]'(by omega), x.NumZ) ∧
      rowss[t]'(by omega) = absRows K.imap l kk (dm1 K (f32 zs[t]) (distAt dist t)) (krows[t]'(by omega)) ((ms[t]'(by omega)).map f32) ((ivs[t]'(by omega)).map f32) o := by
    intro t ht
    obtain ⟨_, k, o, hk, ho, hno, hrow⟩ := hobj t ht
    have hkt := (List.forall₂_iff_get.mp hkr).2 t (by simp [hcs, ht]) (by omega)
    simp only [List.get_eq_getElem, List.getElem_zip] at hkt
    rw [hk] at hkt
    simp only [Except.ok.injEq] at hkt
    subst hkt
    obtain ⟨nd, eD⟩ := dm1_fl K zs[t] (distAt dist t) (by
        intro h0
        apply hdm _ _ (List.getElem_mem ht)
        cases dist with
        | none => rfl
        | some ds =>
          have : t < ds.length := by rw [hdl ds (by simp)]; exact ht
          simp [distAt, this] at h0) (by
        intro d hd'
        cases dist with
        | none => simp [distAt] at hd'
        | some ds =>
          simp only [distAt, Option.bind_some, Option.mem_def] at hd'
          exact hd ds (by simp) d (List.mem_of_getElem? hd'))
    rw [mul_lit_one nd] at hrow
    exact ⟨o, ho, hno, nd, eD, kOne_numZ gAo (fun a _ => f32_num a) (by rw [hc _ (List.getElem_mem _), hcol]) hk, hrow⟩
  have hent : ∀ (s t j : Nat) (ht : t < zs.length), entry (NDA.arr [zs.length] Ao.nrow (rowss.map (fun rows => rows.getD s []))) t j =
      ((rowss[t]'(by omega)).getD s [])[j]? := by
    intro s t j ht
    have : t < rowss.length := by omega
    simp [entry, this]
  have hentk : ∀ (t j : Nat) (ht : t < zs.length), entry (NDA.arr [zs.length] Ao.nrow krows) t j = (krows[t]'(by omega))[j]? := by
    intro t j ht
    have : t < krows.length := by omega
    simp [entry, this]
  rw [mkRet_list]
  refine ⟨⟨.arr [zs.length] Ao.nrow (rowss.map (fun rows => rows.getD 0 [])), ?_, rfl, ?_⟩, ?_, ?_⟩
  · have : 0 < absCount r l kk := by unfold absCount; omega
    simp [this]
  · intro t j i z m iv mv v kv hz hmt hivt hj hmi hvi hkv
    have ht := (List.getElem?_eq_some_iff.mp hz).1
    obtain ⟨o, ho, hno, nd, eD, nk, hrow⟩ := key t ht
    rw [hent _ _ _ ht, hrow]
    rw [hentk _ _ ht] at hkv
    have e1 := (List.getElem?_eq_some_iff.mp hz).2
    have e2 := (List.getElem?_eq_some_iff.mp hmt).2
    have e3 := (List.getElem?_eq_some_iff.mp hivt).2
    rw [e1] at nd eD
    rw [e1, e2, e3]
    exact (absRows_fl nd eD nk (fun o' h => (hno o' h).2)).1 j i mv v kv hj hmi hvi hkv
  · rintro rfl
    have hat : ∃ Ms, Ao.atAll (zs.map (fun z => shiftOf (f32 z) bs)) = .ok Ms := by
      apply mapM_exists
      intro q hq
      obtain ⟨z, hz, rfl⟩ := List.mem_map.mp hq
      obtain ⟨t, ht, rfl⟩ := List.mem_iff_getElem.mp hz
      obtain ⟨o, ho, hno, _⟩ := key t ht
      obtain ⟨o', rfl⟩ := Option.isSome_iff_exists.mp ho
      obtain ⟨⟨M, hM, _⟩, _⟩ := hno o' rfl
      exact ⟨M, hM⟩
    obtain ⟨Ms, hMs⟩ := hat
    have hMf := hMs
    unfold AMat.atAll at hMf
    rw [mapM_ok_iff, List.forall₂_map_left_iff] at hMf
    have hMl : Ms.length = zs.length := hMf.length_eq.symm
    unfold Kc.reconstructOut
    rw [hAo, recon_array, hMs]
    refine ⟨.arr [zs.length] Ao.nrow (rowss.map (fun rows => rows.getD 1 [])), _, ?_, rfl, rfl, ?_⟩
    · have : 1 < absCount true l kk := by unfold absCount; simp; omega
      simp [this]
    · intro t j z kv ov hz hkv hov
      have ht := (List.getElem?_eq_some_iff.mp hz).1
      obtain ⟨o, ho, hno, nd, eD, nk, hrow⟩ := key t ht
      rw [hent _ _ _ ht, hrow]
      rw [hentk _ _ ht] at hkv
      obtain ⟨o', rfl⟩ := Option.isSome_iff_exists.mp ho
      obtain ⟨⟨M, hM, ho'⟩, no⟩ := hno o' rfl
      have hMt := (List.forall₂_iff_get.mp hMf).2 t ht (by omega)
      simp only [List.get_eq_getElem] at hMt
      rw [hM] at hMt
      simp only [Except.ok.injEq] at hMt
      have hov' : o'[j]? = some ov := by
        rw [ho', hMt, ← hov]
        have h1 : t < Ms.length := by omega
        have h2 : t < cs.length := by omega
        simp [entry, List.getElem?_zipWith, h1, h2]
      have e1 := (List.getElem?_eq_some_iff.mp hz).2
      rw [e1] at nd eD
      rw [e1]
      exact (absRows_fl nd eD nk (fun o' h => (hno o' h).2)).2.1 o' rfl j kv ov hkv hov'
  · rintro rfl
    refine ⟨.arr [zs.length] Ao.nrow (rowss.map (fun rows => rows.getD (if r then 2 else 1) [])), ?_, rfl, ?_⟩
    · cases r <;> cases kk <;> simp [absCount, List.range_succ]
    · intro t j i z iv v kv hz hivt hj hvi hkv
      have ht := (List.getElem?_eq_some_iff.mp hz).1
      obtain ⟨o, ho, hno, nd, eD, nk, hrow⟩ := key t ht
      rw [hent _ _ _ ht, hrow]
      rw [hentk _ _ ht] at hkv
      have e1 := (List.getElem?_eq_some_iff.mp hz).2
      have e3 := (List.getElem?_eq_some_iff.mp hivt).2
      rw [e1] at nd eD
      rw [e1, e3, ← ho]
      exact (absRows_fl nd eD nk (fun o' h => (hno o' h).2)).2.2 rfl j i v kv hj hvi hkv

/-! ### the hypotheses are met -/

/-- one band, one template: 2 maggies at rest and 1 at redshift 1 -/
noncomputable def flKc : Kc Fl :=
  ⟨{ Fitter.mk' .base [['x']] (.sed ⟨[], [[]], [], [[]], lit 0, false, none, false⟩) (s32 0) (s32 1) 2 false with Amatrix := some (twoNodes 0 1 2 1) },
    [['x']], [['x']], some (twoNodes 0 1 2 1), [0], fun _ => s32 40⟩

theorem isFloat_two : IsFloat 24 2 := ⟨2, 0, by norm_num, by norm_num⟩

theorem flKc_good : FlGood (twoNodes 0 1 2 1) := twoNodes_good one_pos (isFloat_zero _) isFloat_one isFloat_two isFloat_one

theorem flKc_recon {x : ℝ} (hx : IsFloat 24 x) : reconRow (lit 0) [[s32 x]] [f32 (s32 1)] = [s32 x] := by
  have f1 : rd 24 (1 : ℝ) = 1 := rd_float isFloat_one
  have fx := rd_float hx
  have h10 : (lit 1 : Fl) + lit 0 = ⟨1, .weak⟩ := by
    rw [lit_one, lit_zero, fl_add]
    simp only [Fl.op2, DT.join, DT.prec, rd_zero, add_zero]
    rw [rd_float (isFloat_one.mono (by norm_num)), rd_float (isFloat_one.mono (by norm_num))]
  unfold reconRow dot sumL
  have hp : (s32 x * f32 (s32 1) + lit 0 : Fl) = s32 x := by
    rw [fl_f32, lit_zero]
    simp only [f1]
    rw [s32_mul, f1, mul_one, fx, fx]
    show s32 (rd 24 (rd 24 _ + rd 24 0)) = _
    rw [rd_zero, add_zero, fx, fx]
  simp only [List.map_cons, List.map_nil, List.zipWith_cons_cons, List.zipWith_nil_left, List.foldr_cons, List.foldr_nil, hp, h10]
  show [s32 (rd 24 (rd 24 _ / rd 24 1))] = _
  rw [f1, div_one, fx, fx]

theorem flKc_at1 : (twoNodes 0 1 2 1).at (shiftOf (f32 (s32 1)) (lit 0)) = .ok [[s32 1]] := by
  have f1 : rd 24 (1 : ℝ) = 1 := rd_float isFloat_one
  have f2 : rd 24 (2 : ℝ) = 2 := rd_float isFloat_two
  have hq : shiftOf (f32 (s32 1)) (lit 0) = s32 1 := by
    rw [fl_f32]
    simp only [f1]
    rw [shift_float isFloat_one]
    norm_num [f2, f1]
  rw [hq, twoNodes_at one_pos]
  unfold linEntry
  have f1' : rd 24 (-1 : ℝ) = -1 := by rw [rd_neg, f1]
  simp only [s32_sub, s32_div, s32_mul, s32_add, rd_zero, f1, f2, sub_zero]
  norm_num [f1, f1', f2]

theorem flKc_at0 : (twoNodes 0 1 2 1).at (shiftOf (f32 (lit 0)) (lit 0)) = .ok [[s32 2]] := by
  have f1 : rd 24 (1 : ℝ) = 1 := rd_float isFloat_one
  have f2 : rd 24 (2 : ℝ) = 2 := rd_float isFloat_two
  have hq : shiftOf (f32 (lit 0)) (lit 0) = s32 0 := by
    rw [fl_f32, lit_zero]
    simp only [rd_zero]
    rw [← lit_zero, shift_float (isFloat_zero _)]
    norm_num [f1]
  have f1' : rd 24 (-1 : ℝ) = -1 := by rw [rd_neg, f1]
  rw [hq, twoNodes_at0 one_pos]
  unfold linEntry
  simp only [s32_sub, s32_div, s32_mul, s32_add, rd_zero, f1, f2, sub_zero, mul_zero]
  norm_num [f1, f1', f2]

/-- Not vacuous (C138): at redshift 1 the model flux is 1, at rest it is 2, and the K-correction is computed. -/
example : (∃ k, flKc.kcorrect (some (.scalar (s32 1))) (some (.vec [s32 1])) (lit 0) = .ok k) ∧
    flKc.reconstruct (some (.scalar (s32 1))) (some (.vec [s32 1])) (lit 0) = .ok (.arr [] 1 [[s32 1]]) ∧
    flKc.reconstructOut (some (.scalar (lit 0))) (some (.vec [s32 1])) (lit 0) = .ok (.arr [] 1 [[s32 2]]) := by
  refine ⟨?_, ?_, ?_⟩
  · rw [kcorrect_scalar (A := twoNodes 0 1 2 1) (Ao := twoNodes 0 1 2 1) rfl rfl _ _ rfl]
    unfold kOne
    rw [f32_f32, f32_zero_mul, flKc_at1, ok_bind, flKc_at0]
    exact ⟨_, rfl⟩
  · unfold Fitter.reconstruct
    have := recon_scalar flKc.toFitter (twoNodes 0 1 2 1) (s32 1) [s32 1] (lit 0) rfl
    rw [flKc_at1] at this
    simp only [Except.map, List.map_cons, List.map_nil, flKc_recon isFloat_one] at this
    exact this
  · unfold Kc.reconstructOut
    have := recon_scalar flKc.toFitter (twoNodes 0 1 2 1) (lit 0) [s32 1] (lit 0) rfl
    rw [flKc_at0] at this
    simp only [Except.map, List.map_cons, List.map_nil, flKc_recon isFloat_two] at this
    exact this

/-- Not vacuous (C139): all the arrays for this object, with the cosmology and with any distance. -/
example (d : Option Fl) : NoAb flKc.toFitter ∧ (flKc.distmod (f32 (s32 1))).Num ∧
    ∃ ret, flKc.absmag (some (.vec [s32 1])) (some (.vec [s32 4])) (some (.scalar (s32 1))) (some (.vec [s32 1])) (lit 0) (d.map .scalar) true true true = .ok ret := by
  refine ⟨Or.inl rfl, ⟨⟨40, 0, by norm_num [flKc], by norm_num [flKc, DT.prec]⟩, by simp [flKc]⟩, ?_⟩
  rw [absmag_scalar (A := twoNodes 0 1 2 1) (Ao := twoNodes 0 1 2 1) (Or.inl rfl) rfl rfl _ _ _ _ rfl rfl rfl]
  unfold absOne kOne
  rw [f32_f32, f32_f32, f32_zero_mul, flKc_at1, ok_bind, flKc_at0]
  exact ⟨_, rfl⟩

end KC
