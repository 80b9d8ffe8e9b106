import Verif.Model.SampleErrors
import Verif.Props.McTable

/-!
# Errors from Monte Carlo samples (C216)
-/

namespace KC
open Spec

/-- Root mean square deviation from the mean of the values `f k`, `k` in `S`. -/
noncomputable def Spec.scatter (S : Finset ℕ) (f : ℕ → ℝ) : ℝ :=
  Real.sqrt ((∑ k ∈ S, (f k - (∑ i ∈ S, f i) / S.card) ^ 2) / S.card)

/-- adding a constant to all values does not change their scatter -/
theorem scatter_shift (S : Finset ℕ) (hS : S.Nonempty) (f : ℕ → ℝ) (c : ℝ) : scatter S (fun k => f k + c) = scatter S f := by
  have hc : (S.card : ℝ) ≠ 0 := by exact_mod_cast hS.card_ne_zero
  unfold scatter
  congr 2
  apply Finset.sum_congr rfl
  intro k _
  rw [Finset.sum_add_distrib, Finset.sum_const, nsmul_eq_mul, add_div, mul_div_cancel_left₀ _ hc]
  ring

theorem scatter_congr (S : Finset ℕ) (f g : ℕ → ℝ) (h : ∀ k ∈ S, f k = g k) : scatter S f = scatter S g := by
  unfold scatter
  rw [Finset.sum_congr rfl h]
  congr 2
  exact Finset.sum_congr rfl (fun k hk => by rw [h k hk])

theorem sum_filter_range (mc : Nat) (p : ℕ → Prop) [DecidablePred p] (f : ℕ → ℝ) :
    (((List.range mc).filter (fun k => decide (p k))).map f).sum = ∑ k ∈ (Finset.range mc).filter p, f k := by
  have h : ((Finset.range mc).filter p).val = (((List.range mc).filter (fun k => decide (p k)) : List ℕ) : Multiset ℕ) := by
    rw [Finset.filter_val, Finset.range_val, Multiset.range, Multiset.filter_coe]
  rw [Finset.sum_eq_multiset_sum, h, Multiset.map_coe, Multiset.sum_coe]

theorem card_filter_range (mc : Nat) (p : ℕ → Prop) [DecidablePred p] :
    ((List.range mc).filter (fun k => decide (p k))).length = ((Finset.range mc).filter p).card := by
  have h : ((Finset.range mc).filter p).val = (((List.range mc).filter (fun k => decide (p k)) : List ℕ) : Multiset ℕ) := by
    rw [Finset.filter_val, Finset.range_val, Multiset.range, Multiset.filter_coe]
  rw [Finset.card_def, h, Multiset.coe_card]

/-- numpy's `std` of the values with a property is the scatter of those values -/
theorem stdOf_real (mc : Nat) (p : ℕ → Prop) [DecidablePred p] (f : ℕ → ℝ) :
    stdOf (((List.range mc).filter (fun k => decide (p k))).map f) = scatter ((Finset.range mc).filter p) f := by
  unfold stdOf scatter
  simp only [sumL_real, real_sqrt, real_lit, List.map_map, List.length_map, card_filter_range, sum_filter_range, Rat.cast_natCast]
  congr 2
  apply Finset.sum_congr rfl
  intro k _
  simp only [Function.comp]
  ring

theorem neb_real (a b : ℝ) : neb a b = decide (a ≠ b) := by
  unfold neb
  by_cases h : a = b
  · subst h; simp
  · rcases lt_or_gt_of_ne h with h' | h'
    · simp [h, not_le.mpr h']
    · simp [h, not_le.mpr h']

/-- the K-corrections of one galaxy have one entry per output band -/
theorem kcorrect_entry {K : Kc ℝ} {A Ao : AMat ℝ} (hA : K.Amatrix = some A) (hAo : K.AmatrixOut = some Ao) (hG : Ao.Good) (hi : K.imap.length = Ao.nrow)
    {z : ℝ} {c : List ℝ} (hc : c.length = K.templates.nsed) {bs : ℝ} {k : NDA ℝ} (h : K.kcorrect (some (.scalar z)) (some (.vec c)) bs = .ok k)
    {j : Nat} (hj : j < Ao.nrow) : ∃ kv, entry k 0 j = some kv := by
  rw [kcorrect_real hA hAo z c hc] at h
  cases hk : kReal K.imap A Ao bs z c with
  | error e => rw [hk] at h; cases h
  | ok r =>
    rw [hk] at h
    cases h
    have hl : r.length = Ao.nrow := by
      unfold kReal at hk
      simp only [bind_ok_iff] at hk
      obtain ⟨M, hM, Mo, hMo, hk⟩ := hk
      have hl : Mo.length = Ao.nrow := (at_shaped hG hMo).1
      cases hk
      unfold kRow
      split
      · simp [gather, hi, reconRow, hl]
      · simp [zeros, reconRow, hl]
    exact ⟨r[j]'(by omega), by simp [entry, hl, hj]⟩

/-- the entries of one galaxy and band over the samples -/
theorem mc_entries (K : Kc ℝ) (hr : AbReady K.abCls K.responses.length) (A Ao : AMat ℝ) (hA : K.Amatrix = some A) (hAo : K.AmatrixOut = some Ao) (hG : Ao.Good)
    (hn : Ao.nrow = K.responses.length) (hi : K.imap.length = Ao.nrow) (mc : Nat) (maggies coeffs : Nat → Nat → Nat → ℝ) (zs : List ℝ) (hz : zs ≠ []) (ivs : List (List ℝ))
    (hiv : ivs.length = zs.length) (hivl : ∀ iv ∈ ivs, iv.length = K.responses.length) (bs : ℝ) (dist : Option (List ℝ))
    (hd : ∀ ds ∈ dist, ds.length = zs.length ∧ ∀ d ∈ ds, 0 < d) (x : NDA ℝ)
    (h : K.absmagMc (cubeOf zs.length K.responses.length mc maggies) (some (.arr [zs.length] K.responses.length ivs)) (some (.vec zs))
        (cubeOf zs.length K.templates.nsed mc coeffs) bs (dist.map .vec) false false = .ok (.one x))
    (g j i : Nat) (z v : ℝ) (iv : List ℝ) (hg : zs[g]? = some z) (hgi : ivs[g]? = some iv) (hj : K.imap[j]? = some i) (hv : iv[i]? = some v) (hv0 : 0 < v) :
    ∀ k < mc, ∃ kc kv, K.kcorrect (some (.scalar z)) (some (.vec ((List.range K.templates.nsed).map (fun t => coeffs g t k)))) bs = .ok kc ∧
      entry kc 0 j = some kv ∧ x.shape = [zs.length, K.responses.length, mc] ∧ entry x (g * K.responses.length + j) k =
        some (if 0 < maggies g i k then mag (maggies g i k) - kv + (abOffset K.abCls i - dmSpec K.distmod z (dist.map (fun ds => ent ds g))) else -9999) := by
  have hil : i < K.responses.length := by
    rw [← hivl iv (List.mem_of_getElem? hgi)]
    exact (List.getElem?_eq_some_iff.mp hv).1
  have hjn : j < K.responses.length := by
    rw [← hn, ← hi]
    exact (List.getElem?_eq_some_iff.mp hj).1
  have hgl : g < zs.length := (List.getElem?_eq_some_iff.mp hg).1
  have hd1 : ∀ ds ∈ dist, ds.length = zs.length := fun ds m => (hd ds m).1
  have hd2 : ∀ d ∈ dist.map (fun ds => ent ds g), 0 < d := by
    intro d hdm
    cases dist with
    | none => simp at hdm
    | some ds =>
      have := hd ds rfl
      simp only [Option.map_some, Option.mem_def, Option.some.injEq] at hdm
      subst hdm
      refine this.2 _ ?_
      have hl : g < ds.length := by rw [this.1]; exact hgl
      rw [ent, List.getD_eq_getElem?_getD, List.getElem?_eq_getElem hl]
      exact List.getElem_mem hl
  intro k hk
  obtain ⟨out, ho, hlen, hout⟩ := (C75_table_partial K hr A Ao hA hAo hG hn hi mc maggies coeffs zs hz ivs hiv hivl bs dist hd1 false false).2 _ h g k z iv hg hgi hk
  obtain ⟨y, hy⟩ : ∃ y, out = .one y := by
    cases out with
    | one y => exact ⟨y, rfl⟩
    | tuple l =>
      rw [show dist.map (fun ds => NDA.scalar (ent ds g)) = (dist.map (fun ds => ent ds g)).map .scalar by rw [Option.map_map]; rfl,
        absmag_eff K hr z _ iv _ (by simp) (hivl iv (List.mem_of_getElem? hgi)) (by simp),
        absmag_scalar (K := K.plain) (Or.inl rfl) hA hAo z _ _ _ (by rw [List.length_mapIdx, List.length_map, List.length_range]; rfl) (by rw [List.length_mapIdx]; exact hivl iv (List.mem_of_getElem? hgi))
          (by rw [List.length_map, List.length_range]; rfl)] at ho
      obtain ⟨L, ho⟩ : ∃ L : List (NDA ℝ), Ret.tuple l = mkRet L := by
        cases hO : absOne K.plain.imap A Ao id false false false bs (dm1 K.plain (f32 z) (dist.map (fun ds => ent ds g))) (f32 z)
            ((((List.range K.responses.length).map (fun j => maggies g j k)).mapIdx (fun j x => x * abFactor K.abCls j)).map f32)
            ((iv.mapIdx (fun j x => x / abFactor K.abCls j ^ 2)).map f32) (((List.range K.templates.nsed).map (fun t => coeffs g t k)).map f32) with
        | error e => rw [hO] at ho; cases ho
        | ok rows => rw [hO] at ho; exact ⟨_, (Except.ok.inj ho).symm⟩
      have hL := congrArg (fun r => r.list.length) ho
      simp only [ret_list] at hL
      have h1 : (Ret.tuple l : Ret ℝ).list.length = 1 := hlen
      rw [h1] at hL
      obtain ⟨a, ha⟩ := List.length_eq_one_iff.mp hL.symm
      rw [ha] at ho
      cases ho
  subst hy
  obtain ⟨hsh, hent⟩ := hout 0 x y rfl rfl
  have ho' : K.absmag (some (.vec ((List.range K.responses.length).map (fun j => maggies g j k)))) (some (.vec iv)) (some (.scalar z))
      (some (.vec ((List.range K.templates.nsed).map (fun t => coeffs g t k)))) bs ((dist.map (fun ds => ent ds g)).map .scalar) false false false = .ok (.one y) := by
    rw [Option.map_map]; exact ho
  obtain ⟨hex, hf⟩ := C70_corrected_partial K hr A Ao hA hAo z ((List.range K.responses.length).map (fun j => maggies g j k)) iv
    ((List.range K.templates.nsed).map (fun t => coeffs g t k)) (by simp) (hivl iv (List.mem_of_getElem? hgi)) (by simp) bs (dist.map (fun ds => ent ds g)) hd2
  obtain ⟨kc, hkc⟩ := hex.mp ⟨y, ho'⟩
  obtain ⟨kv, hkv⟩ := kcorrect_entry hA hAo hG hi (by simp) hkc (j := j) (by omega)
  obtain ⟨w, hw1, hw2⟩ := hent j hjn
  rw [(hf y kc ho' hkc).2 j i (maggies g i k) v kv hj (by simp [hil]) hv hkv] at hw1
  refine ⟨kc, kv, hkc, hkv, hsh, ?_⟩
  rw [hw2, ← hw1]
  simp only [hv0, and_true]
  congr 1
  split
  · ring
  · rfl

/-- C216, the documented errors: for every galaxy and band, the error is the scatter of magnitude minus K-correction over the samples with positive
flux (the distance, the cosmology and the AB correction cancel), for every class and every distance, as long as no such sample has exactly the
magnitude -9999 that marks missing values. -/
theorem C216_errors (K : Kc ℝ) (hr : AbReady K.abCls K.responses.length) (A Ao : AMat ℝ) (hA : K.Amatrix = some A) (hAo : K.AmatrixOut = some Ao) (hG : Ao.Good)
    (hn : Ao.nrow = K.responses.length) (hi : K.imap.length = Ao.nrow) (mc : Nat) (maggies coeffs : Nat → Nat → Nat → ℝ) (zs : List ℝ) (hz : zs ≠ []) (ivs : List (List ℝ))
    (hiv : ivs.length = zs.length) (hivl : ∀ iv ∈ ivs, iv.length = K.responses.length) (bs : ℝ) (dist : Option (List ℝ))
    (hd : ∀ ds ∈ dist, ds.length = zs.length ∧ ∀ d ∈ ds, 0 < d) (x : NDA ℝ)
    (h : K.absmagMc (cubeOf zs.length K.responses.length mc maggies) (some (.arr [zs.length] K.responses.length ivs)) (some (.vec zs))
        (cubeOf zs.length K.templates.nsed mc coeffs) bs (dist.map .vec) false false = .ok (.one x))
    (g j i : Nat) (z v : ℝ) (iv : List ℝ) (hg : zs[g]? = some z) (hgi : ivs[g]? = some iv) (hj : K.imap[j]? = some i) (hv : iv[i]? = some v) (hv0 : 0 < v)
    (hpos : ∃ k < mc, 0 < maggies g i k) (hmiss : ∀ k < mc, 0 < maggies g i k → entry x (g * K.responses.length + j) k ≠ some (-9999)) :
    ∃ kv : Nat → ℝ,
      (∀ k < mc, ∃ kc, K.kcorrect (some (.scalar z)) (some (.vec ((List.range K.templates.nsed).map (fun t => coeffs g t k)))) bs = .ok kc ∧
        entry kc 0 j = some (kv k)) ∧
      (mcErrors x)[g * K.responses.length + j]? =
        some (scatter ((Finset.range mc).filter (fun k => 0 < maggies g i k)) (fun k => mag (maggies g i k) - kv k)) := by
  have key := mc_entries K hr A Ao hA hAo hG hn hi mc maggies coeffs zs hz ivs hiv hivl bs dist hd x h g j i z v iv hg hgi hj hv hv0
  obtain ⟨k0, hk0, hm0⟩ := hpos
  obtain ⟨_, _, _, _, hsh, hx0⟩ := key k0 hk0
  obtain ⟨rows, rfl⟩ : ∃ rows, x = .arr [zs.length, K.responses.length] mc rows := by
    cases x with
    | scalar a => simp [NDA.shape] at hsh
    | arr lead n rows =>
      have h1 : lead ++ [n] = [zs.length, K.responses.length] ++ [mc] := hsh
      obtain ⟨e1, e2⟩ := List.append_inj' h1 rfl
      cases e1
      cases e2
      exact ⟨rows, rfl⟩
  obtain ⟨row, hrow⟩ : ∃ row, rows[g * K.responses.length + j]? = some row := by
    cases hr' : rows[g * K.responses.length + j]? with
    | none => simp [entry, hr'] at hx0
    | some row => exact ⟨row, rfl⟩
  classical
  refine ⟨fun k => if hk : k < mc then (key k hk).choose_spec.choose else 0, ?_, ?_⟩
  · intro k hk
    refine ⟨(key k hk).choose, (key k hk).choose_spec.choose_spec.1, ?_⟩
    simp only [dif_pos hk]
    exact (key k hk).choose_spec.choose_spec.2.1
  · generalize hK : (fun k => if hk : k < mc then (key k hk).choose_spec.choose else 0) = kv
    have hval : ∀ k < mc, ent row k = if 0 < maggies g i k then mag (maggies g i k) - kv k + (abOffset K.abCls i - dmSpec K.distmod z (dist.map (fun ds => ent ds g))) else -9999 := by
      intro k hk
      have h4 := (key k hk).choose_spec.choose_spec.2.2.2
      have e : kv k = (key k hk).choose_spec.choose := by rw [← hK]; simp [hk]
      rw [← e] at h4
      simp only [entry, hrow, Option.bind_some] at h4
      rw [ent, List.getD_eq_getElem?_getD, h4]
      rfl
    have hne : ∀ k < mc, (neb (ent row k) (lit (-9999)) = decide (0 < maggies g i k)) := by
      intro k hk
      rw [neb_real, real_lit]
      by_cases hp : 0 < maggies g i k
      · have h1 := hmiss k hk hp
        have h4 := (key k hk).choose_spec.choose_spec.2.2.2
        have e : kv k = (key k hk).choose_spec.choose := by rw [← hK]; simp [hk]
        rw [← e, if_pos hp] at h4
        rw [h4] at h1
        rw [hval k hk, if_pos hp]
        have h2 : mag (maggies g i k) - kv k + (abOffset K.abCls i - dmSpec K.distmod z (dist.map (fun ds => ent ds g))) ≠ -9999 := fun e' => h1 (by rw [e'])
        simp only [hp, decide_true, decide_eq_true_eq]
        push_cast
        exact h2
      · rw [hval k hk, if_neg hp]
        simp [hp]
    have hlist : ((List.range mc).map (ent row)).filter (fun v => neb v (lit (-9999))) =
        ((List.range mc).filter (fun k => decide (0 < maggies g i k))).map (ent row) := by
      rw [List.filter_map]
      congr 1
      apply List.filter_congr
      intro k hk
      exact hne k (List.mem_range.mp hk)
    simp only [mcErrors, List.getElem?_map, hrow, Option.map_some, hlist]
    rw [stdOf_real mc (fun k => 0 < maggies g i k) (ent row)]
    congr 1
    rw [← scatter_shift _ ⟨k0, by simp [hk0, hm0]⟩ (fun k => mag (maggies g i k) - kv k) (abOffset K.abCls i - dmSpec K.distmod z (dist.map (fun ds => ent ds g)))]
    apply scatter_congr
    intro k hk
    simp only [Finset.mem_filter, Finset.mem_range] at hk
    rw [hval k hk.1, if_pos hk.2]

/-- C216: the errors do not depend on the distances, and not on the brightness: two calls for the same galaxies, with other distances or without, and with all
fluxes of each galaxy multiplied by a positive factor, give the same errors. -/
theorem C216_distance (K : Kc ℝ) (hr : AbReady K.abCls K.responses.length) (A Ao : AMat ℝ) (hA : K.Amatrix = some A) (hAo : K.AmatrixOut = some Ao) (hG : Ao.Good)
    (hn : Ao.nrow = K.responses.length) (hi : K.imap.length = Ao.nrow) (mc : Nat) (maggies coeffs : Nat → Nat → Nat → ℝ) (zs : List ℝ) (hz : zs ≠ []) (ivs : List (List ℝ))
    (hiv : ivs.length = zs.length) (hivl : ∀ iv ∈ ivs, iv.length = K.responses.length) (bs : ℝ) (dist dist' : Option (List ℝ))
    (hd : ∀ ds ∈ dist, ds.length = zs.length ∧ ∀ d ∈ ds, 0 < d) (hd' : ∀ ds ∈ dist', ds.length = zs.length ∧ ∀ d ∈ ds, 0 < d)
    (s : Nat → ℝ) (hs : ∀ g, 0 < s g) (x x' : NDA ℝ)
    (h : K.absmagMc (cubeOf zs.length K.responses.length mc maggies) (some (.arr [zs.length] K.responses.length ivs)) (some (.vec zs))
        (cubeOf zs.length K.templates.nsed mc coeffs) bs (dist.map .vec) false false = .ok (.one x))
    (h' : K.absmagMc (cubeOf zs.length K.responses.length mc (fun g j k => s g * maggies g j k)) (some (.arr [zs.length] K.responses.length ivs)) (some (.vec zs))
        (cubeOf zs.length K.templates.nsed mc coeffs) bs (dist'.map .vec) false false = .ok (.one x'))
    (g j i : Nat) (z v : ℝ) (iv : List ℝ) (hg : zs[g]? = some z) (hgi : ivs[g]? = some iv) (hj : K.imap[j]? = some i) (hv : iv[i]? = some v) (hv0 : 0 < v)
    (hpos : ∃ k < mc, 0 < maggies g i k) (hmiss : ∀ k < mc, 0 < maggies g i k → entry x (g * K.responses.length + j) k ≠ some (-9999))
    (hmiss' : ∀ k < mc, 0 < maggies g i k → entry x' (g * K.responses.length + j) k ≠ some (-9999)) :
    ∃ e, (mcErrors x)[g * K.responses.length + j]? = some e ∧ (mcErrors x')[g * K.responses.length + j]? = some e := by
  obtain ⟨kv, h1, h2⟩ := C216_errors K hr A Ao hA hAo hG hn hi mc maggies coeffs zs hz ivs hiv hivl bs dist hd x h g j i z v iv hg hgi hj hv hv0 hpos hmiss
  have hp : ∀ k, 0 < s g * maggies g i k ↔ 0 < maggies g i k := fun k => mul_pos_iff_of_pos_left (hs g)
  obtain ⟨kv', h3, h4⟩ := C216_errors K hr A Ao hA hAo hG hn hi mc (fun g j k => s g * maggies g j k) coeffs zs hz ivs hiv hivl bs dist' hd' x' h' g j i z v iv hg hgi hj hv hv0
    (by obtain ⟨k, hk, hk'⟩ := hpos; exact ⟨k, hk, (hp k).mpr hk'⟩) (fun k hk hk' => hmiss' k hk ((hp k).mp hk'))
  refine ⟨_, h2, ?_⟩
  rw [h4]
  congr 1
  have hS : (Finset.range mc).filter (fun k => 0 < s g * maggies g i k) = (Finset.range mc).filter (fun k => 0 < maggies g i k) :=
    Finset.filter_congr (fun k _ => hp k)
  rw [hS]
  obtain ⟨k0, hk0, hm0⟩ := hpos
  rw [← scatter_shift _ ⟨k0, by simp [hk0, hm0]⟩ (fun k => mag (maggies g i k) - kv k) (mag (s g))]
  apply scatter_congr
  intro k hk
  simp only [Finset.mem_filter, Finset.mem_range] at hk
  obtain ⟨kc, a1, a2⟩ := h1 k hk.1
  obtain ⟨kc', b1, b2⟩ := h3 k hk.1
  rw [a1] at b1
  cases b1
  rw [a2] at b2
  rw [← Option.some.inj b2]
  unfold mag
  rw [Real.logb_mul (hs g).ne' hk.2.ne']
  ring

/-- C216: where no sample has positive flux the error is NaN, not a number that reads as a small error. -/
theorem C216_none (lead : List Nat) (mc : Nat) (rows : List (List XR)) (r : Nat) (row : List XR) (hrow : rows[r]? = some row)
    (h : ∀ k < mc, row[k]? = some (.fin (-9999))) : (mcErrors (.arr lead mc rows))[r]? = some .nan := by
  have e : ((List.range mc).map (ent row)).filter (fun v => neb v (lit (-9999))) = [] := by
    rw [List.filter_eq_nil_iff]
    intro v hv
    obtain ⟨k, hk, rfl⟩ := List.mem_map.mp hv
    rw [ent, List.getD_eq_getElem?_getD, h k (List.mem_range.mp hk)]
    simp [neb, leb, Arith.lit, XR.leb]
  simp only [mcErrors, List.getElem?_map, hrow, Option.map_some, e, stdOf]
  have e0 : (XR.fin 0 / XR.fin 0 : XR) = .nan := by
    show XR.div (.fin 0) (.fin 0) = .nan
    simp [XR.div, XR.infMul]
  simp [sumL, Arith.lit, Arith.sqrt, XR.sqrt, e0]

/-! ### Not vacuous -/

theorem demoKc_k0 : demoKc.kcorrect (some (.scalar 0)) (some (.vec [1, 1])) 0 = .ok (.arr [] 1 [[0]]) := by
  rw [kcorrect_real (A := demoAm) (Ao := demoAm) rfl rfl 0 [1, 1] rfl]
  unfold kReal
  rw [demoAm_at0]
  simp only [ok_bind, demoKc, kRow, reconRow, sumL_real]
  norm_num [gather, dot, magOf, Except.map, pure, Except.pure, demoAm, gtb, ltb, ent, sumL]

theorem absmagMc_single {α : Type} [Arith α] (K : Kc α) (m : NDA α) (iv z : Option (NDA α)) (c : NDA α) (bs : α) (d : Option (NDA α)) (ret : Ret α)
    (h : K.absmagMc m iv z c bs d false false = .ok ret) : ∃ x, ret = .one x := by
  unfold Kc.absmagMc at h
  rw [bind_ok_iff] at h
  obtain ⟨mc, _, h⟩ := h
  cases m with
  | scalar a =>
    by_cases h0 : mc = 0
    · simp only [h0, if_true] at h
      cases h
    · simp only [h0, if_false] at h
      cases h
  | arr slot ncol rows =>
    rw [bind_ok_iff] at h
    obtain ⟨outs, _, h⟩ := h
    cases h
    exact ⟨_, rfl⟩

/-- fluxes 1, 10 and -1 in three samples of one galaxy -/
def demoSamples : Nat → Nat → Nat → ℝ := fun _ _ k => if k = 0 then 1 else if k = 1 then 10 else -1

/-- the call for these samples, at the distance of the cosmology or at 10 Mpc, returns, and no sample with flux has the magnitude -9999 -/
theorem demo_samples (dist : Option (List ℝ)) (hdist : dist = none ∨ dist = some [10]) :
    ∃ x, demoKc.absmagMc (cubeOf 1 1 3 demoSamples) (some (.arr [1] 1 [[1]])) (some (.vec [0])) (cubeOf 1 2 3 (fun _ _ _ => 1)) 0 (dist.map .vec) false false =
        .ok (.one x) ∧ ∀ k < 3, 0 < demoSamples 0 0 k → entry x 0 k ≠ some (-9999) := by
  have hd : ∀ ds ∈ dist, ds.length = [(0 : ℝ)].length ∧ ∀ d ∈ ds, (0 : ℝ) < d := by
    rcases hdist with rfl | rfl <;> simp
  have hd0 : ∀ d ∈ dist.map (fun ds => ent ds 0), 0 < d := by
    rcases hdist with rfl | rfl <;> simp [ent]
  obtain ⟨ret, hret⟩ := (C75_table_partial demoKc trivial demoAm demoAm rfl rfl demoAm_good rfl rfl 3 demoSamples (fun _ _ _ => 1) [0] (by simp)
    [[1]] rfl (by intro iv h; fin_cases h; rfl) 0 dist (fun ds h => (hd ds h).1) false false).1.mpr (by
      intro g k z iv hg hiv hk
      match g, hg, hiv with
      | 0, hg, hiv =>
        cases hg
        cases hiv
        obtain ⟨a, ha⟩ := (C70_corrected_partial demoKc trivial demoAm demoAm rfl rfl 0 [demoSamples 0 0 k] [1] [1, 1] rfl rfl rfl 0 (dist.map (fun ds => ent ds 0)) hd0).1.mpr ⟨_, demoKc_k0⟩
        rw [Option.map_map] at ha
        exact ⟨_, ha⟩)
  obtain ⟨x, rfl⟩ := absmagMc_single _ _ _ _ _ _ _ _ hret
  refine ⟨x, hret, ?_⟩
  have key := mc_entries demoKc trivial demoAm demoAm rfl rfl demoAm_good rfl rfl 3 demoSamples (fun _ _ _ => 1) [0] (by simp)
    [[1]] rfl (by intro iv h; fin_cases h; rfl) 0 dist hd x hret 0 0 0 0 1 [1] rfl rfl rfl rfl one_pos
  have hdm : dmSpec demoKc.distmod 0 (dist.map (fun ds => ent ds 0)) = 0 ∨ dmSpec demoKc.distmod 0 (dist.map (fun ds => ent ds 0)) = 30 := by
    rcases hdist with rfl | rfl
    · left; rfl
    · right
      show 5 * Real.logb 10 (10 * 10 ^ 6 / 10) = 30
      rw [show (10 : ℝ) * 10 ^ 6 / 10 = 10 ^ (6 : ℕ) by norm_num, Real.logb_pow, Real.logb_self_eq_one (by norm_num)]
      norm_num
  intro k hk hp hx
  obtain ⟨kc, kv, e1, e2, _, e3⟩ := key k hk
  rw [show (List.range demoKc.templates.nsed).map (fun _ => (1 : ℝ)) = [1, 1] from rfl, demoKc_k0] at e1
  cases e1
  cases e2
  rw [Nat.zero_mul, Nat.add_zero, hx, if_pos hp, show abOffset demoKc.abCls 0 = 0 from rfl] at e3
  have e4 := Option.some.inj e3
  have hm : mag (demoSamples 0 0 k) = 0 ∨ mag (demoSamples 0 0 k) = -2.5 := by
    unfold demoSamples at hp ⊢
    unfold mag
    by_cases h0 : k = 0
    · left; simp [h0]
    · by_cases h1 : k = 1
      · right; simp [h1]
      · rw [if_neg h0, if_neg h1] at hp
        norm_num at hp
  rcases hdm with hdm | hdm <;> rcases hm with hm | hm <;> rw [hdm, hm] at e4 <;> norm_num at e4

/-- three samples with fluxes 1, 10 and -1: magnitudes 0, -2.5 and none, and error 1.25, at any distance modulus (here a distance of 10 Mpc and that of the
cosmology) -/
example (dist : Option (List ℝ)) (hdist : dist = none ∨ dist = some [10]) :
    ∃ x, demoKc.absmagMc (cubeOf 1 1 3 demoSamples) (some (.arr [1] 1 [[1]])) (some (.vec [0])) (cubeOf 1 2 3 (fun _ _ _ => 1)) 0 (dist.map .vec) false false =
        .ok (.one x) ∧ (mcErrors x)[0]? = some (1.25 : ℝ) := by
  have hd : ∀ ds ∈ dist, ds.length = [(0 : ℝ)].length ∧ ∀ d ∈ ds, (0 : ℝ) < d := by
    rcases hdist with rfl | rfl <;> simp
  obtain ⟨x, hret, hmiss⟩ := demo_samples dist hdist
  refine ⟨x, hret, ?_⟩
  obtain ⟨kv, h1, h2⟩ := C216_errors demoKc trivial demoAm demoAm rfl rfl demoAm_good rfl rfl 3 demoSamples (fun _ _ _ => 1) [0] (by simp)
    [[1]] rfl (by intro iv h; fin_cases h; rfl) 0 dist hd x hret 0 0 0 0 1 [1] rfl rfl rfl rfl one_pos ⟨0, by norm_num, by norm_num [demoSamples]⟩ (by simpa using hmiss)
  have hk : ∀ k < 3, kv k = 0 := by
    intro k hk
    obtain ⟨kc, e1, e2⟩ := h1 k hk
    rw [show (List.range demoKc.templates.nsed).map (fun _ => (1 : ℝ)) = [1, 1] from rfl, demoKc_k0] at e1
    cases e1
    exact (Option.some.inj e2).symm
  have hS : (Finset.range 3).filter (fun k => 0 < demoSamples 0 0 k) = {0, 1} := by
    ext k
    simp only [Finset.mem_filter, Finset.mem_range, Finset.mem_insert, Finset.mem_singleton]
    unfold demoSamples
    constructor
    · rintro ⟨a, b⟩
      by_contra hc
      push Not at hc
      rw [if_neg hc.1, if_neg hc.2] at b
      norm_num at b
    · rintro (rfl | rfl) <;> norm_num
  have h3 : (mcErrors x)[0]? = _ := h2
  rw [h3, hS]
  congr 1
  unfold scatter
  rw [Finset.card_pair (by norm_num), Finset.sum_pair (by norm_num), Finset.sum_pair (by norm_num), hk 0 (by norm_num), hk 1 (by norm_num)]
  simp only [hk 0 (by norm_num), hk 1 (by norm_num)]
  rw [show mag (demoSamples 0 0 0) = 0 by simp [demoSamples, mag], show mag (demoSamples 0 0 1) = -2.5 by simp [demoSamples, mag]]
  rw [show (((0 : ℝ) - 0 - (0 - 0 + (-2.5 - 0)) / (2 : ℕ)) ^ 2 + (-2.5 - 0 - (0 - 0 + (-2.5 - 0)) / (2 : ℕ)) ^ 2) / (2 : ℕ) = 1.25 ^ 2 by norm_num]
  exact Real.sqrt_sq (by norm_num)

end KC
