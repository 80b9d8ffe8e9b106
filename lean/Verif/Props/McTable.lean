import Verif.Props.Batches
import Verif.Props.McDrift

/-! C75 for tables of galaxies in every class, with the samples given entry by entry. -/

namespace KC
open Spec

/-- the table with entry `f g j` for galaxy `g` and column `j` -/
def tableOf (n w : Nat) (f : Nat → Nat → ℝ) : List (List ℝ) := (List.range n).map (fun g => (List.range w).map (f g))

/-- the array of shape `[n, w, mc]` with entry `f g j k` -/
def cubeOf (n w mc : Nat) (f : Nat → Nat → Nat → ℝ) : NDA ℝ :=
  .arr [n, w] mc ((List.range n).flatMap (fun g => (List.range w).map (fun j => (List.range mc).map (f g j))))

theorem tableOf_length (n w : Nat) (f : Nat → Nat → ℝ) : (tableOf n w f).length = n := by simp [tableOf]

theorem tableOf_row (n w : Nat) (f : Nat → Nat → ℝ) : ∀ r ∈ tableOf n w f, r.length = w := by
  intro r hr
  simp only [tableOf, List.mem_map] at hr
  obtain ⟨g, _, rfl⟩ := hr
  simp

theorem tableOf_get (n w : Nat) (f : Nat → Nat → ℝ) (g : Nat) (hg : g < n) : (tableOf n w f)[g]? = some ((List.range w).map (f g)) := by
  simp [tableOf, hg]

/-- sample `k` of the array is the table of the entries with that `k` -/
theorem cube_sample (n w mc : Nat) (f : Nat → Nat → Nat → ℝ) (k : Nat) (hk : k < mc) :
    NDA.ofFlat [n, w] (((List.range n).flatMap (fun g => (List.range w).map (fun j => (List.range mc).map (f g j)))).map (fun row => ent row k)) =
      .arr [n] w (tableOf n w (fun g j => f g j k)) := by
  have e : ((List.range n).flatMap (fun g => (List.range w).map (fun j => (List.range mc).map (f g j)))).map (fun row => ent row k) =
      (tableOf n w (fun g j => f g j k)).flatten := by
    rw [List.map_flatMap, tableOf, List.flatMap_def]
    congr 1
    apply List.map_congr_left
    intro g _
    rw [List.map_map]
    apply List.map_congr_left
    intro j _
    simp [ent, hk]
  rw [e, ofFlat_two]
  have := chunks_flatten w (tableOf n w (fun g j => f g j k)) (tableOf_row n w _)
  rw [tableOf_length] at this
  rw [this]

/-- entry of a concatenation of rows of one length -/
theorem flatten_row {β : Type} (w : Nat) : ∀ (rows : List (List β)) (g j : Nat), (∀ r ∈ rows, r.length = w) → j < w →
    rows.flatten[g * w + j]? = (rows[g]?).bind (fun r => r[j]?)
  | [], g, j, _, _ => by simp
  | r :: rows, 0, j, h, hj => by
    rw [List.flatten_cons, Nat.zero_mul, Nat.zero_add, List.getElem?_append_left (by rw [h r (by simp)]; exact hj)]
    rfl
  | r :: rows, g + 1, j, h, hj => by
    have hr := h r (by simp)
    rw [List.flatten_cons, List.getElem?_append_right (by rw [hr, Nat.succ_mul]; omega), hr, show (g + 1) * w + j - w = g * w + j by rw [Nat.succ_mul]; omega,
      flatten_row w rows g j (fun x hx => h x (by simp [hx])) hj]
    rfl

/-- the rows that `absmag` returns for one galaxy have one entry per output band -/
theorem absmag_lengths {K : Kc ℝ} (hr : AbReady K.abCls K.responses.length) {A Ao : AMat ℝ} (hA : K.Amatrix = some A) (hAo : K.AmatrixOut = some Ao) (hG : Ao.Good)
    (hi : K.imap.length = Ao.nrow) {z : ℝ} {m iv c : List ℝ} (hm : m.length = K.responses.length) (hiv : iv.length = K.responses.length)
    (hc : c.length = K.templates.nsed) {bs : ℝ} {dist : Option ℝ} {r l kk : Bool} {out : Ret ℝ}
    (h : K.absmag (some (.vec m)) (some (.vec iv)) (some (.scalar z)) (some (.vec c)) bs (dist.map .scalar) r l kk = .ok out) :
    ∀ y ∈ out.list, ∃ row, y = .arr [] Ao.nrow [row] ∧ row.length = Ao.nrow := by
  rw [absmag_eff K hr z m iv c hm hiv hc, absmag_scalar (K := K.plain) (Or.inl rfl) hA hAo z _ _ c (by rw [List.length_mapIdx]; exact hm) (by rw [List.length_mapIdx]; exact hiv) hc] at h
  generalize hm' : (List.mapIdx (fun j x => x * abFactor K.abCls j) m).map f32 = m' at h
  generalize hiv' : (List.mapIdx (fun j x => x / abFactor K.abCls j ^ 2) iv).map f32 = iv' at h
  have hi' : K.plain.imap.length = Ao.nrow := hi
  cases ho : absOne K.plain.imap A Ao id r l kk bs (dm1 K.plain (f32 z) dist) (f32 z) m' iv' (c.map f32) with
  | error e => rw [ho] at h; cases h
  | ok rows =>
    rw [ho] at h
    simp only [Except.map, Except.ok.injEq] at h
    subst h
    intro y hy
    rw [ret_list] at hy
    obtain ⟨row, hrow, rfl⟩ := List.mem_map.mp hy
    refine ⟨row, rfl, ?_⟩
    unfold absOne at ho
    rw [bind_ok_iff] at ho
    obtain ⟨k, hk, ho⟩ := ho
    obtain ⟨o, hO, hret⟩ : ∃ o, (if r then (Ao.at (shiftOf (f32 (f32 z)) bs)).map (fun M => some (reconRow bs M ((c.map f32).map f32))) else .ok none) = .ok o ∧
        absRows K.plain.imap l kk (dm1 K.plain (f32 z) dist) k m' iv' o = rows := by
      cases r with
      | false =>
        cases ho
        exact ⟨none, rfl, rfl⟩
      | true =>
        simp only [if_true] at ho ⊢
        cases hM : Ao.at (shiftOf (f32 (f32 z)) bs) with
        | error e => rw [hM] at ho; cases ho
        | ok M => rw [hM] at ho; cases ho; exact ⟨_, rfl, rfl⟩
    have hkl : k.length = Ao.nrow := by
      unfold kOne at hk
      simp only [bind_ok_iff] at hk
      obtain ⟨M, hM, Mo, hMo, hk⟩ := hk
      have hl : Mo.length = Ao.nrow := (at_shaped hG hMo).1
      cases hk
      unfold kRow
      split
      · simp [gather, hi', reconRow, hl]
      · simp [zeros, reconRow, hl]
    have hol : ∀ x ∈ o, x.length = Ao.nrow := by
      intro x hx
      cases r with
      | false => cases hO; cases hx
      | true =>
        simp only [if_true] at hO
        cases hM : Ao.at (shiftOf (f32 (f32 z)) bs) with
        | error e => rw [hM] at hO; cases hO
        | ok M =>
          rw [hM] at hO
          cases hO
          cases hx
          simp [reconRow, (at_shaped hG hM).1]
    subst hret
    unfold absRows at hrow
    simp only [List.mem_append, List.mem_singleton] at hrow
    rcases hrow with ((rfl | h1) | h1) | h1
    · simp [zip3, gather, hkl, hi']
    · cases o with
      | none => simp at h1
      | some x =>
        simp only [Option.map_some, Option.toList_some, List.mem_singleton] at h1
        subst h1
        simp [hkl, hol x rfl]
    · cases l with
      | false => simp at h1
      | true =>
        simp only [if_true, List.mem_singleton] at h1
        subst h1
        simp [gather, hkl, hi']
    · cases kk with
      | false => simp at h1
      | true =>
        simp only [if_true, List.mem_singleton] at h1
        subst h1
        exact hkl

/-- C75 for a table of galaxies in every class, with as many output bands as input bands.  The call returns exactly if `absmag` does for every sample of every
galaxy, and entry `[g, j, k]` of each returned array is the value in band `j` of `absmag` on the `k`-th maggies and coefficients of galaxy `g`. -/
theorem C75_table_partial (K : Kc ℝ) (hr : AbReady K.abCls K.responses.length) (A Ao : AMat ℝ) (hA : K.Amatrix = some A) (hAo : K.AmatrixOut = some Ao) (hG : Ao.Good)
    (hn : Ao.nrow = K.responses.length) (hi : K.imap.length = Ao.nrow) (mc : Nat) (maggies coeffs : Nat → Nat → Nat → ℝ) (zs : List ℝ) (hz : zs ≠ []) (ivs : List (List ℝ))
    (hiv : ivs.length = zs.length) (hivl : ∀ iv ∈ ivs, iv.length = K.responses.length) (bs : ℝ) (dist : Option (List ℝ)) (hd : ∀ ds ∈ dist, ds.length = zs.length) (r kk : Bool) :
    ((∃ ret, K.absmagMc (cubeOf zs.length K.responses.length mc maggies) (some (.arr [zs.length] K.responses.length ivs)) (some (.vec zs))
        (cubeOf zs.length K.templates.nsed mc coeffs) bs (dist.map .vec) r kk = .ok ret) ↔
      ∀ (g k : Nat) z iv, zs[g]? = some z → ivs[g]? = some iv → k < mc →
        ∃ out, K.absmag (some (.vec ((List.range K.responses.length).map (fun j => maggies g j k)))) (some (.vec iv)) (some (.scalar z))
          (some (.vec ((List.range K.templates.nsed).map (fun t => coeffs g t k)))) bs (dist.map (fun ds => .scalar (ent ds g))) r false kk = .ok out) ∧
    ∀ ret, K.absmagMc (cubeOf zs.length K.responses.length mc maggies) (some (.arr [zs.length] K.responses.length ivs)) (some (.vec zs))
        (cubeOf zs.length K.templates.nsed mc coeffs) bs (dist.map .vec) r kk = .ok ret →
      ∀ (g k : Nat) z iv, zs[g]? = some z → ivs[g]? = some iv → k < mc →
        ∃ out, K.absmag (some (.vec ((List.range K.responses.length).map (fun j => maggies g j k)))) (some (.vec iv)) (some (.scalar z))
          (some (.vec ((List.range K.templates.nsed).map (fun t => coeffs g t k)))) bs (dist.map (fun ds => .scalar (ent ds g))) r false kk = .ok out ∧
          out.list.length = ret.list.length ∧ ∀ (t : Nat) x y, ret.list[t]? = some x → out.list[t]? = some y →
            x.shape = [zs.length, K.responses.length, mc] ∧ ∀ j < K.responses.length, ∃ v, entry y 0 j = some v ∧ entry x (g * K.responses.length + j) k = some v := by
  set nb := K.responses.length with hnb
  set nt := K.templates.nsed with hnt
  set mrows := (List.range zs.length).flatMap (fun g => (List.range nb).map (fun j => (List.range mc).map (maggies g j))) with hmr
  set crows := (List.range zs.length).flatMap (fun g => (List.range nt).map (fun j => (List.range mc).map (coeffs g j))) with hcr
  have e : ∀ k < mc, sampleAbs K [zs.length, nb] mrows (some (.arr [zs.length] nb ivs)) (some (.vec zs)) [zs.length, nt] crows bs (dist.map .vec) r kk k =
      K.absmag (some (.arr [zs.length] nb (tableOf zs.length nb (fun g j => maggies g j k)))) (some (.arr [zs.length] nb ivs)) (some (.vec zs))
        (some (.arr [zs.length] nt (tableOf zs.length nt (fun g j => coeffs g j k)))) bs (dist.map .vec) r false kk := by
    intro k hk
    unfold sampleAbs
    rw [hmr, hcr, cube_sample _ _ _ _ k hk, cube_sample _ _ _ _ k hk]
  have tab := fun k => C94_ab_partial K hr A Ao hA hAo zs (tableOf zs.length nb (fun g j => maggies g j k)) ivs (tableOf zs.length nt (fun g j => coeffs g j k))
    (tableOf_length _ _ _) hiv (tableOf_length _ _ _) (tableOf_row _ _ _) hivl (tableOf_row _ _ _) bs dist hd r false kk
  -- the arrays for one sample, in detail
  have det : ∀ k out, K.absmag (some (.arr [zs.length] nb (tableOf zs.length nb (fun g j => maggies g j k)))) (some (.arr [zs.length] nb ivs)) (some (.vec zs))
        (some (.arr [zs.length] nt (tableOf zs.length nt (fun g j => coeffs g j k)))) bs (dist.map .vec) r false kk = .ok out → ∀ y ∈ out.list,
      ∃ rows, y = .arr [zs.length] nb rows := by
    intro k out h y hy
    obtain ⟨z, zt, hzs⟩ : ∃ z zt, zs = z :: zt := List.exists_cons_of_ne_nil hz
    obtain ⟨iv, it, his⟩ : ∃ iv it, ivs = iv :: it := List.exists_cons_of_ne_nil (by intro h0; rw [h0, hzs] at hiv; simp at hiv)
    obtain ⟨out1, _, _, h3⟩ := (tab k).2 out h 0 z _ iv _ (by rw [hzs]; rfl) (tableOf_get _ _ _ 0 (by rw [hzs]; simp)) (by rw [his]; rfl)
      (tableOf_get _ _ _ 0 (by rw [hzs]; simp))
    obtain ⟨t, ht⟩ := List.mem_iff_getElem?.mp hy
    have hs := (h3 t y ht).1
    cases y with
    | scalar _ => simp [NDA.shape] at hs
    | arr lead w rows =>
      have := List.append_inj' (show lead ++ [w] = [zs.length] ++ [nb] by rw [← hn]; exact hs) rfl
      obtain ⟨rfl, h2⟩ := this
      simp only [List.cons.injEq, and_true] at h2
      subst h2
      exact ⟨rows, rfl⟩
  have hs : ∀ k < mc, ∀ out, sampleAbs K [zs.length, nb] mrows (some (.arr [zs.length] nb ivs)) (some (.vec zs)) [zs.length, nt] crows bs (dist.map .vec) r kk k =
      .ok out → ∀ y ∈ out.list, y.shape = [zs.length, nb] := by
    intro k hk out h y hy
    rw [e k hk] at h
    obtain ⟨rows, rfl⟩ := det k out h y hy
    rfl
  obtain ⟨h1, h2⟩ := absmagMc_core K [zs.length, nb] mc mrows (some (.arr [zs.length] nb ivs)) (some (.vec zs)) [zs.length, nt] crows bs (dist.map .vec) r kk hs
  constructor
  · rw [show cubeOf zs.length nb mc maggies = .arr [zs.length, nb] mc mrows from rfl, show cubeOf zs.length nt mc coeffs = .arr [zs.length, nt] mc crows from rfl, h1]
    constructor
    · intro h g k z iv hg hivg hk
      have hgl : g < zs.length := (List.getElem?_eq_some_iff.mp hg).1
      have := h k hk
      rw [e k hk, (tab k).1] at this
      exact this g z _ iv _ hg (tableOf_get _ _ _ g hgl) hivg (tableOf_get _ _ _ g hgl)
    · intro h k hk
      rw [e k hk, (tab k).1]
      intro g z m iv c hg hm hivg hc
      have hgl : g < zs.length := (List.getElem?_eq_some_iff.mp hg).1
      rw [tableOf_get _ _ _ g hgl] at hm hc
      cases hm; cases hc
      exact h g k z iv hg hivg hk
  · intro ret hret g k z iv hg hivg hk
    have hgl : g < zs.length := (List.getElem?_eq_some_iff.mp hg).1
    obtain ⟨out, g1, g2, g3⟩ := h2 ret hret k hk
    rw [e k hk] at g1
    obtain ⟨out1, f1, f2, f3⟩ := (tab k).2 out g1 g z _ iv _ hg (tableOf_get _ _ _ g hgl) hivg (tableOf_get _ _ _ g hgl)
    refine ⟨out1, f1, by rw [← f2, g2], ?_⟩
    intro t x y1 hx hy1
    have hol : t < out.list.length := by rw [f2]; exact (List.getElem?_eq_some_iff.mp hy1).1
    have hy := List.getElem?_eq_getElem hol
    generalize out.list[t] = y at hy
    obtain ⟨s1, s2⟩ := g3 t x y hx hy
    refine ⟨s1, ?_⟩
    intro j hj
    obtain ⟨rows, rfl⟩ := det k out g1 y (List.mem_of_getElem? hy)
    -- every galaxy's row has an entry per band
    have rowat : ∀ g' < zs.length, ∃ row, rows[g']? = some row ∧ row.length = nb ∧ (g' = g → y1 = .arr [] nb [row]) := by
      intro g' hg'
      have hz' := List.getElem?_eq_getElem hg'
      have hiv' := List.getElem?_eq_getElem (show g' < ivs.length by omega)
      obtain ⟨o', p1, p2, p3⟩ := (tab k).2 out g1 g' _ _ _ _ hz' (tableOf_get _ _ _ g' hg') hiv' (tableOf_get _ _ _ g' hg')
      obtain ⟨_, y', q1, q2⟩ := p3 t _ hy
      obtain ⟨row, hrow⟩ : ∃ row, rows[g']? = some row := by
        cases hr' : rows[g']? with
        | none => simp [rowOf, hr'] at q2
        | some row => exact ⟨row, rfl⟩
      have hy' : y' = .arr [] nb [row] := by simpa [rowOf, hrow] using q2.symm
      obtain ⟨row', w1, w2⟩ := absmag_lengths hr hA hAo hG hi (m := (List.range nb).map (fun j => maggies g' j k)) (c := (List.range nt).map (fun j => coeffs g' j k)) (by rw [List.length_map, List.length_range]) (hivl _ (List.mem_of_getElem? hiv')) (by rw [List.length_map, List.length_range])
        (dist := dist.map (fun ds => ent ds g')) (by rw [Option.map_map]; exact p1) y' (List.mem_of_getElem? q1)
      refine ⟨row, hrow, ?_, ?_⟩
      · rw [hy'] at w1
        simp only [NDA.arr.injEq, List.cons.injEq, and_true, true_and] at w1
        rw [w1.2, w2, hn]
      · rintro rfl
        obtain ⟨_, y'', q3, q4⟩ := f3 t _ hy
        rw [hy1] at q3
        cases q3
        simpa [rowOf, hrow] using q4.symm
    have hrl : ∀ r ∈ rows.take zs.length, r.length = nb := by
      intro r' hr'
      obtain ⟨i, hi', rfl⟩ := List.mem_iff_getElem.mp hr'
      obtain ⟨row, a1, a2, _⟩ := rowat i (by simp at hi'; omega)
      rw [List.getElem_take, (List.getElem?_eq_some_iff.mp a1).2]
      exact a2
    obtain ⟨row, a1, a2, a3⟩ := rowat g hgl
    have hjr : j < row.length := by rw [a2]; exact hj
    refine ⟨row[j], ?_, ?_⟩
    · rw [a3 rfl]
      simp [entry, hjr]
    · have hlt : g * nb + j < zs.length * nb := by
        calc g * nb + j < g * nb + nb := by omega
          _ = (g + 1) * nb := by rw [Nat.succ_mul]
          _ ≤ zs.length * nb := Nat.mul_le_mul_right _ hgl
      have hf : (NDA.arr [zs.length] nb rows).flat[g * nb + j]? = some row[j] := by
        have e1 := flatten_row nb (rows.take zs.length) g j hrl hj
        rw [List.getElem?_take, if_pos hgl, a1, Option.bind_some, List.getElem?_eq_getElem hjr] at e1
        show rows.flatten[g * nb + j]? = _
        conv_lhs => rw [← List.take_append_drop zs.length rows, List.flatten_append]
        rw [List.getElem?_append_left (List.getElem?_eq_some_iff.mp e1).1, e1]
      have := s2 (g * nb + j) row[j] (by simpa using hlt) hf
      rwa [real_f32] at this

/-! ### Not vacuous -/

/-- two galaxies, three samples each: the call returns -/
example : ∃ ret, demoKc2.absmagMc (cubeOf 2 2 3 (fun g j k => 1 + g + j + k)) (some (.arr [2] 2 [[1, 1], [1, 4]])) (some (.vec [0, 2])) (cubeOf 2 2 3 (fun _ _ _ => 1)) 0 none
    true true = .ok ret := by
  refine (C75_table_partial demoKc2 trivial demoAm2 demoAm2 rfl rfl demo_ready.good rfl rfl 3 (fun g j k => 1 + g + j + k) (fun _ _ _ => 1) [0, 2] (by simp)
    [[1, 1], [1, 4]] rfl (by intro iv h; fin_cases h <;> rfl) 0 none (by simp) true true).1.mpr ?_
  intro g k z iv hg hiv hk
  have hz : z = 0 ∨ z = 2 := by
    have := List.mem_of_getElem? hg
    simpa using this
  have hl : iv.length = 2 := by
    have := List.mem_of_getElem? hiv
    fin_cases this <;> rfl
  have h := absmag_real (K := demoKc2) (Or.inl rfl) (A := demoAm2) (Ao := demoAm2) rfl rfl z ((List.range 2).map (fun j : Nat => (1 : ℝ) + g + j + k)) iv [1, 1] rfl hl rfl 0
    none (by simp) true false true
  obtain ⟨M, hM⟩ := (at_ok_iff (m := demoAm2) (q := 0) demo_ready.good.ne).mpr (by norm_num [InRange, demoAm2])
  have hr : ∃ rows, absReal demoKc2.imap demoAm2 demoAm2 true false true 0 (dmSpec demoKc2.distmod z none) z ((List.range 2).map (fun j : Nat => (1 : ℝ) + g + j + k)) iv
      [1, 1] = .ok rows := by
    unfold absReal kReal
    rcases hz with rfl | rfl
    · rw [show ((1 : ℝ) + 0) * (1 + 0) - 1 = 0 by norm_num, hM]
      exact ⟨_, rfl⟩
    · rw [show ((1 : ℝ) + 2) * (1 + 0) - 1 = 2 by norm_num, hM, demoAm2_at2]
      exact ⟨_, rfl⟩
  obtain ⟨rows, hr⟩ := hr
  rw [hr] at h
  exact ⟨_, h⟩

end KC
