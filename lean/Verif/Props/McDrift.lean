import Verif.Props.Heap

/-!
C167: calls of `absmag_mc` with the same arrays.  The maggies of a sample are a view of the caller's array, and `KcorrectGST.to_ab` assigns
to its argument.
-/

namespace KC
open Spec

section generic
variable {α : Type} [Arith α]

/-- what is read after an assignment to the view `a[..., k]` of an array of two dimensions -/
theorem get_put_sample {H : Heap α} {r k n mc : Nat} {f : Bool} {rows : List (List α)} (hc : H[r]? = some ⟨f, .arr [n] mc rows⟩) (hn : rows.length = n)
    (hr : ∀ row ∈ rows, row.length = mc) (hk : k < mc) (s : List α) (hs : s.length = n) :
    (⟨r, some k⟩ : View).get (H.modify r ((⟨r, some k⟩ : View).put (.vec s))) = .ok (.vec s) := by
  have e : ((List.zipWith (fun row x => row.set k x) rows s).map (fun row => ent row k)) = s := by
    apply List.ext_getElem (by simp; omega)
    intro i h1 h2
    have hi : i < rows.length := by omega
    have := hr _ (List.getElem_mem hi)
    simp [ent, this, hk]
  unfold View.get
  rw [List.getElem?_modify, hc]
  simp only [if_true, Option.map_eq_map, Option.map_some, View.put, putLast, NDA.lastIdx, hk, NDA.vec, NDA.flat, List.flatten_cons, List.flatten_nil, List.append_nil, e, Except.ok.injEq]
  exact ofFlat_one n s hs

/-- `KcorrectGST.to_ab` writes what it computes into its arguments -/
theorem toAbH_gst {m iv : View} {H : Heap α} {a b out w : NDA α} (ha : m.get H = .ok a) (hb : iv.get H = .ok b) (hne : iv.ref ≠ m.ref)
    (ht : toAb .gst a (some b) = .ok ⟨out, some w⟩) :
    toAbH .gst m (some iv) H = ((H.modify m.ref (m.put out)).modify iv.ref (iv.put w), .ok (m, some iv)) := by
  unfold toAb at ht
  simp only [bind_ok_iff] at ht
  obtain ⟨sm, h1, siv, h2, r, h3, h4⟩ := ht
  have e0 : toAbH .gst m (some iv) H = (HM.read iv >>= fun b => HM.lift (slice27 b) >>= fun siv => HM.lift (sdssAbCorrect sm (some siv) abfixDefault) >>= fun r =>
        match r.ivar with
        | none => HM.lift (.error .unmodelled)
        | some riv => HM.write m (putSlice27 a r.maggies) >>= fun _ => HM.read iv >>= fun b => HM.write iv (putSlice27 b riv) >>= fun _ =>
          (Pure.pure (m, some iv) : HM α (View × Option View))) H := by
    refine (hbind_ok (show HM.read m H = (H, .ok a) by rw [HM.read, ha])).trans ?_
    rw [h1]; rfl
  rw [e0, hbind_ok (show HM.read iv H = (H, .ok b) by rw [HM.read, hb]), h2, hlift_ok, h3, hlift_ok]
  cases hr : r.ivar with
  | none => rw [hr] at h4; simp at h4
  | some riv =>
    rw [hr] at h4
    simp only [Except.ok.injEq, AbOut.mk.injEq, Option.some.injEq] at h4
    obtain ⟨rfl, rfl⟩ := h4
    show (HM.read iv >>= fun b => HM.write iv (putSlice27 b riv) >>= fun _ =>
      (Pure.pure (m, some iv) : HM α (View × Option View))) (H.modify m.ref (m.put (putSlice27 a r.maggies))) = _
    rw [hbind_ok (show HM.read iv (H.modify m.ref (m.put (putSlice27 a r.maggies))) = (_, .ok b) by rw [HM.read, get_modify_ne hne, hb])]
    rfl

end generic

/-- the maggies of the samples (a row per band) when sample `k` has been corrected `p k` times -/
noncomputable def mcTimes (rows : List (List ℝ)) (p : Nat → Nat) : List (List ℝ) :=
  rows.mapIdx (fun j row => row.mapIdx (fun k x => x * gstFactor j ^ p k))

/-- inverse variances after `q` corrections -/
noncomputable def ivTimes (b : List ℝ) (q : Nat) : List ℝ := b.mapIdx (fun j x => x / gstFactor j ^ (2 * q))

/-- column `k` of a table -/
noncomputable def colOf (rows : List (List ℝ)) (k : Nat) : List ℝ := rows.map (fun row => ent row k)

/-- maggies of sample `k` after `t` corrections -/
noncomputable def colTimes (rows : List (List ℝ)) (k t : Nat) : List ℝ := (colOf rows k).mapIdx (fun j x => x * gstFactor j ^ t)

/-- The arguments of a call of `absmag_mc` for one galaxy: `mc` samples of maggies in the float32 array `mm`, inverse variances in the array
`ivr` (float32 if `fi`), the redshift `z`, samples of coefficients in the array `cm`, and perhaps a distance.  The first two arrays
are no other argument. -/
structure McArgs (h : Heap ℝ) (nb nt mm ivr : Nat) (z : View) (cm : Nat) (d : Option View) (mc : Nat) (rows : List (List ℝ)) (fi : Bool) (b : List ℝ) (zz : ℝ)
    (crows : List (List ℝ)) (dist : Option ℝ) : Prop where
  hm : h[mm]? = some ⟨true, .arr [nb] mc rows⟩
  mlen : rows.length = nb
  mrow : ∀ row ∈ rows, row.length = mc
  hiv : h[ivr]? = some ⟨fi, .vec b⟩
  ivlen : b.length = nb
  hz : z.get h = .ok (.scalar zz)
  hc : ∃ f, h[cm]? = some ⟨f, .arr [nt] mc crows⟩
  clen : crows.length = nt
  hd : d.map (fun x => x.get h) = dist.map (fun x => .ok (.scalar x))
  ne : ivr ≠ mm
  zne : z.ref ≠ mm ∧ z.ref ≠ ivr
  cne : cm ≠ mm ∧ cm ≠ ivr
  dne : ∀ x ∈ d, x.ref ≠ mm ∧ x.ref ≠ ivr

/-- `H` are the arrays `h` (and temporary ones), except that sample `k` of the maggies has been corrected `p k` times and the inverse
variances, if they are 32-bit floats, `q` times. -/
def McState (h H : Heap ℝ) (mm ivr mc : Nat) (rows : List (List ℝ)) (fi : Bool) (b : List ℝ) (p : Nat → Nat) (q : Nat) : Prop :=
  h.length ≤ H.length ∧ (∀ j < h.length, j ≠ mm → j ≠ ivr → H[j]? = h[j]?) ∧ H[mm]? = some ⟨true, .arr [rows.length] mc (mcTimes rows p)⟩ ∧
    H[ivr]? = some ⟨fi, .vec (ivTimes b (if fi then q else 0))⟩

theorem mcTimes_length (rows : List (List ℝ)) (p : Nat → Nat) : (mcTimes rows p).length = rows.length := by simp [mcTimes]

theorem mcTimes_row {rows : List (List ℝ)} {mc : Nat} (h : ∀ row ∈ rows, row.length = mc) (p : Nat → Nat) : ∀ row ∈ mcTimes rows p, row.length = mc := by
  intro row hr
  simp only [mcTimes, List.mem_mapIdx] at hr
  obtain ⟨i, hi, rfl⟩ := hr
  simp [h _ (List.getElem_mem hi)]

theorem mcTimes_col {rows : List (List ℝ)} {mc : Nat} (h : ∀ row ∈ rows, row.length = mc) (p : Nat → Nat) (k : Nat) (hk : k < mc) :
    colOf (mcTimes rows p) k = colTimes rows k (p k) := by
  apply List.ext_getElem (by simp [colOf, colTimes, mcTimes])
  intro i h1 h2
  have hi : i < rows.length := by simpa [colTimes, colOf] using h2
  have := h _ (List.getElem_mem hi)
  simp [colOf, colTimes, mcTimes, ent, this, hk]

theorem colOf_vec {rows : List (List ℝ)} {n : Nat} (h : rows.length = n) (k : Nat) : NDA.ofFlat [n] (rows.map (fun row => ent row k)) = .vec (colOf rows k) :=
  ofFlat_one n _ (by simpa using h)

/-- one more correction of sample `k` -/
theorem mcTimes_put {rows : List (List ℝ)} {mc : Nat} (h : ∀ row ∈ rows, row.length = mc) (p : Nat → Nat) (k : Nat) (hk : k < mc) :
    List.zipWith (fun row x => row.set k x) (mcTimes rows p) ((colTimes rows k (p k)).mapIdx (fun j x => x * gstFactor j)) =
      mcTimes rows (Function.update p k (p k + 1)) := by
  apply List.ext_getElem (by simp [colOf, colTimes, mcTimes])
  intro i h1 h2
  have hi : i < rows.length := by simpa [mcTimes] using h2
  have hl := h _ (List.getElem_mem hi)
  apply List.ext_getElem (by simp [mcTimes])
  intro t h3 h4
  have ht : t < mc := by simpa [mcTimes, hl] using h4
  simp only [mcTimes, colTimes, colOf, List.getElem_zipWith, List.getElem_mapIdx, List.getElem_set, List.getElem_map]
  by_cases e : k = t
  · subst e
    simp only [if_true, Function.update_self, ent]
    rw [List.getD_eq_getElem?_getD, List.getElem?_eq_getElem (by omega), Option.getD_some, pow_succ]
    ring
  · rw [if_neg e, Function.update_of_ne (Ne.symm e)]

theorem mcTimes_zero (rows : List (List ℝ)) : mcTimes rows (fun _ => 0) = rows := by
  apply List.ext_getElem (by simp [mcTimes])
  intro i h1 h2
  apply List.ext_getElem (by simp [mcTimes])
  intro t h3 h4
  simp [mcTimes]

theorem ivTimes_zero (b : List ℝ) : ivTimes b 0 = b := by
  apply List.ext_getElem (by simp [ivTimes])
  intro i h1 h2
  simp [ivTimes]

theorem ivTimes_succ (b : List ℝ) (q : Nat) : (ivTimes b q).mapIdx (fun j x => x / gstFactor j ^ 2) = ivTimes b (q + 1) := by
  apply List.ext_getElem (by simp [ivTimes])
  intro i h1 h2
  simp only [ivTimes, List.getElem_mapIdx]
  rw [div_div, ← pow_add]
  ring_nf

theorem realView {h : Heap ℝ} {v : View} {a : NDA ℝ} (hv : v.get h = .ok a) : ArgOk h (some v) := by
  intro w hw
  cases hw
  refine ⟨?_, a, hv⟩
  unfold View.get at hv
  cases hc : h[v.ref]? with
  | none => rw [hc] at hv; cases hv
  | some c => exact ⟨c, hc, fun y _ _ => map_f32_real y⟩

/-- one sample -/
theorem sample_step {K : Kc ℝ} (hg : K.cls = .gst) (hab : K.abcorrect = true) (hn : 7 ≤ K.responses.length) {h H : Heap ℝ} {mm ivr : Nat} {z : View} {cm : Nat}
    {d : Option View} {mc : Nat} {rows : List (List ℝ)} {fi : Bool} {b : List ℝ} {zz : ℝ} {crows : List (List ℝ)} {dist : Option ℝ}
    (ha : McArgs h K.responses.length K.templates.nsed mm ivr z cm d mc rows fi b zz crows dist) {p : Nat → Nat} {q : Nat}
    (hs : McState h H mm ivr mc rows fi b p q) {k : Nat} (hk : k < mc) (bs : ℝ) (r l kk : Bool) :
    ∃ H' q', K.absmagH (some ⟨mm, some k⟩) (some ⟨ivr, none⟩) (some z) (some ⟨cm, some k⟩) bs d r l kk H =
        (H', K.absmag (some (.vec (colTimes rows k (p k)))) (some (.vec (ivTimes b q'))) (some (.scalar zz)) (some (.vec (colOf crows k))) bs
          (dist.map .scalar) r l kk) ∧ McState h H' mm ivr mc rows fi b (Function.update p k (p k + 1)) (q + 1) := by
  obtain ⟨s1, s2, s3, s4⟩ := hs
  have lm := (List.getElem?_eq_some_iff.mp s3).1
  have li := (List.getElem?_eq_some_iff.mp s4).1
  have same : ∀ {v : View}, v.ref < h.length → v.ref ≠ mm → v.ref ≠ ivr → v.get H = v.get h := fun hl h1 h2 => get_kept (s2 _ hl h1 h2)
  have lt : ∀ {v : View} {a : NDA ℝ}, v.get h = .ok a → v.ref < h.length := fun hv => (realView hv _ rfl).1.lt
  have gz : z.get H = .ok (.scalar zz) := (same (lt ha.hz) ha.zne.1 ha.zne.2).trans ha.hz
  obtain ⟨fc, hc⟩ := ha.hc
  have gc : (⟨cm, some k⟩ : View).get H = .ok (.vec (colOf crows k)) := by
    have : (⟨cm, some k⟩ : View).get h = .ok (.vec (colOf crows k)) := by
      simp only [View.get, hc, NDA.lastIdx, hk, if_true, colOf_vec ha.clen]
    rw [same (lt this) ha.cne.1 ha.cne.2, this]
  have gm : (⟨mm, some k⟩ : View).get H = .ok (.vec (colTimes rows k (p k))) := by
    simp only [View.get, s3, NDA.lastIdx, hk, if_true, colOf_vec (mcTimes_length rows p), mcTimes_col ha.mrow p k hk]
  have gi : (⟨ivr, none⟩ : View).get H = .ok (.vec (ivTimes b (if fi then q else 0))) := by simp only [View.get, s4]
  have hl1 : (colTimes rows k (p k)).length = K.responses.length := by simp [colTimes, colOf, ha.mlen]
  have hl2 : ∀ q, (ivTimes b q).length = K.responses.length := by intro q; simp [ivTimes, ha.ivlen]
  have hl3 : (colOf crows k).length = K.templates.nsed := by simp [colOf, ha.clen]
  have hcls : K.toFitter.abCls = .gst := by rw [Fitter.abCls, hab, hg]; rfl
  have ht := toAb_vec .gst (colTimes rows k (p k)) (ivTimes b (if fi then q else 0)) (by rw [hl1]; exact hn) (by rw [hl1, hl2])
  obtain ⟨i, hi⟩ : ∃ i, processInputs K.toFitter (some (.scalar zz)) (some (.vec (colTimes rows k (p k)))) (some (.vec (ivTimes b (if fi then q else 0))))
      (some (.vec (colOf crows k))) = .ok i := by
    have hsh := shapes_one zz _ _ (some (colOf crows k)) hl1 (hl2 (if fi then q else 0)) (by intro y hy; cases hy; exact hl3)
    have heff := process_eff K.toFitter (some (.scalar zz)) (.vec (colTimes rows k (p k))) (some (.vec (ivTimes b (if fi then q else 0))))
      (some (.vec (colOf crows k))) (by intro x hx; cases hx; trivial) hsh
    rw [hcls, ht, ok_bind] at heff
    rw [heff]
    exact C53_match_accepted K.toFitter.plain (Or.inl rfl) _ _ _ _ (by intro x hx; cases hx; trivial)
      (shapes_one zz _ _ (some (colOf crows k)) (by rw [List.length_mapIdx]; exact hl1) (by rw [List.length_mapIdx]; exact hl2 _) (by intro y hy; cases hy; exact hl3))
  have hi' := hi
  rw [← argVal_some gz, ← argVal_some gm, ← argVal_some gi, ← argVal_some gc] at hi
  rcases tables_step K.toFitter (realView gz) (realView gm) (realView gi) (realView gc) [] with
    ⟨e, er, h1, h2⟩ | ⟨e, az, m', iv', c', a', b', d', h1, h2, g1, g2, g3, b1, b2, b3, t1, t2, _, t4, f3, hb'⟩
  · rw [hi] at h2; cases h2
  · have hm' := t1 (by intro x hx; cases hx; exact ⟨_, s3, rfl⟩)
    subst hm'
    rw [List.append_nil] at h1
    have ea : a' = some (.vec (colTimes rows k (p k))) := by
      rw [Option.map_some, get_append lm, gm] at g1
      cases a' with
      | none => simp at g1
      | some a' => simp only [Option.map_some, Option.some.injEq, Except.ok.injEq] at g1; rw [g1]
    rw [argVal_some gi, Option.map_some, map_f32_real] at hb'
    subst ea; subst hb'
    obtain ⟨ix, rfl⟩ : ∃ ix, iv' = some ix := by
      cases iv' with
      | none => simp at g2
      | some ix => exact ⟨ix, rfl⟩
    have gi2 : ix.get (H ++ e) = .ok (.vec (ivTimes b (if fi then q else 0))) := by simpa using g2
    have hix : ix.idx = none ∧ ix.ref ≠ mm ∧ (fi = true → ix.ref = ivr) ∧ (fi = false → H.length ≤ ix.ref) := by
      cases fi with
      | true =>
        have := t2 (by intro x hx; cases hx; exact ⟨_, s4, rfl⟩)
        simp only [Option.some.injEq] at this
        subst this
        exact ⟨rfl, ha.ne, fun _ => rfl, by simp⟩
      | false =>
        obtain ⟨q1, q2, q3⟩ := t4 (by intro x hx; cases hx; exact ⟨_, s4, rfl⟩) ix rfl
        exact ⟨q2, by omega, by simp, fun _ => q1⟩
    obtain ⟨x1, x2, x3, x4⟩ := hix
    set H' := ((H ++ e).modify mm ((⟨mm, some k⟩ : View).put (.vec ((colTimes rows k (p k)).mapIdx (fun j x => x * gstFactor j))))).modify ix.ref
      (ix.put (.vec ((ivTimes b (if fi then q else 0)).mapIdx (fun j x => x / gstFactor j ^ 2)))) with hH'
    have hto : toAbH .gst ⟨mm, some k⟩ (some ix) (H ++ e) = (H', .ok (⟨mm, some k⟩, some ix)) :=
      toAbH_gst (by rw [get_append lm, gm]) gi2 x2 ht
    have hlen : H'.length = (H ++ e).length := by simp [hH']
    have other : ∀ j < (H ++ e).length, j ≠ mm → j ≠ ix.ref → H'[j]? = (H ++ e)[j]? := by
      intro j hj j1 j2
      rw [hH', List.getElem?_modify, List.getElem?_modify]
      simp [Ne.symm j1, Ne.symm j2]
    have hixl : ix.ref < (H ++ e).length := b2 ix rfl
    have far : ∀ j < H.length, j ≠ ivr → j ≠ ix.ref := by
      intro j hj j1
      cases hf : fi with
      | true => rw [x3 hf]; exact j1
      | false => have := x4 hf; omega
    have cellM : (H ++ e)[mm]? = some ⟨true, .arr [rows.length] mc (mcTimes rows p)⟩ := by rw [List.getElem?_append_left lm, s3]
    have rm : (⟨mm, some k⟩ : View).get H' = .ok (.vec ((colTimes rows k (p k)).mapIdx (fun j x => x * gstFactor j))) := by
      rw [hH', get_modify_ne (Ne.symm x2)]
      exact get_put_sample cellM (mcTimes_length rows p) (mcTimes_row ha.mrow p) hk _ (by rw [List.length_mapIdx, hl1, ha.mlen])
    have ri : ix.get H' = .ok (.vec ((ivTimes b (if fi then q else 0)).mapIdx (fun j x => x / gstFactor j ^ 2))) :=
      get_modify_put x1 (by simpa using hixl) _
    have rc : c'.map (fun x => x.get H') = d'.map .ok := by
      rw [← g3]
      cases hcc : c' with
      | none => rfl
      | some x =>
        subst hcc
        simp only [Option.map_some, Option.some.injEq]
        apply get_kept
        refine other _ (b3 x rfl) ?_ ?_
        · rcases f3 x rfl with ⟨hx, _⟩ | ⟨y1, _⟩
          · cases hx; exact ha.cne.1
          · exact Ne.symm (y1 _ rfl)
        · rcases f3 x rfl with ⟨hx, hl⟩ | ⟨_, y2⟩
          · cases hx; exact far _ hl ha.cne.2
          · exact Ne.symm (y2 _ rfl)
    have keep : ∀ j < h.length, j ≠ mm → j ≠ ivr → H'[j]? = h[j]? := by
      intro j hj j1 j2
      rw [other j (by simp; omega) j1 (far j (by omega) j2), List.getElem?_append_left (by omega), s2 j hj j1 j2]
    have rd : HM.readOpt d H' = (H', .ok (dist.map .scalar)) := by
      apply readOpt_ok
      have e1 : d.map (fun x => x.get H') = d.map (fun x => x.get h) := by
        cases hdd : d with
        | none => rfl
        | some x =>
          subst hdd
          have hx : ∃ y, x.get h = .ok y := by
            have := ha.hd
            cases dist with
            | none => simp at this
            | some y => exact ⟨_, by simpa using this⟩
          obtain ⟨y, hy⟩ := hx
          simp only [Option.map_some, Option.some.injEq]
          exact get_kept (keep _ (lt hy) (ha.dne x rfl).1 (ha.dne x rfl).2)
      rw [e1, ha.hd]
      cases dist <;> rfl
    rw [hi] at h2
    unfold finish at h2
    rw [hab] at h2
    simp only at h2
    rw [show K.toFitter.cls = .gst from hg, ht, ok_bind] at h2
    refine ⟨H', if fi then q else 0, ?_, by simp only [List.length_append] at hlen; omega, keep, ?_, ?_⟩
    · have hp : processH K.toFitter (some z) (some ⟨mm, some k⟩) (some ⟨ivr, none⟩) (some ⟨cm, some k⟩) H = (H', .ok i) := by
        rw [h1]
        unfold finishH
        rw [hab]
        simp only
        rw [show K.toFitter.cls = .gst from hg, hbind_ok hto, hbind_ok (show HM.read (⟨mm, some k⟩, some ix).1 H' = (H', .ok _) by rw [HM.read, rm]),
          hbind_ok (readOpt_ok (a := some _) (by rw [Option.map_some, ri]; rfl)), hbind_ok (readOpt_ok rc), h2]
        rfl
      unfold Kc.absmagH Kc.absmag
      rw [hbind_ok hp, hbind_ok rd, hi', ok_bind]
      rfl
    · rw [hH', List.getElem?_modify, List.getElem?_modify, cellM]
      simp only [x2, if_false, if_true, Option.map_eq_map, Option.map_some, View.put, putLast, id, NDA.vec, NDA.flat, List.flatten_cons, List.flatten_nil, List.append_nil,
        mcTimes_put ha.mrow p k hk]
    · rw [hH', List.getElem?_modify, List.getElem?_modify, List.getElem?_append_left li, s4]
      cases hf : fi with
      | true =>
        simp [x3 hf, Ne.symm ha.ne, View.put, x1, ivTimes_succ, hf]
      | false =>
        have : ix.ref ≠ ivr := by have := x4 hf; omega
        simp [this, Ne.symm ha.ne, hf]

/-- what `absmag_mc` does with sample `k` -/
noncomputable def sampleH (K : Kc ℝ) (mm ivr : Nat) (z : View) (cm : Nat) (bs : ℝ) (d : Option View) (r kk : Bool) (k : Nat) : HM ℝ (List (List ℝ)) := do
  let _ ← HM.read ⟨mm, some k⟩
  let _ ← HM.read ⟨cm, some k⟩
  let out ← K.absmagH (some ⟨mm, some k⟩) (some ⟨ivr, none⟩) (some z) (some ⟨cm, some k⟩) bs d r false kk
  HM.lift (out.list.mapM (bcastFlat [K.responses.length]))

/-- the samples, one after another -/
theorem samples_step {K : Kc ℝ} (hg : K.cls = .gst) (hab : K.abcorrect = true) (hn : 7 ≤ K.responses.length) {h : Heap ℝ} {mm ivr : Nat} {z : View} {cm : Nat}
    {d : Option View} {mc : Nat} {rows : List (List ℝ)} {fi : Bool} {b : List ℝ} {zz : ℝ} {crows : List (List ℝ)} {dist : Option ℝ}
    (ha : McArgs h K.responses.length K.templates.nsed mm ivr z cm d mc rows fi b zz crows dist) (bs : ℝ) (r kk : Bool) :
    ∀ (l : List Nat), l.Nodup → (∀ k ∈ l, k < mc) → ∀ (H : Heap ℝ) (p : Nat → Nat) (q : Nat), McState h H mm ivr mc rows fi b p q →
    (∀ H' outs, HM.mapList (sampleH K mm ivr z cm bs d r kk) l H = (H', .ok outs) →
      McState h H' mm ivr mc rows fi b (fun k => if k ∈ l then p k + 1 else p k) (q + l.length)) ∧
    ((∀ k ∈ l, ∀ q', ∃ o, (K.absmag (some (.vec (colTimes rows k (p k)))) (some (.vec (ivTimes b q'))) (some (.scalar zz)) (some (.vec (colOf crows k))) bs
          (dist.map .scalar) r false kk >>= fun out => out.list.mapM (bcastFlat [K.responses.length])) = .ok o) →
      ∃ H' outs, HM.mapList (sampleH K mm ivr z cm bs d r kk) l H = (H', .ok outs) ∧ outs.length = l.length ∧
        ∀ (t : Nat) k o, l[t]? = some k → outs[t]? = some o → ∃ q', (K.absmag (some (.vec (colTimes rows k (p k)))) (some (.vec (ivTimes b q')))
          (some (.scalar zz)) (some (.vec (colOf crows k))) bs (dist.map .scalar) r false kk >>= fun out => out.list.mapM (bcastFlat [K.responses.length])) = .ok o) := by
  intro l
  induction l with
  | nil =>
    intro _ _ H p q hs
    refine ⟨?_, fun _ => ⟨H, [], rfl, rfl, by simp⟩⟩
    intro H' outs he
    have : H' = H := (congrArg Prod.fst he).symm
    subst this
    simpa using hs
  | cons k l ih =>
    intro hnd hlt H p q hs
    obtain ⟨hkl, hnd⟩ := List.nodup_cons.mp hnd
    obtain ⟨H1, q1, e1, hs1⟩ := sample_step hg hab hn ha hs (hlt k (by simp)) bs r false kk
    obtain ⟨i1, i2⟩ := ih hnd (fun x hx => hlt x (by simp [hx])) H1 _ _ hs1
    have estep : sampleH K mm ivr z cm bs d r kk k H = (H1, K.absmag (some (.vec (colTimes rows k (p k)))) (some (.vec (ivTimes b q1))) (some (.scalar zz))
        (some (.vec (colOf crows k))) bs (dist.map .scalar) r false kk >>= fun out => out.list.mapM (bcastFlat [K.responses.length])) := by
      have hk := hlt k (by simp)
      have gm : ∃ v, (⟨mm, some k⟩ : View).get H = .ok v := ⟨.ofFlat [rows.length] ((mcTimes rows p).map (fun row => ent row k)), by simp only [View.get, hs.2.2.1, NDA.lastIdx, hk, if_true]⟩
      have gc : ∃ v, (⟨cm, some k⟩ : View).get H = .ok v := by
        obtain ⟨f, hc⟩ := ha.hc
        have : H[cm]? = _ := (hs.2.1 cm (List.getElem?_eq_some_iff.mp hc).1 ha.cne.1 ha.cne.2).trans hc
        exact ⟨.ofFlat [K.templates.nsed] (crows.map (fun row => ent row k)), by simp only [View.get, this, NDA.lastIdx, hk, if_true]⟩
      obtain ⟨v, gm⟩ := gm
      obtain ⟨w, gc⟩ := gc
      unfold sampleH
      rw [hbind_ok (show HM.read ⟨mm, some k⟩ H = (H, .ok v) by rw [HM.read, gm]), hbind_ok (show HM.read ⟨cm, some k⟩ H = (H, .ok w) by rw [HM.read, gc])]
      cases hx : K.absmag (some (.vec (colTimes rows k (p k)))) (some (.vec (ivTimes b q1))) (some (.scalar zz)) (some (.vec (colOf crows k))) bs
        (dist.map .scalar) r false kk with
      | error e => rw [hbind_err (by rw [e1, hx])]; rfl
      | ok o => rw [hbind_ok (by rw [e1, hx])]; rfl
    have emap : HM.mapList (sampleH K mm ivr z cm bs d r kk) (k :: l) H = (sampleH K mm ivr z cm bs d r kk k >>= fun c =>
      HM.mapList (sampleH K mm ivr z cm bs d r kk) l >>= fun cs => (Pure.pure (c :: cs) : HM ℝ _)) H := rfl
    have hp : ∀ x ∈ l, Function.update p k (p k + 1) x = p x := fun x hx => Function.update_of_ne (by rintro rfl; exact hkl hx) _ _
    rw [emap]
    constructor
    · intro H' outs he
      cases ho : (K.absmag (some (.vec (colTimes rows k (p k)))) (some (.vec (ivTimes b q1))) (some (.scalar zz))
        (some (.vec (colOf crows k))) bs (dist.map .scalar) r false kk >>= fun out => out.list.mapM (bcastFlat [K.responses.length])) with
      | error e => rw [hbind_err (by rw [estep, ho])] at he; cases congrArg Prod.snd he
      | ok o =>
        rw [hbind_ok (by rw [estep, ho])] at he
        cases hm : HM.mapList (sampleH K mm ivr z cm bs d r kk) l H1 with
        | mk H2 res =>
          cases res with
          | error e => rw [hbind_err hm] at he; cases congrArg Prod.snd he
          | ok os =>
            rw [hbind_ok hm] at he
            have : H2 = H' := congrArg Prod.fst he
            subst this
            have := i1 _ _ hm
            have e : (fun x => if x ∈ k :: l then p x + 1 else p x) = (fun x => if x ∈ l then Function.update p k (p k + 1) x + 1 else Function.update p k (p k + 1) x) := by
              funext x
              by_cases hx : x = k
              · subst hx; simp [hkl]
              · simp [hx]
            rw [e, List.length_cons, show q + (l.length + 1) = q + 1 + l.length by omega]
            exact this
    · intro hret
      obtain ⟨o, ho⟩ := hret k (by simp) q1
      obtain ⟨H2, os, hm, hol, hos⟩ := i2 (by
        intro x hx q'
        rw [hp x hx]
        exact hret x (by simp [hx]) q')
      refine ⟨H2, o :: os, ?_, by simp [hol], ?_⟩
      · rw [hbind_ok (by rw [estep, ho]), hbind_ok hm]; rfl
      · intro t x y hx hy
        cases t with
        | zero =>
          simp only [List.getElem?_cons_zero, Option.some.injEq] at hx hy
          subst hx; subst hy
          exact ⟨q1, ho⟩
        | succ t =>
          simp only [List.getElem?_cons_succ] at hx hy
          have := hos t x y hx hy
          rwa [hp x (List.mem_of_getElem? hx)] at this

theorem absmagMcH_eq {K : Kc ℝ} {h H : Heap ℝ} {mm ivr : Nat} {z : View} {cm : Nat}
    {d : Option View} {mc : Nat} {rows : List (List ℝ)} {fi : Bool} {b : List ℝ} {zz : ℝ} {crows : List (List ℝ)} {dist : Option ℝ}
    (ha : McArgs h K.responses.length K.templates.nsed mm ivr z cm d mc rows fi b zz crows dist) {p : Nat → Nat} {q : Nat}
    (hs : McState h H mm ivr mc rows fi b p q) (bs : ℝ) (r kk : Bool) :
    K.absmagMcH mm (some ⟨ivr, none⟩) (some z) cm bs d r kk H = (HM.mapList (sampleH K mm ivr z cm bs d r kk) (List.range mc) >>= fun outs =>
      (Pure.pure (mkRet ((List.range (1 + (if r then 1 else 0) + (if kk then 1 else 0))).map
        (fun t => stackLast [K.responses.length] mc (outs.map (fun o => o.getD t []))))) : HM ℝ (Ret ℝ))) H := by
  obtain ⟨f, hc⟩ := ha.hc
  have h1 : (⟨cm, none⟩ : View).get H = .ok (.arr [K.templates.nsed] mc crows) := by
    have : H[cm]? = _ := (hs.2.1 cm (List.getElem?_eq_some_iff.mp hc).1 ha.cne.1 ha.cne.2).trans hc
    simp only [View.get, this]
  have h2 : (⟨mm, none⟩ : View).get H = .ok (.arr [K.responses.length] mc (mcTimes rows p)) := by
    simp only [View.get, hs.2.2.1, ha.mlen]
  unfold Kc.absmagMcH
  rw [hbind_ok (show HM.read ⟨cm, none⟩ H = (H, _) by rw [HM.read, h1])]
  simp only [NDA.lastDim]
  rw [hlift_ok, hbind_ok (show HM.read ⟨mm, none⟩ H = (H, _) by rw [HM.read, h2])]
  rfl

/-- One call that returns: every sample has been corrected once more, and float32 inverse variances once for every sample. -/
theorem mc_call (nnls : Nnls ℝ) {K : Kc ℝ} (hg : K.cls = .gst) (hab : K.abcorrect = true) (hn : 7 ≤ K.responses.length) {h H : Heap ℝ} {mm ivr : Nat} {z : View} {cm : Nat}
    {d : Option View} {mc : Nat} {rows : List (List ℝ)} {fi : Bool} {b : List ℝ} {zz : ℝ} {crows : List (List ℝ)} {dist : Option ℝ}
    (ha : McArgs h K.responses.length K.templates.nsed mm ivr z cm d mc rows fi b zz crows dist) {p : Nat → Nat} {q : Nat}
    (hs : McState h H mm ivr mc rows fi b p q) (bs : ℝ) (r kk : Bool) {v : Res ℝ}
    (hv : (K.callH nnls (.absmagMc mm (some ⟨ivr, none⟩) (some z) cm bs d r kk) H).2 = .ok v) :
    McState h (K.callH nnls (.absmagMc mm (some ⟨ivr, none⟩) (some z) cm bs d r kk) H).1 mm ivr mc rows fi b
      (fun k => if k < mc then p k + 1 else p k) (q + mc) := by
  have e0 : K.callH nnls (.absmagMc mm (some ⟨ivr, none⟩) (some z) cm bs d r kk) H =
    (K.absmagMcH mm (some ⟨ivr, none⟩) (some z) cm bs d r kk >>= fun x => (Pure.pure (.ret x) : HM ℝ (Res ℝ))) H := rfl
  have e1 := absmagMcH_eq ha hs bs r kk
  cases hm : HM.mapList (sampleH K mm ivr z cm bs d r kk) (List.range mc) H with
  | mk H2 res =>
    cases res with
    | error e =>
      rw [hbind_err hm] at e1
      rw [e0, hbind_err e1] at hv
      cases hv
    | ok os =>
      rw [hbind_ok hm] at e1
      have := (samples_step hg hab hn ha bs r kk (List.range mc) List.nodup_range (by simp) H p q hs).1 _ _ hm
      rw [e0, hbind_ok (h' := H2) (b := mkRet _) (e1.trans rfl)]
      show McState h H2 mm ivr mc rows fi b _ _
      simpa using this

theorem mcTimes_congr {rows : List (List ℝ)} {mc : Nat} (h : ∀ row ∈ rows, row.length = mc) (p p' : Nat → Nat) (hpp : ∀ k < mc, p k = p' k) :
    mcTimes rows p = mcTimes rows p' := by
  apply List.ext_getElem (by simp [mcTimes])
  intro i h1 h2
  have hi : i < rows.length := by simpa [mcTimes] using h2
  have hl := h _ (List.getElem_mem hi)
  apply List.ext_getElem (by simp [mcTimes])
  intro t h3 h4
  have ht : t < mc := by simpa [mcTimes, hl] using h4
  simp [mcTimes, hpp t ht]

/-- one call more -/
theorem mc_call_succ (nnls : Nnls ℝ) {K : Kc ℝ} (hg : K.cls = .gst) (hab : K.abcorrect = true) (hn : 7 ≤ K.responses.length) {h H : Heap ℝ} {mm ivr : Nat} {z : View} {cm : Nat}
    {d : Option View} {mc : Nat} {rows : List (List ℝ)} {fi : Bool} {b : List ℝ} {zz : ℝ} {crows : List (List ℝ)} {dist : Option ℝ}
    (ha : McArgs h K.responses.length K.templates.nsed mm ivr z cm d mc rows fi b zz crows dist) {t : Nat}
    (hs : McState h H mm ivr mc rows fi b (fun _ => t) (t * mc)) (bs : ℝ) (r kk : Bool) {v : Res ℝ}
    (hv : (K.callH nnls (.absmagMc mm (some ⟨ivr, none⟩) (some z) cm bs d r kk) H).2 = .ok v) :
    McState h (K.callH nnls (.absmagMc mm (some ⟨ivr, none⟩) (some z) cm bs d r kk) H).1 mm ivr mc rows fi b (fun _ => t + 1) ((t + 1) * mc) := by
  obtain ⟨a1, a2, a3, a4⟩ := mc_call nnls hg hab hn ha hs bs r kk hv
  refine ⟨a1, a2, ?_, ?_⟩
  · rw [a3, mcTimes_congr ha.mrow _ (fun _ => t + 1) (fun k hk => by simp [hk])]
  · rw [a4, Nat.succ_mul]

theorem mc_init {h : Heap ℝ} {nb nt mm ivr : Nat} {z : View} {cm : Nat} {d : Option View} {mc : Nat} {rows : List (List ℝ)} {fi : Bool} {b : List ℝ} {zz : ℝ}
    {crows : List (List ℝ)} {dist : Option ℝ} (ha : McArgs h nb nt mm ivr z cm d mc rows fi b zz crows dist) :
    McState h h mm ivr mc rows fi b (fun _ => 0) (0 * mc) :=
  ⟨le_refl _, fun _ _ _ _ => rfl, by rw [mcTimes_zero, ha.mlen]; exact ha.hm, by rw [Nat.zero_mul, ite_self, ivTimes_zero]; exact ha.hiv⟩

/-- C167, what happens with `KcorrectGST` and `abcorrect=True`: after any number `n` of calls of `absmag_mc` that return, with the same float32 samples
of one galaxy, the caller's samples have been corrected `n` times; the caller's inverse variances, if of dtype float32, `n` times for every sample.
No other array changes. -/
theorem C167_samples (nnls : Nnls ℝ) (K : Kc ℝ) (hg : K.cls = .gst) (hab : K.abcorrect = true) (hn : 7 ≤ K.responses.length) (h : Heap ℝ) (mm ivr : Nat) (z : View)
    (cm : Nat) (d : Option View) (mc : Nat) (rows : List (List ℝ)) (fi : Bool) (b : List ℝ) (zz : ℝ) (crows : List (List ℝ)) (dist : Option ℝ)
    (ha : McArgs h K.responses.length K.templates.nsed mm ivr z cm d mc rows fi b zz crows dist) (bs : ℝ) (r kk : Bool) (n : Nat)
    (hret : ∀ x ∈ (runCalls nnls (List.replicate n (K, .absmagMc mm (some ⟨ivr, none⟩) (some z) cm bs d r kk)) h).2, ∃ v, x = .ok v) :
    McState h (runCalls nnls (List.replicate n (K, .absmagMc mm (some ⟨ivr, none⟩) (some z) cm bs d r kk)) h).1 mm ivr mc rows fi b (fun _ => n) (n * mc) := by
  suffices S : ∀ n G t, McState h G mm ivr mc rows fi b (fun _ => t) (t * mc) →
      (∀ x ∈ (runCalls nnls (List.replicate n (K, .absmagMc mm (some ⟨ivr, none⟩) (some z) cm bs d r kk)) G).2, ∃ v, x = .ok v) →
      McState h (runCalls nnls (List.replicate n (K, .absmagMc mm (some ⟨ivr, none⟩) (some z) cm bs d r kk)) G).1 mm ivr mc rows fi b (fun _ => t + n) ((t + n) * mc) by
    have := S n h 0 (mc_init ha) hret
    simpa using this
  intro n
  induction n with
  | zero => intro G t hG _; exact hG
  | succ n ih =>
    intro G t hG hr
    rw [List.replicate_succ, runCalls] at hr ⊢
    obtain ⟨v, hv⟩ := hr _ (List.mem_cons_self ..)
    have := ih _ _ (mc_call_succ nnls hg hab hn ha hG bs r kk hv) (fun x hx => hr x (List.mem_cons_of_mem _ hx))
    rw [show t + (n + 1) = t + 1 + n by omega]
    exact this

/-- the form of absolute magnitudes of one galaxy -/
theorem absmag_mcRow {K : Kc ℝ} (hr : AbReady K.abCls K.responses.length) {A Ao : AMat ℝ} (hA : K.Amatrix = some A) (hAo : K.AmatrixOut = some Ao) {z : ℝ}
    {m iv c : List ℝ} (hm : m.length = K.responses.length) (hiv : iv.length = K.responses.length) (hc : c.length = K.templates.nsed) {bs : ℝ} {dist : Option ℝ} {a : NDA ℝ}
    (h : K.absmag (some (.vec m)) (some (.vec iv)) (some (.scalar z)) (some (.vec c)) bs (dist.map .scalar) false false false = .ok (.one a)) :
    ∃ row, a = .arr [] Ao.nrow [row] := by
  rw [absmag_eff K hr z m iv c hm hiv hc, absmag_scalar (K := K.plain) (Or.inl rfl) hA hAo z _ _ c (by rw [List.length_mapIdx]; exact hm) (by rw [List.length_mapIdx]; exact hiv) hc] at h
  cases ho : absOne K.plain.imap A Ao id false false false bs (dm1 K.plain (f32 z) dist) (f32 z) ((m.mapIdx (fun j x => x * abFactor K.abCls j)).map f32)
      ((iv.mapIdx (fun j x => x / abFactor K.abCls j ^ 2)).map f32) (c.map f32) with
  | error e => rw [ho] at h; cases h
  | ok rows =>
  rw [ho] at h
  have h2 : mkRet (rows.map (fun row => NDA.arr [] Ao.nrow [row])) = .one a := by simpa [Except.map] using h
  match rows, h2 with
  | [], h2 => simp [mkRet] at h2
  | [row], h2 => exact ⟨row, by simpa [mkRet] using h2.symm⟩
  | _ :: _ :: _, h2 => simp [mkRet] at h2

/-- the absolute magnitudes that a call returns -/
theorem mc_value (nnls : Nnls ℝ) {K : Kc ℝ} (hg : K.cls = .gst) (hab : K.abcorrect = true) (hn : 7 ≤ K.responses.length) {A Ao : AMat ℝ} (hA : K.Amatrix = some A)
    (hAo : K.AmatrixOut = some Ao) (hno : Ao.nrow = K.responses.length) {h H : Heap ℝ} {mm ivr : Nat} {z : View} {cm : Nat}
    {d : Option View} {mc : Nat} {rows : List (List ℝ)} {fi : Bool} {b : List ℝ} {zz : ℝ} {crows : List (List ℝ)} {dist : Option ℝ}
    (ha : McArgs h K.responses.length K.templates.nsed mm ivr z cm d mc rows fi b zz crows dist) (hd : ∀ x ∈ dist, 0 < x) {p : Nat → Nat} {q : Nat}
    (hs : McState h H mm ivr mc rows fi b p q) (bs : ℝ) (hk : ∀ k < mc, ∃ x, K.kcorrect (some (.scalar zz)) (some (.vec (colOf crows k))) bs = .ok x) :
    ∃ out, (K.callH nnls (.absmagMc mm (some ⟨ivr, none⟩) (some z) cm bs d false false) H).2 = .ok (.ret (.one out)) ∧ ∀ k < mc, ∃ q' a,
      K.absmag (some (.vec (colTimes rows k (p k)))) (some (.vec (ivTimes b q'))) (some (.scalar zz)) (some (.vec (colOf crows k))) bs (dist.map .scalar)
        false false false = .ok (.one a) ∧ ∀ j < K.responses.length, ∀ v, entry a 0 j = some v → entry out j k = some v := by
  have hcls : K.abCls = .gst := by show Fitter.abCls _ = _; rw [Fitter.abCls, hab, hg]; rfl
  have hr : AbReady K.abCls K.responses.length := by rw [hcls]; exact hn
  have l1 : ∀ k, (colTimes rows k (p k)).length = K.responses.length := fun k => by simp [colTimes, colOf, ha.mlen]
  have l2 : ∀ q, (ivTimes b q).length = K.responses.length := fun q => by simp [ivTimes, ha.ivlen]
  have l3 : ∀ k, (colOf crows k).length = K.templates.nsed := fun k => by simp [colOf, ha.clen]
  have one : ∀ k < mc, ∀ q', ∃ row, K.absmag (some (.vec (colTimes rows k (p k)))) (some (.vec (ivTimes b q'))) (some (.scalar zz)) (some (.vec (colOf crows k))) bs
      (dist.map .scalar) false false false = .ok (.one (.arr [] K.responses.length [row])) := by
    intro k hkm q'
    obtain ⟨a, h1⟩ := (C70_corrected_partial K hr A Ao hA hAo zz _ _ _ (l1 k) (l2 q') (l3 k) bs dist hd).1.mpr (hk k hkm)
    obtain ⟨row, rfl⟩ := absmag_mcRow hr hA hAo (l1 k) (l2 q') (l3 k) h1
    exact ⟨row, by rw [h1, hno]⟩
  have bc : ∀ row : List ℝ, (Ret.one (.arr [] K.responses.length [row])).list.mapM (bcastFlat [K.responses.length]) = (.ok [row] : Py _) := by
    intro row
    simp [Ret.list, bcastFlat, NDA.shape, NDA.flat]
  obtain ⟨H2, os, e1, e2, e3⟩ := (samples_step hg hab hn ha bs false false (List.range mc) List.nodup_range (by simp) H p q hs).2 (by
    intro k hkm q'
    obtain ⟨row, h1⟩ := one k (by simpa using hkm) q'
    exact ⟨[row], by rw [h1, ok_bind]; exact bc row⟩)
  have e4 := absmagMcH_eq ha hs bs false false
  rw [hbind_ok e1] at e4
  have e5 : (K.callH nnls (.absmagMc mm (some ⟨ivr, none⟩) (some z) cm bs d false false) H) =
      (H2, .ok (.ret (.one (stackLast [K.responses.length] mc (os.map (fun o => o.getD 0 [])))))) := by
    show (K.absmagMcH mm (some ⟨ivr, none⟩) (some z) cm bs d false false >>= fun x => (Pure.pure (.ret x) : HM ℝ (Res ℝ))) H = _
    rw [hbind_ok (h' := H2) (b := .one (stackLast [K.responses.length] mc (os.map (fun o => o.getD 0 [])))) (e4.trans rfl)]
    rfl
  refine ⟨_, by rw [e5], ?_⟩
  intro k hkm
  have hko : k < os.length := by simpa [e2] using hkm
  obtain ⟨q', h1⟩ := e3 k k os[k] (by simp [hkm]) (List.getElem?_eq_getElem hko)
  obtain ⟨row, h2⟩ := one k hkm q'
  rw [h2, ok_bind, bc] at h1
  simp only [Except.ok.injEq] at h1
  refine ⟨q', _, h2, ?_⟩
  intro j hj v hv
  have hv' : row[j]? = some v := by simpa [entry] using hv
  have hc : (os.map (fun o => o.getD 0 []))[k]? = some row := by
    rw [List.getElem?_map, List.getElem?_eq_getElem hko, ← h1]; rfl
  simp only [entry, stackLast, List.prod_cons, List.prod_nil, mul_one, List.getElem?_map, List.getElem?_range hj, Option.map_some, Option.bind_some,
    List.getElem?_range hkm, real_f32, ent, List.getD_eq_getElem?_getD]
  rw [List.getElem?_map] at hc
  simp only [List.getD_eq_getElem?_getD] at hc
  simp only [hc, hv', Option.getD_some]

/-- C167 with `KcorrectGST` and `abcorrect=True`: the absolute magnitudes of the samples drift.  The call after `n` calls with the same arrays returns `n` times
the AB offset more than the first, in every sample and every band with positive flux and inverse variance. -/
theorem C167_drift (nnls : Nnls ℝ) (K : Kc ℝ) (hg : K.cls = .gst) (hab : K.abcorrect = true) (hn : 7 ≤ K.responses.length) (A Ao : AMat ℝ) (hA : K.Amatrix = some A)
    (hAo : K.AmatrixOut = some Ao) (hno : Ao.nrow = K.responses.length) (h : Heap ℝ) (mm ivr : Nat) (z : View) (cm : Nat) (d : Option View) (mc : Nat)
    (rows : List (List ℝ)) (fi : Bool) (b : List ℝ) (zz : ℝ) (crows : List (List ℝ)) (dist : Option ℝ)
    (ha : McArgs h K.responses.length K.templates.nsed mm ivr z cm d mc rows fi b zz crows dist) (hd : ∀ x ∈ dist, 0 < x) (bs : ℝ)
    (hk : ∀ k < mc, ∃ x, K.kcorrect (some (.scalar zz)) (some (.vec (colOf crows k))) bs = .ok x) (n : Nat) :
    ∃ first last,
      (runCalls nnls (List.replicate (n + 1) (K, .absmagMc mm (some ⟨ivr, none⟩) (some z) cm bs d false false)) h).2[0]? = some (.ok (.ret (.one first))) ∧
      (runCalls nnls (List.replicate (n + 1) (K, .absmagMc mm (some ⟨ivr, none⟩) (some z) cm bs d false false)) h).2[n]? = some (.ok (.ret (.one last))) ∧
      ∀ (j i k : Nat) x mv v kv, j < K.responses.length → k < mc → K.imap[j]? = some i → entry (.arr [K.responses.length] mc rows) i k = some mv → b[i]? = some v →
        0 < mv → 0 < v → K.kcorrect (some (.scalar zz)) (some (.vec (colOf crows k))) bs = .ok x → entry x 0 j = some kv →
        ∃ y, entry first j k = some y ∧ entry last j k = some (y + n * gstOffset i) := by
  have hcls : K.abCls = .gst := by show Fitter.abCls _ = _; rw [Fitter.abCls, hab, hg]; rfl
  have hr : AbReady K.abCls K.responses.length := by rw [hcls]; exact hn
  -- the state before call `t`, and that it returns
  have key : ∀ t ≤ n, McState h (runCalls nnls (List.replicate t (K, .absmagMc mm (some ⟨ivr, none⟩) (some z) cm bs d false false)) h).1 mm ivr mc rows fi b (fun _ => t) (t * mc) := by
    suffices S : ∀ n G t, McState h G mm ivr mc rows fi b (fun _ => t) (t * mc) →
        McState h (runCalls nnls (List.replicate n (K, .absmagMc mm (some ⟨ivr, none⟩) (some z) cm bs d false false)) G).1 mm ivr mc rows fi b (fun _ => t + n) ((t + n) * mc) by
      intro t _
      have := S t h 0 (mc_init ha)
      simpa using this
    intro n
    induction n with
    | zero => intro G t hG; exact hG
    | succ n ih =>
      intro G t hG
      rw [List.replicate_succ, runCalls]
      obtain ⟨out, ho, _⟩ := mc_value nnls hg hab hn hA hAo hno ha hd hG bs hk
      have := ih _ _ (mc_call_succ nnls hg hab hn ha hG bs false false ho)
      rw [show t + (n + 1) = t + 1 + n by omega]
      exact this
  have val : ∀ t ≤ n, ∃ out, (runCalls nnls (List.replicate (n + 1) (K, .absmagMc mm (some ⟨ivr, none⟩) (some z) cm bs d false false)) h).2[t]? = some (.ok (.ret (.one out))) ∧
      ∀ (j i k : Nat) x mv v kv, j < K.responses.length → k < mc → K.imap[j]? = some i → entry (.arr [K.responses.length] mc rows) i k = some mv → b[i]? = some v →
        0 < mv → 0 < v → K.kcorrect (some (.scalar zz)) (some (.vec (colOf crows k))) bs = .ok x → entry x 0 j = some kv →
        entry out j k = some (mag mv + t * gstOffset i + gstOffset i - dmSpec K.distmod zz dist - kv) := by
    intro t ht
    have hat := runCalls_at nnls (List.replicate (n + 1) (K, .absmagMc mm (some ⟨ivr, none⟩) (some z) cm bs d false false)) h t _
      (by rw [List.getElem?_replicate, if_pos (by omega)])
    rw [List.take_replicate, min_eq_left (by omega)] at hat
    obtain ⟨out, ho, hv⟩ := mc_value nnls hg hab hn hA hAo hno ha hd (key t ht) bs hk
    refine ⟨out, by rw [hat, ho], ?_⟩
    intro j i k x mv v kv hj hkm hi hmv hv0 h0 h0v hx hkv
    obtain ⟨q', a, h1, h2⟩ := hv k hkm
    apply h2 j hj
    have hmk : (colTimes rows k t)[i]? = some (mv * gstFactor i ^ t) := by
      simp only [entry] at hmv
      cases hri : rows[i]? with
      | none => rw [hri] at hmv; cases hmv
      | some row =>
        rw [hri] at hmv
        simp only [Option.bind_some] at hmv
        simp only [colTimes, colOf, List.getElem?_mapIdx, List.getElem?_map, hri, Option.map_some, ent, List.getD_eq_getElem?_getD, hmv, Option.getD_some]
    have hvk : (ivTimes b q')[i]? = some (v / gstFactor i ^ (2 * q')) := by
      simp only [ivTimes, List.getElem?_mapIdx, hv0, Option.map_some]
    obtain ⟨_, s2⟩ := (C70_corrected_partial K hr A Ao hA hAo zz _ _ _ (by simp [colTimes, colOf, ha.mlen]) (by simp [ivTimes, ha.ivlen])
      (by simp [colOf, ha.clen]) bs dist hd).2 a x h1 hx
    rw [s2 j i _ _ kv hi hmk hvk hkv, if_pos ⟨mul_pos h0 (pow_pos (gstFactor_pos i) t), div_pos h0v (pow_pos (gstFactor_pos i) _)⟩, mag_drift mv h0, hcls]
    rfl
  obtain ⟨first, f1, f2⟩ := val 0 (by omega)
  obtain ⟨last, l1, l2⟩ := val n (le_refl n)
  refine ⟨first, last, f1, l1, ?_⟩
  intro j i k x mv v kv hj hkm hi hmv hv0 h0 h0v hx hkv
  refine ⟨_, f2 j i k x mv v kv hj hkm hi hmv hv0 h0 h0v hx hkv, ?_⟩
  rw [l2 j i k x mv v kv hj hkm hi hmv hv0 h0 h0v hx hkv]
  congr 1
  push_cast
  ring

/-- C167: calls of `absmag_mc` with the same arrays, any number of them, all return the same (or all raise the same), and leave the caller's arrays as
they were.  Missing: `KcorrectGST` with `abcorrect=True` and samples or inverse variances of dtype float32 (`Safe`), for which it is false (`C167_false`). -/
theorem C167_repeat_partial {α : Type} [Arith α] (nnls : Nnls α) (K : Kc α) (h : Heap α) (mm : Nat) (iv z : Option View) (cm : Nat) (bs : α) (d : Option View) (r kk : Bool)
    (hc : CallOk h K (.absmagMc mm iv z cm bs d r kk)) (n : Nat) :
    ∃ out, (runCalls nnls (List.replicate n (K, .absmagMc mm iv z cm bs d r kk)) h).2 = List.replicate n out ∧
      ∀ j < h.length, (runCalls nnls (List.replicate n (K, .absmagMc mm iv z cm bs d r kk)) h).1[j]? = h[j]? := by
  obtain ⟨⟨tmp, h1⟩, h2⟩ := C87_unchanged_partial nnls (List.replicate n (K, .absmagMc mm iv z cm bs d r kk)) h
    (by intro x hx; rw [List.eq_of_mem_replicate hx]; exact hc)
  refine ⟨_, by rw [h2, List.map_replicate], ?_⟩
  intro j hj
  rw [h1, List.getElem?_append_left hj]

/-- two float32 samples of maggies, float64 inverse variances, a redshift and samples of coefficients -/
noncomputable def demoMcHeap : Heap ℝ :=
  [⟨true, .arr [7] 2 [[1, 2], [1, 2], [1, 2], [1, 2], [1, 2], [1, 2], [1, 2]]⟩, ⟨false, .vec [1, 1, 1, 1, 1, 1, 1]⟩, ⟨false, .scalar 0⟩, ⟨true, .arr [1] 2 [[1, 1]]⟩]

theorem demoMc_args : McArgs demoMcHeap demoGst.responses.length demoGst.templates.nsed 0 1 ⟨2, none⟩ 3 none 2
    [[1, 2], [1, 2], [1, 2], [1, 2], [1, 2], [1, 2], [1, 2]] false [1, 1, 1, 1, 1, 1, 1] 0 [[1, 1]] none where
  hm := rfl
  mlen := rfl
  mrow := by simp
  hiv := rfl
  ivlen := rfl
  hz := rfl
  hc := ⟨true, rfl⟩
  clen := rfl
  hd := rfl
  ne := by simp
  zne := by simp
  cne := by simp
  dne := by simp

theorem demoMc_k : ∀ k < 2, ∃ x, demoGst.kcorrect (some (.scalar 0)) (some (.vec (colOf [[1, 1]] k))) 0 = .ok x := by
  intro k hk
  obtain ⟨x, _, hx, _⟩ := demoGst_k
  refine ⟨x, ?_⟩
  interval_cases k <;> simpa [colOf, ent] using hx

/-- C167 is false: two calls of `absmag_mc` on a `KcorrectGST` object with the same arrays, samples as `fit_coeffs` returns them (float32) and float64 inverse
variances.  The second call returns u magnitudes 0.036 mag brighter than the first, and the samples are not what they were. -/
theorem C167_false (nnls : Nnls ℝ) :
    ∃ (K : Kc ℝ) (c : Call ℝ) (h : Heap ℝ), (∃ mm iv z cm bs d r kk, c = .absmagMc mm iv z cm bs d r kk) ∧
      (∃ first second x, (runCalls nnls [(K, c), (K, c)] h).2 = [.ok (.ret (.one first)), .ok (.ret (.one second))] ∧
        entry first 2 1 = some x ∧ entry second 2 1 = some (x - 0.036)) ∧
      ∃ f a a', h[0]? = some ⟨f, a⟩ ∧ (runCalls nnls [(K, c), (K, c)] h).1[0]? = some ⟨f, a'⟩ ∧ entry a 2 1 = some 2 ∧ entry a' 2 1 ≠ some 2 := by
  refine ⟨demoGst, .absmagMc 0 (some ⟨1, none⟩) (some ⟨2, none⟩) 3 0 none false false, demoMcHeap, ⟨_, _, _, _, _, _, _, _, rfl⟩, ?_⟩
  obtain ⟨x, kv, hx, hkv⟩ := demoGst_k
  obtain ⟨first, last, h1, h2, h3⟩ := C167_drift nnls demoGst rfl rfl (by show 7 ≤ 7; omega) demoAm7 demoAm7 rfl rfl rfl demoMcHeap 0 1 ⟨2, none⟩ 3 none 2 _ false _ 0 _ none
    demoMc_args (by simp) 0 demoMc_k 1
  have hrun : (runCalls nnls [(demoGst, .absmagMc 0 (some ⟨1, none⟩) (some ⟨2, none⟩) 3 0 none false false),
      (demoGst, .absmagMc 0 (some ⟨1, none⟩) (some ⟨2, none⟩) 3 0 none false false)] demoMcHeap).2 = [.ok (.ret (.one first)), .ok (.ret (.one last))] := by
    simp only [List.replicate, runCalls] at h1 h2 ⊢
    simp only [List.getElem?_cons_zero, List.getElem?_cons_succ, Option.some.injEq] at h1 h2
    rw [h1, h2]
  refine ⟨?_, ?_⟩
  · obtain ⟨y, hy1, hy2⟩ := h3 2 2 1 x 2 1 kv (by show 2 < 7; omega) (by omega) rfl rfl rfl two_pos one_pos (by simpa [colOf, ent] using hx) hkv
    refine ⟨first, last, y, hrun, hy1, ?_⟩
    rw [hy2]
    have : gstOffset 2 = -0.036 := by simp [gstOffset]
    rw [this]
    congr 1
    push_cast
    ring
  · have hs := C167_samples nnls demoGst rfl rfl (by show 7 ≤ 7; omega) demoMcHeap 0 1 ⟨2, none⟩ 3 none 2 _ false _ 0 _ none demoMc_args 0 false false 2
      (by
        intro v hv
        rw [show (List.replicate 2 (demoGst, (.absmagMc 0 (some ⟨1, none⟩) (some ⟨2, none⟩) 3 0 none false false : Call ℝ))) = [_, _] from rfl, hrun] at hv
        simp only [List.mem_cons, List.not_mem_nil, or_false] at hv
        rcases hv with rfl | rfl <;> exact ⟨_, rfl⟩)
    refine ⟨true, _, _, rfl, hs.2.2.1, rfl, ?_⟩
    show some (2 * gstFactor 2 ^ 2) ≠ some 2
    have h1 : (1 : ℝ) < gstFactor 2 := by
      unfold gstFactor
      apply Real.one_lt_rpow (by norm_num)
      simp only [gstOffset]; norm_num
    intro h
    simp only [Option.some.injEq] at h
    nlinarith

/-! ### Not vacuous -/

example : McArgs demoMcHeap demoGst.responses.length demoGst.templates.nsed 0 1 ⟨2, none⟩ 3 none 2
    [[1, 2], [1, 2], [1, 2], [1, 2], [1, 2], [1, 2], [1, 2]] false [1, 1, 1, 1, 1, 1, 1] 0 [[1, 1]] none := demoMc_args

/-- C167_repeat_partial: float32 samples of the SDSS object -/
example : CallOk ([⟨true, .arr [5] 2 [[1, 2], [1, 2], [1, 2], [1, 2], [1, 2]]⟩, ⟨false, .vec [1, 1, 1, 1, 1]⟩, ⟨false, .scalar 0⟩, ⟨true, .arr [1] 2 [[1, 1]]⟩] : Heap ℝ)
    demoSdss (.absmagMc 0 (some ⟨1, none⟩) (some ⟨2, none⟩) 3 0 none false false) := by
  refine ⟨?_, ?_, argOk_none, fun k => ⟨_, rfl, fun y _ _ => map_f32_real y⟩, fun k => ⟨_, rfl, fun y _ _ => map_f32_real y⟩, Or.inr (Or.inl (by simp [demoSdss, Fitter.mk']))⟩ <;>
  · intro w hw; cases hw; exact ⟨⟨_, rfl, fun y _ _ => map_f32_real y⟩, _, rfl⟩

end KC
