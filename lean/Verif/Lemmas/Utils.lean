import Verif.Lemmas.Loops

namespace KC
open Spec
set_option linter.unusedSectionVars false

theorem map_f32_real (a : NDA ℝ) : a.map f32 = a := by
  have h : (f32 : ℝ → ℝ) = id := rfl
  cases a <;> simp [NDA.map, h]

/-- Real-arithmetic description of `sdss_ab_correct` on valid input. -/
theorem abCorrect_real (m : NDA ℝ) (iv : Option (NDA ℝ)) (f : List ℝ) (hm : m.WF) (h5 : lastAxis m 5)
    (hf : f.length = 5) (hiv : ∀ v ∈ iv, v.WF ∧ v.shape = m.shape) :
    ∃ out, sdssAbCorrect m iv f = .ok out ∧ out.maggies.shape = m.shape ∧ out.maggies.WF ∧
      (∀ r j, entry out.maggies r j
        = (entry m r j).bind fun x => (f[j]?).map fun φ => x * (10 : ℝ) ^ (-0.4 * φ)) ∧
      (iv = none → out.ivar = none) ∧
      (∀ v, iv = some v → ∃ w, out.ivar = some w ∧ w.shape = v.shape ∧ w.WF ∧ ∀ r j, entry w r j
        = (entry v r j).bind fun x => (f[j]?).map fun φ => x / ((10 : ℝ) ^ (-0.4 * φ)) ^ 2) := by
  have hmap : ∀ a : NDA ℝ, a.map f32 = a := map_f32_real
  have hlen : (abFac f).length = 5 := by simp [abFac, hf]
  have hent : ∀ j φ, f[j]? = some φ → ent (abFac f) j = (10 : ℝ) ^ (-0.4 * φ) := by
    intro j φ h
    apply ent_eq
    simp [abFac, h]
  cases m with
  | scalar x => simp [lastAxis, NDA.shape] at h5
  | arr lead ncol rows =>
    simp [lastAxis, NDA.shape] at h5
    subst h5
    obtain ⟨hrl, hrow⟩ := hm
    have hshape : ∀ v ∈ iv.map (NDA.map f32), (NDA.arr lead 5 rows : NDA ℝ).shape = v.shape := by
      intro v hv
      have : iv.map (NDA.map f32) = iv := by cases iv <;> simp [hmap]
      rw [this] at hv
      exact (hiv v hv).2.symm
    have hivmap : iv.map (NDA.map f32) = iv := by cases iv <;> simp [hmap]
    -- the ivar argument is an array of the same shape
    have hivarr : ∀ v, iv = some v → ∃ ivrows, v = .arr lead 5 ivrows ∧
        ivrows.length = lead.prod ∧ ∀ row ∈ ivrows, row.length = 5 := by
      intro v hv
      obtain ⟨hw, hs⟩ := hiv v (by simp [hv])
      cases v with
      | scalar x => simp [NDA.shape] at hs
      | arr l n rs =>
        simp only [NDA.shape] at hs
        have := List.append_inj' hs rfl
        obtain ⟨rfl, h2⟩ := this
        simp at h2; subst h2
        exact ⟨rs, rfl, hw.1, hw.2⟩
    have zipEnt : ∀ (op : ℝ → ℝ → ℝ) (rows : List (List ℝ)) (hrow : ∀ r ∈ rows, r.length = 5) (r j : Nat),
        ((rows.map (fun row => List.zipWith op row (abFac f)))[r]?).bind (fun row => row[j]?)
          = ((rows[r]?).bind (fun row => row[j]?)).bind
              fun x => (f[j]?).map fun φ => op x ((10 : ℝ) ^ (-0.4 * φ)) := by
      intro op rows hrow r j
      rw [List.getElem?_map]
      by_cases hr : r < rows.length
      · simp only [hr, List.getElem?_eq_getElem, Option.map_some, Option.bind_some]
        rw [List.getElem?_zipWith]
        cases hx : rows[r][j]? with
        | none => simp
        | some x =>
          cases hφ : f[j]? with
          | none => simp [abFac, hφ]
          | some φ => simp [abFac, hφ]
      · simp [hr]
    have fillEnt : ∀ (op : ℝ → ℝ → ℝ) (rows : List (List ℝ)) (hrow : ∀ r ∈ rows, r.length = 5) (r j : Nat),
        ((colLoop 5 (fun i s _ => op (ent s i) (ent (abFac f) i)) rows (zeroRows rows.length 5))[r]?).bind
            (fun row => row[j]?)
          = ((rows[r]?).bind (fun row => row[j]?)).bind
              fun x => (f[j]?).map fun φ => op x ((10 : ℝ) ^ (-0.4 * φ)) := by
      intro op rows hrow r j
      rw [fill_entry]
      by_cases hr : r < rows.length
      · simp only [hr, List.getElem?_eq_getElem, Option.bind_some]
        have hl := hrow rows[r] (List.getElem_mem hr)
        by_cases hj : j < 5
        · have h1 : rows[r][j]? = some (rows[r][j]'(by omega)) := List.getElem?_eq_getElem _
          have h2 : f[j]? = some (f[j]'(by omega)) := List.getElem?_eq_getElem _
          rw [h1, h2]
          simp only [hj, if_true, Option.bind_some, Option.map_some, hent _ _ h2, ent_eq h1]
        · have h1 : rows[r][j]? = none := List.getElem?_eq_none (by omega)
          rw [h1]; simp [hj]
      · simp [hr]
    have fillRow := fun (g : Nat → List ℝ → ℝ) (rows : List (List ℝ)) => fill_row_length (α := ℝ) 5 5 g rows
    have zipRow : ∀ (op : ℝ → ℝ → ℝ) (rows : List (List ℝ)) (hrow : ∀ r ∈ rows, r.length = 5),
        ∀ row ∈ rows.map (fun row => List.zipWith op row (abFac f)), row.length = 5 := by
      intro op rows hrow row hr
      simp only [List.mem_map] at hr
      obtain ⟨a, ha, rfl⟩ := hr
      simp [hlen, hrow a ha]
    rcases iv with _ | v
    · cases lead with
      | nil =>
        refine ⟨⟨.arr [] 5 (rows.map (fun r => List.zipWith (fun x c => x * c) r (abFac f))), none⟩, ?_, rfl,
          ⟨by simpa using hrl, zipRow _ rows hrow⟩, zipEnt _ rows hrow, fun _ => rfl, by simp⟩
        simp [sdssAbCorrect, abApply, hmap, hf]
      | cons d ds =>
        refine ⟨⟨.arr (d :: ds) 5 (colLoop 5 (fun i s _ => f32 (ent s i * ent (abFac f) i)) rows
          (zeroRows rows.length 5)), none⟩, ?_, rfl, ⟨by rw [fill_length]; exact hrl, fillRow _ rows⟩,
          fillEnt (fun x c => x * c) rows hrow, fun _ => rfl, by simp⟩
        simp [sdssAbCorrect, abApply, hmap, hf]
    · obtain ⟨ivrows, rfl, hl, hw⟩ := hivarr v rfl
      cases lead with
      | nil =>
        refine ⟨⟨.arr [] 5 (rows.map (fun r => List.zipWith (fun x c => x * c) r (abFac f))),
          some (.arr [] 5 (ivrows.map (fun r => List.zipWith (fun x c => x / (c * c)) r (abFac f))))⟩, ?_, rfl,
          ⟨by simpa using hrl, zipRow _ rows hrow⟩, zipEnt _ rows hrow, by simp, ?_⟩
        · simp [sdssAbCorrect, abApply, hmap, hf, NDA.shape]
        · rintro v hv
          cases hv
          refine ⟨_, rfl, rfl, ⟨by simpa using hl, zipRow _ ivrows hw⟩, ?_⟩
          intro r j
          have := zipEnt (fun x c => x / (c * c)) ivrows hw r j
          simpa [entry, pow_two] using this
      | cons d ds =>
        refine ⟨⟨.arr (d :: ds) 5 (colLoop 5 (fun i s _ => f32 (ent s i * ent (abFac f) i)) rows
          (zeroRows rows.length 5)), some (.arr (d :: ds) 5 (colLoop 5 (fun i s _ =>
          f32 (ent s i / (ent (abFac f) i * ent (abFac f) i))) ivrows (zeroRows ivrows.length 5)))⟩, ?_, rfl,
          ⟨by rw [fill_length]; exact hrl, fillRow _ rows⟩, fillEnt (fun x c => x * c) rows hrow, by simp, ?_⟩
        · simp [sdssAbCorrect, abApply, hmap, hf, NDA.shape]
        · rintro v hv
          cases hv
          refine ⟨_, rfl, rfl, ⟨by rw [fill_length]; exact hl, fillRow _ ivrows⟩, ?_⟩
          intro r j
          have := fillEnt (fun x c => x / (c * c)) ivrows hw r j
          simpa [entry, pow_two] using this


/-- An array is determined by its shape and rows. -/
theorem shape_arr {α : Type} {v : NDA α} {lead : List Nat} {n : Nat} (hw : v.WF) (hs : v.shape = lead ++ [n]) :
    ∃ rows, v = .arr lead n rows ∧ rows.length = lead.prod ∧ ∀ row ∈ rows, row.length = n := by
  cases v with
  | scalar x => simp [NDA.shape] at hs
  | arr l k rs =>
    simp only [NDA.shape] at hs
    obtain ⟨rfl, h2⟩ := List.append_inj' hs rfl
    simp at h2; subst h2
    exact ⟨rs, rfl, hw.1, hw.2⟩

section generic
variable {α : Type} [Arith α]

/-- the loop body of `error_floor` over one object -/
def floorRow (store : α → α) (floor ms iv : List α) : List α :=
  rowLoop floor.length (fun i s acc => floorEntry store (ent floor i) (ent s i) (ent acc i)) ms iv

theorem floorRow_get (store : α → α) (floor ms iv : List α) (hm : ms.length = floor.length)
    (hv : iv.length = floor.length) (j : Nat) :
    (floorRow store floor ms iv)[j]? = (ms[j]?).bind fun m => (iv[j]?).bind fun v =>
      (floor[j]?).map fun fl => floorEntry store fl m v := by
  have := rowLoop_eq floor.length (fun i (s : List α) x => floorEntry store (ent floor i) (ent s i) x) ms iv
  unfold floorRow
  rw [this, List.getElem?_mapIdx]
  by_cases hj : j < floor.length
  · have h1 : ms[j]? = some (ms[j]'(by omega)) := List.getElem?_eq_getElem _
    have h2 : iv[j]? = some (iv[j]'(by omega)) := List.getElem?_eq_getElem _
    have h3 : floor[j]? = some (floor[j]'(by omega)) := List.getElem?_eq_getElem _
    rw [h1, h2, h3]
    simp only [Option.map_some, hj, if_true, Option.bind_some, ent_eq h1, ent_eq h3]
  · have h1 : ms[j]? = none := List.getElem?_eq_none (by omega)
    have h2 : iv[j]? = none := List.getElem?_eq_none (by omega)
    simp [h1, h2]

/-- `error_floor` on valid input of rank 1 or 2. -/
theorem errorFloor_rows (store : α → α) (floor : List α) (lead : List Nat) (mrows rows : List (List α))
    (hl : mrows.length = rows.length) (hr : lead.length ≤ 1) :
    errorFloor store floor (.arr lead floor.length mrows) (.arr lead floor.length rows)
      = .ok (.arr lead floor.length (List.zipWith (floorRow store floor) mrows rows)) := by
  match lead, hr with
  | [], _ => simp [errorFloor, NDA.shape]; rfl
  | [_], _ =>
    simp only [errorFloor, NDA.shape, require_true, ok_bind]
    rw [colLoop_eq _ _ _ _ hl]; rfl

theorem errorFloor_entry (store : α → α) (floor : List α) (m iv : NDA α) (hm : m.WF) (hv : iv.WF)
    (hs : m.shape = iv.shape) (hl : lastAxis m floor.length) (hr : m.ndim ≤ 2) :
    ∃ out, errorFloor store floor m iv = .ok out ∧ out.shape = iv.shape ∧ out.WF ∧
      ∀ r j, entry out r j = (entry m r j).bind fun x => (entry iv r j).bind fun v =>
        (floor[j]?).map fun fl => floorEntry store fl x v := by
  cases m with
  | scalar x => simp [lastAxis, NDA.shape] at hl
  | arr lead ncol mrows =>
    simp [lastAxis, NDA.shape] at hl
    subst hl
    obtain ⟨h1, h2⟩ := hm
    obtain ⟨rows, rfl, h3, h4⟩ := shape_arr hv hs.symm
    simp only [NDA.ndim] at hr
    refine ⟨_, errorFloor_rows store floor lead mrows rows (by omega) (by omega), rfl, ⟨by simp [h1, h3], ?_⟩, ?_⟩
    · intro row hrow
      obtain ⟨i, hi, rfl⟩ := List.mem_iff_getElem.mp hrow
      simp only [List.length_zipWith] at hi
      simp [floorRow, rowLoop_length, h4 _ (List.getElem_mem (show i < rows.length by omega))]
    · intro r j
      simp only [entry, List.getElem?_zipWith]
      by_cases hr : r < rows.length
      · have e1 : mrows[r]? = some (mrows[r]'(by omega)) := List.getElem?_eq_getElem _
        have e2 : rows[r]? = some (rows[r]'(by omega)) := List.getElem?_eq_getElem _
        rw [e1, e2]
        simp only [Option.bind_some]
        exact floorRow_get store floor _ _ (h2 _ (List.getElem_mem _)) (h4 _ (List.getElem_mem _)) j
      · have e1 : mrows[r]? = none := List.getElem?_eq_none (by omega)
        simp [e1]

/-- Entry of an optional extinction array (zeros when absent, utils.py:288). -/
def extEntry (ext : Option (NDA α)) (r k : Nat) : Option α :=
  match ext with
  | some e => entry e r k
  | none => some (lit 0)

theorem entry_map {β : Type} (f : α → β) (a : NDA α) (r j : Nat) : entry (a.map f) r j = (entry a r j).map f := by
  cases a with
  | scalar x => cases r <;> cases j <;> simp [entry, NDA.map]
  | arr l n rows =>
    simp only [entry, NDA.map, List.getElem?_map]
    cases rows[r]? <;> simp

theorem map_WF {β : Type} (f : α → β) (a : NDA α) (h : a.WF) : (a.map f).WF := by
  cases a with
  | scalar x => trivial
  | arr l n rows =>
    refine ⟨by simp [h.1], ?_⟩
    intro row hrow
    simp only [List.mem_map] at hrow
    obtain ⟨a, ha, rfl⟩ := hrow
    simp [h.2 a ha]

theorem map_shape {β : Type} (f : α → β) (a : NDA α) : (a.map f).shape = a.shape := by
  cases a <;> rfl

theorem asinh_entry (mag : NDA α) (err ext : Option (NDA α)) (hm : mag.WF) (h5 : lastAxis mag 5)
    (he : ∀ e ∈ err, e.WF ∧ e.shape = mag.shape) (hx : ∀ e ∈ ext, e.WF ∧ e.shape = mag.shape) :
    ∃ out, asinhToMaggies mag err ext = .ok out ∧ out.maggies.shape = mag.shape ∧ out.maggies.WF ∧
      (∀ r k, entry out.maggies r k = (entry mag r k).bind fun x => (extEntry ext r k).bind fun e =>
        (asinhB[k]?).map fun b => asinhFlux b (f32 x) (if ext.isSome then f32 e else e)) ∧
      (err = none → out.ivar = none) ∧
      (∀ ea, err = some ea → ∃ w, out.ivar = some w ∧ w.shape = mag.shape ∧ w.WF ∧
        ∀ r k, entry w r k = (entry mag r k).bind fun x => (entry ea r k).bind fun e =>
          (asinhB[k]?).map fun b => asinhIvar b (f32 x) (f32 e)) := by
  obtain ⟨lead, rows, rfl, hrl, hrow⟩ : ∃ lead rows, mag = .arr lead 5 rows ∧ rows.length = lead.prod ∧
      ∀ row ∈ rows, row.length = 5 := by
    cases mag with
    | scalar x => simp [lastAxis, NDA.shape] at h5
    | arr l n rows =>
      simp [lastAxis, NDA.shape] at h5
      subst h5
      exact ⟨l, rows, rfl, hm.1, hm.2⟩
  -- entries of a filled array over zipped rows
  have fillE : ∀ (g : α → α → α → α) (a b : List (List α)) (ha : ∀ r ∈ a, r.length = 5) (hb : ∀ r ∈ b, r.length = 5)
      (hab : a.length = b.length) (r k : Nat),
      ((colLoop 5 (fun k (s : List α × List α) _ => g (ent asinhB k) (ent s.1 k) (ent s.2 k)) (List.zip a b)
          (zeroRows a.length 5))[r]?).bind (fun row => row[k]?)
        = ((a[r]?).bind (fun row => row[k]?)).bind fun x => ((b[r]?).bind (fun row => row[k]?)).bind fun e =>
            (asinhB[k]?).map fun bb => g bb x e := by
    intro g a b ha hb hab r k
    have hlen : (List.zip a b).length = a.length := by simp [hab]
    rw [← hlen, fill_entry]
    by_cases hr : r < a.length
    · have e1 : a[r]? = some (a[r]'(by omega)) := List.getElem?_eq_getElem _
      have e2 : b[r]? = some (b[r]'(by omega)) := List.getElem?_eq_getElem _
      have e3 : (List.zip a b)[r]? = some (a[r]'(by omega), b[r]'(by omega)) := by
        rw [List.getElem?_eq_getElem (by omega)]; simp
      rw [e1, e2, e3]
      have hl1 := ha (a[r]) (List.getElem_mem hr)
      have hl2 := hb (b[r]'(by omega)) (List.getElem_mem _)
      simp only [Option.bind_some]
      by_cases hk : k < 5
      · have f1 : (a[r])[k]? = some ((a[r])[k]'(by omega)) := List.getElem?_eq_getElem _
        have f2 : (b[r]'(by omega))[k]? = some ((b[r]'(by omega))[k]'(by omega)) := List.getElem?_eq_getElem _
        have f3 : (asinhB (α := α))[k]? = some ((asinhB (α := α))[k]'(by simp [asinhB]; omega)) :=
          List.getElem?_eq_getElem _
        rw [f1, f2, f3]
        simp only [hk, if_true, Option.bind_some, Option.map_some, ent_eq f1, ent_eq f2, ent_eq f3]
      · have f1 : (a[r])[k]? = none := List.getElem?_eq_none (by omega)
        rw [f1]; simp [hk]
    · have e1 : a[r]? = none := List.getElem?_eq_none (by omega)
      have e3 : (List.zip a b)[r]? = none := List.getElem?_eq_none (by omega)
      rw [e1, e3]; simp
  have fillL : ∀ (g : Nat → List α × List α → α) (a b : List (List α)) (hab : a.length = b.length),
      (colLoop 5 (fun k s _ => g k s) (List.zip a b) (zeroRows a.length 5)).length = a.length := by
    intro g a b hab
    have hlen : (List.zip a b).length = a.length := by simp [hab]
    rw [← hlen, fill_length]
  have fillR : ∀ (g : Nat → List α × List α → α) (a b : List (List α)) (hab : a.length = b.length),
      ∀ row ∈ colLoop 5 (fun k s _ => g k s) (List.zip a b) (zeroRows a.length 5), row.length = 5 := by
    intro g a b hab
    have hlen : (List.zip a b).length = a.length := by simp [hab]
    rw [← hlen]; exact fill_row_length _ _ _ _
  set R := rows.map (List.map (f32 (α := α))) with hR
  have hRl : R.length = rows.length := by simp [hR]
  have hRr : ∀ r ∈ R, r.length = 5 := (map_WF f32 _ hm).2
  have hmE : ∀ r k, (R[r]?).bind (fun row => row[k]?) = (entry (NDA.arr lead 5 rows) r k).map f32 :=
    fun r k => entry_map f32 (NDA.arr lead 5 rows) r k
  -- rows of the extinction
  obtain ⟨X, hXl, hXr, hXE, hXeq⟩ : ∃ X : List (List α), R.length = X.length ∧ (∀ r ∈ X, r.length = 5) ∧
      (∀ r k x, (entry (NDA.arr lead 5 rows) r k) = some x → (X[r]?).bind (fun row => row[k]?) =
        (extEntry ext r k).map (fun e => if ext.isSome then f32 e else e)) ∧
      (X = match ext.map (NDA.map f32) with
        | some (.arr _ _ e) => e
        | _ => zeroRows R.length 5) := by
    cases ext with
    | none =>
      refine ⟨zeroRows R.length 5, by simp [zeroRows], ?_, ?_, rfl⟩
      · intro r hr
        simp only [zeroRows, List.mem_replicate] at hr
        simp [hr.2, zeros]
      · intro r k x hx
        simp only [entry, Option.bind_eq_some_iff] at hx
        obtain ⟨row, h1, h2⟩ := hx
        have hr : r < rows.length := (List.getElem?_eq_some_iff.mp h1).1
        have hk : k < row.length := (List.getElem?_eq_some_iff.mp h2).1
        have h6 := hrow row (List.mem_of_getElem? h1)
        have : k < 5 := by omega
        simp [zeroRows, hRl, hr, zeros, extEntry, this]
        interval_cases k <;> rfl
    | some e =>
      obtain ⟨hw, hs⟩ := hx e (by simp)
      obtain ⟨er, rfl, h1, h2⟩ := shape_arr hw hs
      refine ⟨er.map (List.map f32), by simp [hR, h1, hrl], (map_WF f32 _ hw).2, ?_, rfl⟩
      intro r k x _
      have := entry_map f32 (NDA.arr lead 5 er) r k
      simpa [extEntry, entry, NDA.map] using this
  have hsh1 : ∀ e ∈ err.map (NDA.map f32), (NDA.arr lead 5 R).shape = e.shape := by
    intro e hE
    simp only [Option.mem_def, Option.map_eq_some_iff] at hE
    obtain ⟨a, ha, rfl⟩ := hE
    rw [map_shape, (he a ha).2]; rfl
  have hsh2 : ∀ e ∈ ext.map (NDA.map f32), (NDA.arr lead 5 R).shape = e.shape := by
    intro e hE
    simp only [Option.mem_def, Option.map_eq_some_iff] at hE
    obtain ⟨a, ha, rfl⟩ := hE
    rw [map_shape, (hx a ha).2]; rfl
  let V : Option (NDA α) := match err.map (NDA.map f32) with
      | some (.arr _ _ e) =>
        some (.arr lead 5 (colLoop 5 (fun k (s : List α × List α) _ => asinhIvar (ent asinhB k) (ent s.1 k) (ent s.2 k))
          (List.zip R e) (zeroRows R.length 5)))
      | _ => none
  refine ⟨⟨.arr lead 5 (colLoop 5 (fun k (s : List α × List α) _ => asinhFlux (ent asinhB k) (ent s.1 k) (ent s.2 k))
      (List.zip R X) (zeroRows R.length 5)), V⟩, ?_, rfl, ⟨?_, ?_⟩, ?_, ?_, ?_⟩
  · unfold asinhToMaggies
    have hmm : (NDA.arr lead 5 rows).map f32 = NDA.arr lead 5 R := rfl
    simp only [hmm]
    rw [require_true hsh1, require_true hsh2]
    simp only [ok_bind, require_true, hXeq]
    rfl
  · rw [fillL _ _ _ hXl, hRl]; exact hrl
  · exact fillR _ _ _ hXl
  · intro r k
    have := fillE asinhFlux R X hRr hXr hXl r k
    simp only [entry] at this ⊢
    rw [this, hmE]
    simp only [entry]
    cases hx : (rows[r]?).bind (fun row => row[k]?) with
    | none => simp
    | some x =>
      rw [hXE r k x hx]
      simp only [Option.map_some, Option.bind_some]
      cases extEntry ext r k <;> simp
  · rintro rfl; rfl
  · rintro ea rfl
    obtain ⟨hw, hs⟩ := he ea (by simp)
    obtain ⟨er, rfl, h1, h2⟩ := shape_arr hw hs
    have hE : R.length = (er.map (List.map (f32 (α := α)))).length := by simp [hR, h1, hrl]
    refine ⟨_, rfl, rfl, ⟨?_, fillR _ _ _ hE⟩, ?_⟩
    · rw [fillL _ _ _ hE, hRl]; exact hrl
    · intro r k
      have := fillE asinhIvar R (er.map (List.map f32)) hRr (map_WF f32 _ hw).2 hE r k
      simp only [entry] at this ⊢
      rw [this, hmE]
      have h2 := entry_map f32 (NDA.arr lead 5 er) r k
      simp only [entry, NDA.map] at h2 ⊢
      rw [h2]
      cases (rows[r]?).bind (fun row => row[k]?) with
      | none => rfl
      | some x =>
        simp only [Option.map_some, Option.bind_some]
        cases (er[r]?).bind (fun row => row[k]?) <;> rfl

end generic

end KC
