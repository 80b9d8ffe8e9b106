import Verif.Props.KFiles

/-!
# AB corrections of the classes (C88–C90)
-/

namespace KC
open Spec

namespace Spec

/-- The documented change of the magnitude in each band of an AB correction (kcorrect.py:942–947), for the ten bands
F N u g r i z J H K. -/
noncomputable def gstOffset (j : Nat) : ℝ :=
  if j = 2 then -0.036 else if j = 3 then 0.012 else if j = 4 then 0.010 else if j = 5 then 0.028 else if j = 6 then 0.040 else 0

/-- The same change as a factor of the flux. -/
noncomputable def gstFactor (j : Nat) : ℝ := 10 ^ (-0.4 * gstOffset j)

/-- Change of the magnitude in band `j` of each class; `KcorrectSDSS` has the bands u g r i z. -/
noncomputable def abOffset : Cls → Nat → ℝ
  | .base, _ => 0
  | .sdss, j => gstOffset (j + 2)
  | .gst, j => gstOffset j

/-- The number of bands that the AB correction of a class is made for. -/
def AbReady : Cls → Nat → Prop
  | .base, _ => True
  | .sdss, n => n = 5
  | .gst, n => 7 ≤ n

end Spec

theorem slice27_entry {lead : List Nat} {n : Nat} {rows : List (List ℝ)} (hw : (NDA.arr lead n rows).WF) (hn : 7 ≤ n) :
    ∃ s, slice27 (.arr lead n rows) = .ok s ∧ s.WF ∧ s.shape = lead ++ [5] ∧ ∀ r j, j < 5 → entry s r j = entry (.arr lead n rows) r (j + 2) := by
  refine ⟨_, rfl, ⟨by simpa using hw.1, ?_⟩, ?_, ?_⟩
  · intro r hr
    obtain ⟨r0, h0, rfl⟩ := List.mem_map.mp hr
    have := hw.2 r0 h0
    simp; omega
  · simp [NDA.shape]; omega
  · intro r j hj
    simp only [entry, List.getElem?_map]
    cases rows[r]? with
    | none => rfl
    | some row => simp [List.getElem?_take, hj, Nat.add_comm]

theorem putSlice27_entry {lead l2 : List Nat} {n : Nat} {rows srows : List (List ℝ)} (hw : (NDA.arr lead n rows).WF) (hn : 7 ≤ n)
    (hs : (NDA.arr l2 5 srows).WF) (hl : l2 = lead) (r j : Nat) :
    entry (putSlice27 (.arr lead n rows) (.arr l2 5 srows)) r j =
      if 2 ≤ j ∧ j < 7 then entry (.arr l2 5 srows) r (j - 2) else entry (.arr lead n rows) r j := by
  subst hl
  have hlen : srows.length = rows.length := by rw [hs.1, hw.1]
  simp only [putSlice27, entry, NDA.rows, List.getElem?_zipWith]
  by_cases hr : r < rows.length
  · have hr' : r < srows.length := by omega
    rw [List.getElem?_eq_getElem hr, List.getElem?_eq_getElem hr']
    have h1 : rows[r].length = n := hw.2 _ (List.getElem_mem hr)
    have h2 : srows[r].length = 5 := hs.2 _ (List.getElem_mem hr')
    simp only [Option.map₂_some_some, Option.bind_some, put27]
    have ht : (rows[r].take 2).length = 2 := by simp; omega
    by_cases hj2 : j < 2
    · rw [if_neg (by omega), List.append_assoc, List.getElem?_append_left (by omega), List.getElem?_take, if_pos hj2]
    · by_cases hj7 : j < 7
      · rw [if_pos (by omega), List.getElem?_append_left (by simp only [List.length_append, ht]; omega), List.getElem?_append_right (by omega), ht]
      · rw [if_neg (by omega), List.getElem?_append_right (by simp only [List.length_append, ht]; omega), List.getElem?_drop]
        congr 1
        simp only [List.length_append, ht]; omega
  · have hr' : ¬ r < srows.length := by omega
    rw [List.getElem?_eq_none (by omega), List.getElem?_eq_none (by omega)]
    simp

theorem putSlice27_WF {lead l2 : List Nat} {n : Nat} {rows srows : List (List ℝ)} (hw : (NDA.arr lead n rows).WF) (hn : 7 ≤ n)
    (hs : (NDA.arr l2 5 srows).WF) (hl : l2 = lead) : (putSlice27 (.arr lead n rows) (.arr l2 5 srows)).WF := by
  subst hl
  have hlen : srows.length = rows.length := by rw [hs.1, hw.1]
  refine ⟨by simp [NDA.rows, hlen]; exact hw.1, ?_⟩
  intro r hr
  simp only [NDA.rows] at hr
  obtain ⟨i, hi, rfl⟩ := List.mem_iff_getElem.mp hr
  simp only [List.length_zipWith] at hi
  have h1 : rows[i].length = n := hw.2 _ (List.getElem_mem _)
  have h2 : srows[i].length = 5 := hs.2 _ (List.getElem_mem _)
  simp only [List.getElem_zipWith, put27, List.length_append, List.length_take, List.length_drop, h1, h2]
  omega

/-- C88: with inverse variances, the correction of the combined class multiplies the fluxes in columns 2 to 6 by the documented factors,
divides the inverse variances there by their squares and leaves every other entry as it was, for tables of any rank. -/
theorem C88_gst_partial (m iv : NDA ℝ) (hm : m.WF) (hiv : iv.WF) (hs : iv.shape = m.shape) (n : Nat) (hl : lastAxis m n) (hn : 7 ≤ n) :
    ∃ out w, toAb .gst m (some iv) = .ok ⟨out, some w⟩ ∧ out.WF ∧ w.WF ∧ out.shape = m.shape ∧ w.shape = m.shape ∧
      (∀ r j, entry out r j = (entry m r j).map (fun x => x * gstFactor j)) ∧
      (∀ r j, entry w r j = (entry iv r j).map (fun x => x / gstFactor j ^ 2)) := by
  cases m with
  | scalar x => simp [lastAxis, NDA.shape] at hl
  | arr lead k rows =>
    have hk : k = n := by simpa [lastAxis, NDA.shape] using hl
    subst hk
    obtain ⟨irows, rfl, hi1, hi2⟩ := shape_arr hiv (show iv.shape = lead ++ [k] from hs)
    obtain ⟨s, hs1, hs2, hs3, hs4⟩ := slice27_entry hm hn
    obtain ⟨si, ht1, ht2, ht3, ht4⟩ := slice27_entry hiv hn
    obtain ⟨out, ho0, ho1, ho2, ho3, _, ho4⟩ := abCorrect_real s (some si) abfixDefault hs2 (by rw [lastAxis, hs3]; simp) rfl
      (by intro v hv; cases hv; exact ⟨ht2, by rw [ht3, hs3]⟩)
    obtain ⟨w, hw, hw1, hw2, hw3⟩ := ho4 si rfl
    obtain ⟨orows, ho, _, _⟩ := shape_arr ho2 (ho1.trans hs3)
    obtain ⟨wrows, hwr, _, _⟩ := shape_arr hw2 (hw1.trans ht3)
    have hfac : ∀ j, 2 ≤ j → j < 7 → ∃ φ : ℝ, (abfixDefault (α := ℝ))[j - 2]? = some φ ∧ (10 : ℝ) ^ (-0.4 * φ) = gstFactor j := by
      intro j h2 h7
      interval_cases j <;> refine ⟨_, rfl, ?_⟩ <;> simp [gstFactor, gstOffset]
    have hone : ∀ j, ¬ (2 ≤ j ∧ j < 7) → gstFactor j = 1 := by
      intro j hj
      unfold gstFactor gstOffset
      rw [if_neg (by omega), if_neg (by omega), if_neg (by omega), if_neg (by omega), if_neg (by omega), mul_zero, Real.rpow_zero]
    refine ⟨putSlice27 (.arr lead k rows) out.maggies, putSlice27 (.arr lead k irows) w, ?_, ?_, ?_, rfl, rfl, ?_, ?_⟩
    · unfold toAb
      simp only [hs1, ht1, ok_bind]
      rw [ho0, ok_bind]
      simp only [hw]
      rfl
    · rw [ho]; rw [ho] at ho2; exact putSlice27_WF hm hn ho2 rfl
    · rw [hwr]; rw [hwr] at hw2; exact putSlice27_WF hiv hn hw2 rfl
    · intro r j
      rw [ho] at ho2 ho3 ⊢
      rw [putSlice27_entry hm hn ho2 rfl]
      split
      · rename_i hj
        obtain ⟨φ, h1, h2⟩ := hfac j hj.1 hj.2
        rw [ho3, h1, hs4 r (j - 2) (by omega), show j - 2 + 2 = j by omega, ← h2]
        cases entry (NDA.arr lead k rows) r j <;> rfl
      · rename_i hj
        rw [hone j hj]
        simp
    · intro r j
      rw [hwr] at hw2 hw3 ⊢
      rw [putSlice27_entry hiv hn hw2 rfl]
      split
      · rename_i hj
        obtain ⟨φ, h1, h2⟩ := hfac j hj.1 hj.2
        rw [hw3, h1, ht4 r (j - 2) (by omega), show j - 2 + 2 = j by omega, ← h2]
        cases entry (NDA.arr lead k irows) r j <;> rfl
      · rename_i hj
        rw [hone j hj]
        simp

/-- C88 is false without inverse variances: the method never returns. -/
theorem C88_false (m out : NDA ℝ) (w : Option (NDA ℝ)) : toAb .gst m none ≠ .ok ⟨out, w⟩ := by
  intro h
  unfold toAb at h
  obtain ⟨_, _, h⟩ := bind_ok_iff.mp h
  cases h

/-! ### C89 -/

section generic
variable {α : Type} [Arith α]

/-- The same object as a plain `Kcorrect` without AB correction. -/
def Fitter.plain (F : Fitter α) : Fitter α := { F with cls := .base, abcorrect := false }

/-- The same object as a plain `Kcorrect` without AB correction. -/
def Kc.plain (K : Kc α) : Kc α := { K with cls := .base, abcorrect := false }

theorem process_none (F : Fitter α) (z iv c : Option (NDA α)) : processInputs F.plain z none iv c = processInputs F z none iv c := by
  unfold processInputs Fitter.plain
  cases F.abcorrect <;> rfl

theorem process_off (F : Fitter α) (h : F.abcorrect = false) : processInputs F.plain = processInputs F := by
  funext z m iv c
  unfold processInputs Fitter.plain
  simp only [h]

theorem fitPass_plain (nnls : Nnls α) (F : Fitter α) : fitPass nnls F.plain = fitPass nnls F := rfl

theorem fitOne_plain (nnls : Nnls α) (F : Fitter α) : fitOne nnls F.plain = fitOne nnls F := rfl

theorem recon_plain (F : Fitter α) : F.plain.reconstruct = F.reconstruct := by
  funext z c b
  unfold Fitter.reconstruct reconstructWith reconI
  rw [process_none]; rfl

theorem reconOut_plain (K : Kc α) : K.plain.reconstructOut = K.reconstructOut := by
  funext z c b
  unfold Kc.reconstructOut reconstructWith reconI
  rw [show K.plain.toFitter = K.toFitter.plain from rfl, process_none]; rfl

theorem kcorrect_plain (K : Kc α) : K.plain.kcorrect = K.kcorrect := by
  funext z c b
  unfold Kc.kcorrect Kc.kcorrectI
  rw [reconOut_plain, show K.plain.toFitter = K.toFitter.plain from rfl, process_none, recon_plain]; rfl

theorem absmagI_plain (K : Kc α) : K.plain.absmagI = K.absmagI := by
  funext i bs d x y w
  unfold Kc.absmagI
  rw [reconOut_plain, kcorrect_plain]
  have : K.plain.dmOf = K.dmOf := by
    funext i d
    unfold Kc.dmOf
    rw [show K.plain.toFitter = K.toFitter.plain from rfl]
    simp only [process_none]; rfl
  rw [this]; rfl

theorem map_shape' (f : α → α) (a : NDA α) : (a.map f).shape = a.shape := by cases a <;> rfl

theorem abApply_shape {m : NDA α} {iv : Option (NDA α)} {l : List α} {r : AbOut α} (h : abApply m iv l = .ok r)
    (hs : ∀ v ∈ iv, v.shape = m.shape) : r.maggies.shape = m.shape ∧ r.ivar.map NDA.shape = iv.map NDA.shape := by
  cases m with
  | scalar x => cases h
  | arr lead n rows =>
    have hv : iv = none ∨ ∃ a b c, iv = some (.arr a b c) := by
      cases iv with
      | none => exact Or.inl rfl
      | some v =>
        cases v with
        | scalar x => have := hs _ rfl; simp [NDA.shape] at this
        | arr a b c => exact Or.inr ⟨a, b, c, rfl⟩
    cases lead with
    | nil =>
      unfold abApply at h
      simp only at h
      split at h
      · cases h
      · rcases hv with rfl | ⟨a, b, c, rfl⟩ <;> cases h <;> exact ⟨rfl, rfl⟩
    | cons a t =>
      unfold abApply at h
      simp only at h
      split at h
      · cases h
      · rcases hv with rfl | ⟨a, b, c, rfl⟩ <;> cases h <;> exact ⟨rfl, rfl⟩

theorem sdssAb_shape {m : NDA α} {iv : Option (NDA α)} {l : List α} {r : AbOut α} (h : sdssAbCorrect m iv l = .ok r) :
    r.maggies.shape = m.shape ∧ r.ivar.map NDA.shape = iv.map NDA.shape := by
  unfold sdssAbCorrect at h
  obtain ⟨_, h1, h⟩ := bind_ok_iff.mp h
  obtain ⟨_, h2, h⟩ := bind_ok_iff.mp h
  rw [require_ok_iff] at h1
  obtain ⟨e1, e2⟩ := abApply_shape h (fun v hv => (h1 v hv).symm)
  refine ⟨e1.trans (map_shape' _ _), e2.trans ?_⟩
  cases iv with
  | none => rfl
  | some v => simp [map_shape']

/-- `to_ab` keeps the shapes. -/
theorem toAb_shape {cls : Cls} {m : NDA α} {iv : Option (NDA α)} {r : AbOut α} (h : toAb cls m iv = .ok r) :
    r.maggies.shape = m.shape ∧ r.ivar.map NDA.shape = iv.map NDA.shape := by
  cases cls with
  | base => cases h; exact ⟨rfl, rfl⟩
  | sdss => exact sdssAb_shape h
  | gst =>
    unfold toAb at h
    obtain ⟨sm, hsm, h⟩ := bind_ok_iff.mp h
    cases iv with
    | none => cases h
    | some iv =>
      obtain ⟨siv, hsiv, h⟩ := bind_ok_iff.mp h
      obtain ⟨q, hq, h⟩ := bind_ok_iff.mp h
      cases hr : q.ivar with
      | none => rw [hr] at h; cases h
      | some riv =>
        rw [hr] at h
        cases h
        have : ∀ a b : NDA α, (putSlice27 a b).shape = a.shape := by intro a b; cases a <;> rfl
        simp [this]

end generic

theorem checkTable_real {array : Bool} {n w : Nat} {a : NDA ℝ} (h : a.shape = (if array then [n, w] else [w])) :
    checkTable array n w (some a) = .ok (some a) := by
  unfold checkTable
  simp only [map_f32_real, h, if_true]

/-- C89, what the checks hand on with the AB correction switched on: the corrected maggies and inverse variances, corrected once. -/
theorem process_on (F : Fitter ℝ) (h : F.abcorrect = true) (z : Option (NDA ℝ)) (m : NDA ℝ) (iv c : Option (NDA ℝ)) (hw : ∀ a ∈ z, a.WF)
    (hs : ShapesMatch F.responses.length F.templates.nsed z (some m) iv c) :
    processInputs F z (some m) iv c = (toAb F.cls m iv >>= fun r => processInputs F.plain z (some r.maggies) r.ivar c) := by
  obtain ⟨z, rfl, hs⟩ := hs
  have key : ∀ (array : Bool) (n w : Nat) (o : Option (NDA ℝ)), (∀ a ∈ o, a.shape = (if array then [n, w] else [w])) →
      checkTable array n w o = .ok o := by
    intro array n w o ho
    cases o with
    | none => rfl
    | some a => exact checkTable_real (ho a rfl)
  have hrows : ∀ o : Option (NDA ℝ), o.map rowsF = o.map NDA.rows := by
    intro o
    cases o with
    | none => rfl
    | some a => simp [rowsF, map_f32_real]
  have hsh : ∀ (r : AbOut ℝ) (s : List Nat), r.ivar.map NDA.shape = iv.map NDA.shape → (∀ a ∈ iv, a.shape = s) → ∀ a ∈ r.ivar, a.shape = s := by
    intro r s h1 h2 a ha
    rw [show r.ivar = some a from ha] at h1
    cases hv : iv with
    | none => rw [hv] at h1; cases h1
    | some v =>
      rw [hv] at h1
      rw [Option.some.inj h1]
      exact h2 v hv
  rcases hs with ⟨hz, h1, h2, h3⟩ | ⟨n, hz, h1, h2, h3⟩
  · obtain ⟨x, rfl⟩ := scalar_of_shape hz
    have e : processInputs F (some (.scalar x)) (some m) iv c =
        (toAb F.cls m iv >>= fun r => .ok ⟨false, [f32 x], some r.maggies.rows, r.ivar.map NDA.rows, c.map NDA.rows⟩) := by
      unfold processInputs
      simp only [Option.map_some, NDA.map, ok_bind]
      rw [key false _ _ (some m) (by simpa using h1), ok_bind, key false _ _ iv (by simpa using h2), ok_bind,
        key false _ _ c (by simpa using h3), ok_bind, h]
      rfl
    rw [e]
    cases hr : toAb F.cls m iv with
    | error e => rfl
    | ok r =>
      obtain ⟨s1, s2⟩ := toAb_shape hr
      simp only [ok_bind]
      rw [processInputs_scalar (F := F.plain) (Or.inl rfl) x (some r.maggies) r.ivar c
        (by intro a ha; cases ha; rw [s1]; exact h1 m rfl) (hsh r _ s2 h2) h3, hrows, hrows, hrows]
      rfl
  · obtain ⟨xs, rfl, rfl⟩ := vec_of_shape (hw z (by simp)) hz
    have e : processInputs F (some (.vec xs)) (some m) iv c =
        (toAb F.cls m iv >>= fun r => .ok ⟨true, xs.map f32, some r.maggies.rows, r.ivar.map NDA.rows, c.map NDA.rows⟩) := by
      unfold processInputs
      simp only [Option.map_some, NDA.map, NDA.vec, ok_bind, List.map_cons, List.map_nil, List.flatten_cons, List.flatten_nil,
        List.append_nil, List.length_map]
      rw [key true _ _ (some m) (by simpa using h1), ok_bind, key true _ _ iv (by simpa using h2), ok_bind,
        key true _ _ c (by simpa using h3), ok_bind, h]
      rfl
    rw [e]
    cases hr : toAb F.cls m iv with
    | error e => rfl
    | ok r =>
      obtain ⟨s1, s2⟩ := toAb_shape hr
      simp only [ok_bind]
      rw [processInputs_array (F := F.plain) (Or.inl rfl) xs (some r.maggies) r.ivar c
        (by intro a ha; cases ha; rw [s1]; exact h1 m rfl) (hsh r _ s2 h2) h3, hrows, hrows, hrows]
      rfl

/-- C89, correction off: in every class the fit, K-corrections and absolute magnitudes are those of a plain `Kcorrect` object on the
same maggies and inverse variances. -/
theorem C89_off {α : Type} [Arith α] (K : Kc α) (h : K.abcorrect = false) :
    (∀ nnls, K.toFitter.fitCoeffs nnls = K.toFitter.plain.fitCoeffs nnls) ∧ K.absmag = K.plain.absmag ∧ K.kcorrect = K.plain.kcorrect := by
  refine ⟨fun nnls => ?_, ?_, (kcorrect_plain K).symm⟩
  · funext z m iv mc noise
    unfold Fitter.fitCoeffs Fitter.fitCoeffsI
    rw [process_off K.toFitter h, fitOne_plain, fitPass_plain]; rfl
  · funext m iv z c bs d x y w
    unfold Kc.absmag
    rw [absmagI_plain, show K.plain.toFitter = K.toFitter.plain from rfl, process_off K.toFitter h]

/-- C89, correction on: in every class, fitting is fitting a plain object to the values that `to_ab` returns for the caller's arrays, so
they are corrected exactly once; if `to_ab` raises, so does the fit. -/
theorem C89_fit_once (nnls : Nnls ℝ) (F : Fitter ℝ) (h : F.abcorrect = true) (z : Option (NDA ℝ)) (m : NDA ℝ) (iv : Option (NDA ℝ)) (mc : Nat)
    (noise : Nat → Nat → Nat → ℝ) (hw : ∀ a ∈ z, a.WF) (hs : ShapesMatch F.responses.length F.templates.nsed z (some m) iv none) :
    F.fitCoeffs nnls z (some m) iv mc noise =
      (toAb F.cls m iv >>= fun r => F.plain.fitCoeffs nnls z (some r.maggies) r.ivar mc noise) := by
  have e := process_on F h z m iv none hw hs
  obtain ⟨z, rfl, _⟩ := hs
  unfold Fitter.fitCoeffs Fitter.fitCoeffsI
  rw [e, fitOne_plain, fitPass_plain]
  cases toAb F.cls m iv with
  | error e => rfl
  | ok r => rfl

/-- C89, correction on: absolute magnitudes are those of a plain object on the values that `to_ab` returns. -/
theorem C89_absmag_once (K : Kc ℝ) (h : K.abcorrect = true) (m : NDA ℝ) (iv z c : Option (NDA ℝ)) (bs : ℝ) (d : Option (NDA ℝ)) (x y w : Bool)
    (hw : ∀ a ∈ z, a.WF) (hs : ShapesMatch K.responses.length K.templates.nsed z (some m) iv c) :
    K.absmag (some m) iv z c bs d x y w = (toAb K.cls m iv >>= fun r => K.plain.absmag (some r.maggies) r.ivar z c bs d x y w) := by
  have e := process_on K.toFitter h z m iv c hw hs
  unfold Kc.absmag
  rw [e, absmagI_plain]
  cases toAb K.cls m iv with
  | error e => rfl
  | ok r => rfl

/-! ### C90 -/

/-- The conversion returns inverse variances exactly when it is given errors, and keeps the shape. -/
theorem asinh_out {α : Type} [Arith α] {mag : NDA α} {err ext : Option (NDA α)} {r : AbOut α} (h : asinhToMaggies mag err ext = .ok r) :
    (r.ivar.isSome = err.isSome) ∧ r.maggies.shape = mag.shape := by
  unfold asinhToMaggies at h
  obtain ⟨_, h1, h⟩ := bind_ok_iff.mp h
  obtain ⟨_, h2, h⟩ := bind_ok_iff.mp h
  rw [require_ok_iff] at h1
  cases mag with
  | scalar x => cases h
  | arr lead n rows =>
    simp only [NDA.map] at h
    obtain ⟨_, h3, h⟩ := bind_ok_iff.mp h
    cases err with
    | none => cases h; exact ⟨rfl, rfl⟩
    | some e =>
      cases e with
      | scalar x => have := h1 _ rfl; simp [NDA.shape, NDA.map] at this
      | arr a b c => cases h; exact ⟨rfl, rfl⟩

/-- C90: with magnitude errors, fitting asinh magnitudes is converting them and fitting the result (and raises if either does). -/
theorem C90_composition {α : Type} [Arith α] (nnls : Nnls α) (K : Kc α) (z mag err : NDA α) (ext : Option (NDA α)) (noise : Nat → Nat → Nat → α) :
    K.fitCoeffsAsinh nnls (some z) mag (some err) ext noise =
      (asinhToMaggies mag (some err) ext >>= fun r => K.toFitter.fitCoeffs nnls (some z) (some r.maggies) r.ivar 0 noise) := by
  unfold Kc.fitCoeffsAsinh
  simp only [Option.isNone_some, Bool.false_eq_true, if_false]
  cases hr : asinhToMaggies mag (some err) ext with
  | error e => rfl
  | ok r =>
    obtain ⟨h1, _⟩ := asinh_out hr
    show (match r.ivar with | some iv => _ | none => _) = K.toFitter.fitCoeffs nnls (some z) (some r.maggies) r.ivar 0 noise
    cases hv : r.ivar with
    | none => rw [hv] at h1; cases h1
    | some iv => rfl

/-- C90 without magnitude errors: raises, unless the first axis of the magnitudes has length 2 (false then, `C90_false`). -/
theorem C90_needs_errors_partial {α : Type} [Arith α] (nnls : Nnls α) (K : Kc α) (z : Option (NDA α)) (mag : NDA α) (ext : Option (NDA α))
    (noise : Nat → Nat → Nat → α) (h2 : mag.shape.head? ≠ some 2) (out : FitOut α) : K.fitCoeffsAsinh nnls z mag none ext noise ≠ .ok out := by
  intro h
  unfold Kc.fitCoeffsAsinh at h
  cases z with
  | none => cases h
  | some z =>
    simp only [Option.isNone_some, Bool.false_eq_true, if_false] at h
    obtain ⟨r, hr, h⟩ := bind_ok_iff.mp h
    obtain ⟨h1, hsh⟩ := asinh_out hr
    cases hv : r.ivar with
    | some iv => rw [hv] at h1; cases h1
    | none =>
      rw [hv] at h
      rw [← hsh] at h2
      cases hm : r.maggies with
      | scalar x => rw [hm] at h; cases h
      | arr lead n rows =>
        rw [hm] at h h2
        cases lead with
        | nil => cases h
        | cons a t =>
          have ha : a ≠ 2 := by simpa [NDA.shape] using h2
          simp only at h
          split at h
          · rename_i heq; injection heq with e1; injection e1 with e2; exact ha e2
          · cases h

/-- C90 without magnitude errors, two galaxies: the fluxes of the first are fitted with those of the second as inverse variances. -/
theorem C90_silent_split {α : Type} [Arith α] (nnls : Nnls α) (K : Kc α) (z mag : NDA α) (ext : Option (NDA α)) (noise : Nat → Nat → Nat → α)
    (a b : List α) (n : Nat) (h : asinhToMaggies mag none ext = .ok ⟨.arr [2] n [a, b], none⟩) :
    K.fitCoeffsAsinh nnls (some z) mag none ext noise =
      K.toFitter.fitCoeffs nnls (some z) (some (.arr [] n [a])) (some (.arr [] n [b])) 0 noise := by
  unfold Kc.fitCoeffsAsinh
  simp only [Option.isNone_some, Bool.false_eq_true, if_false]
  show (asinhToMaggies mag none ext >>= _) = _
  rw [h, ok_bind]
  simp

/-! ### Corrected magnitudes of single objects -/

/-- The class whose correction an object applies. -/
def Fitter.abCls {α : Type} (F : Fitter α) : Cls := if F.abcorrect then F.cls else .base

/-- What the checks hand on, in every class, with the correction on or off. -/
theorem process_eff (F : Fitter ℝ) (z : Option (NDA ℝ)) (m : NDA ℝ) (iv c : Option (NDA ℝ)) (hw : ∀ a ∈ z, a.WF)
    (hs : ShapesMatch F.responses.length F.templates.nsed z (some m) iv c) :
    processInputs F z (some m) iv c = (toAb F.abCls m iv >>= fun r => processInputs F.plain z (some r.maggies) r.ivar c) := by
  unfold Fitter.abCls
  cases h : F.abcorrect with
  | true => exact process_on F h z m iv c hw hs
  | false =>
    show processInputs F z (some m) iv c = processInputs F.plain z (some m) iv c
    rw [process_off F h]

/-- Factor of the flux in band `j`. -/
noncomputable def abFactor (cls : Cls) (j : Nat) : ℝ := 10 ^ (-0.4 * abOffset cls j)

theorem abFactor_pos (cls : Cls) (j : Nat) : 0 < abFactor cls j := Real.rpow_pos_of_pos (by norm_num) _

theorem vec_ext {a : NDA ℝ} {xs : List ℝ} (hw : a.WF) (hs : a.shape = [xs.length]) (h : ∀ j, entry a 0 j = xs[j]?) : a = .vec xs := by
  obtain ⟨ys, rfl, hl⟩ := vec_of_shape hw hs
  congr 1
  apply List.ext_getElem?
  intro j
  simpa [entry, NDA.vec] using h j

/-- `to_ab` on one object. -/
theorem toAb_vec (cls : Cls) (m iv : List ℝ) (h : AbReady cls m.length) (hl : iv.length = m.length) :
    toAb cls (.vec m) (some (.vec iv)) = .ok ⟨.vec (m.mapIdx (fun j x => x * abFactor cls j)), some (.vec (iv.mapIdx (fun j x => x / abFactor cls j ^ 2)))⟩ := by
  have hwf : ∀ xs : List ℝ, (NDA.vec xs).WF := by intro xs; simp [NDA.vec, NDA.WF]
  have hent : ∀ (xs : List ℝ) j, entry (NDA.vec xs) 0 j = xs[j]? := by intro xs j; simp [entry, NDA.vec]
  have hsh : ∀ xs : List ℝ, (NDA.vec xs).shape = [xs.length] := by intro xs; simp [NDA.vec, NDA.shape]
  cases cls with
  | base =>
    have e : ∀ j, abFactor .base j = 1 := by intro j; simp [abFactor, abOffset]
    have hid : ∀ l : List ℝ, l.mapIdx (fun _ x => x) = l := by
      intro l
      apply List.ext_getElem?
      intro j
      rw [List.getElem?_mapIdx, Option.map_id']
    simp only [toAb, e]
    simp [hid]
  | sdss =>
    obtain ⟨out, h1, h2, h3, h4, _, h5⟩ := abCorrect_real (.vec m) (some (.vec iv)) abfixDefault (hwf m) (by rw [lastAxis, hsh, show m.length = 5 from h]; rfl) rfl
      (by intro v hv; cases hv; exact ⟨hwf iv, by rw [hsh, hsh, hl]⟩)
    obtain ⟨w, hw, k1, k2, k3⟩ := h5 (.vec iv) rfl
    have hfac : ∀ j, j < 5 → ∃ φ : ℝ, (abfixDefault (α := ℝ))[j]? = some φ ∧ (10 : ℝ) ^ (-0.4 * φ) = abFactor .sdss j := by
      intro j h5
      interval_cases j <;> refine ⟨_, rfl, ?_⟩ <;> simp [abFactor, abOffset, gstOffset]
    have e1 : out.maggies = .vec (m.mapIdx (fun j x => x * abFactor .sdss j)) := by
      apply vec_ext h3 (by rw [h2, hsh]; simp)
      intro j
      rw [h4, hent, List.getElem?_mapIdx]
      by_cases hj : j < m.length
      · obtain ⟨φ, p1, p2⟩ := hfac j (by have : m.length = 5 := h; omega)
        rw [List.getElem?_eq_getElem hj, p1, ← p2]; rfl
      · rw [List.getElem?_eq_none (by omega)]; rfl
    have e2 : w = .vec (iv.mapIdx (fun j x => x / abFactor .sdss j ^ 2)) := by
      apply vec_ext k2 (by rw [k1, hsh]; simp)
      intro j
      rw [k3, hent, List.getElem?_mapIdx]
      by_cases hj : j < iv.length
      · obtain ⟨φ, p1, p2⟩ := hfac j (by have : m.length = 5 := h; omega)
        rw [List.getElem?_eq_getElem hj, p1, ← p2]; rfl
      · rw [List.getElem?_eq_none (by omega)]; rfl
    show sdssAbCorrect _ _ _ = _
    rw [h1, ← e1, ← e2, ← hw]
  | gst =>
    obtain ⟨out, w, h1, h2, h3, h4, h5, h6, h7⟩ := C88_gst_partial (.vec m) (.vec iv) (hwf m) (hwf iv) (by rw [hsh, hsh, hl]) m.length
      (by rw [lastAxis, hsh]; rfl) h
    rw [h1]
    have e1 : out = .vec (m.mapIdx (fun j x => x * abFactor .gst j)) := by
      apply vec_ext h2 (by rw [h4, hsh]; simp)
      intro j
      rw [h6, hent, List.getElem?_mapIdx]; rfl
    have e2 : w = .vec (iv.mapIdx (fun j x => x / abFactor .gst j ^ 2)) := by
      apply vec_ext h3 (by rw [h5, hsh]; simp [hl])
      intro j
      rw [h7, hent, List.getElem?_mapIdx]; rfl
    rw [e1, e2]

theorem mag_factor (cls : Cls) (j : Nat) (x : ℝ) (hx : 0 < x) : mag (x * abFactor cls j) = mag x + abOffset cls j := by
  unfold mag abFactor
  rw [Real.logb_mul hx.ne' (Real.rpow_pos_of_pos (by norm_num) _).ne', Real.logb_rpow (by norm_num) (by norm_num)]
  ring

theorem shapes_one {nb nt : Nat} (z : ℝ) (m iv : List ℝ) (c : Option (List ℝ)) (hm : m.length = nb) (hiv : iv.length = nb)
    (hc : ∀ l ∈ c, l.length = nt) : ShapesMatch nb nt (some (.scalar z)) (some (.vec m)) (some (.vec iv)) (c.map .vec) := by
  refine ⟨_, rfl, Or.inl ⟨rfl, ?_, ?_, ?_⟩⟩
  · intro a ha; cases ha; simp [NDA.shape, NDA.vec, hm]
  · intro a ha; cases ha; simp [NDA.shape, NDA.vec, hiv]
  · intro a ha
    cases c with
    | none => cases ha
    | some l => cases ha; simp [NDA.shape, NDA.vec, hc l rfl]

/-- Absolute magnitudes of one object: those of a plain object on the corrected values. -/
theorem absmag_eff (K : Kc ℝ) (hr : AbReady K.abCls K.responses.length) (z : ℝ) (m iv c : List ℝ) (hm : m.length = K.responses.length)
    (hiv : iv.length = K.responses.length) (hc : c.length = K.templates.nsed) (bs : ℝ) (d : Option (NDA ℝ)) (x y w : Bool) :
    K.absmag (some (.vec m)) (some (.vec iv)) (some (.scalar z)) (some (.vec c)) bs d x y w =
      K.plain.absmag (some (.vec (m.mapIdx (fun j x => x * abFactor K.abCls j)))) (some (.vec (iv.mapIdx (fun j x => x / abFactor K.abCls j ^ 2))))
        (some (.scalar z)) (some (.vec c)) bs d x y w := by
  have e := process_eff K.toFitter (some (.scalar z)) (.vec m) (some (.vec iv)) (some (.vec c)) (by intro a ha; cases ha; trivial)
    (shapes_one z m iv (some c) hm hiv (by intro l hl; cases hl; exact hc))
  rw [toAb_vec K.abCls m iv (by rw [hm]; exact hr) (by omega), ok_bind] at e
  unfold Kc.absmag
  rw [e, absmagI_plain]
  rfl

/-- C70 in every class, with the correction on or off: one object has absolute magnitudes exactly if it has K-corrections, and each entry
is the corrected magnitude minus distance modulus minus K-correction where the mapped maggies and ivar are positive, -9999 otherwise. -/
theorem C70_corrected_partial (K : Kc ℝ) (hr : AbReady K.abCls K.responses.length) (A Ao : AMat ℝ) (hA : K.Amatrix = some A)
    (hAo : K.AmatrixOut = some Ao) (z : ℝ) (m iv c : List ℝ) (hm : m.length = K.responses.length) (hiv : iv.length = K.responses.length)
    (hc : c.length = K.templates.nsed) (bs : ℝ) (dist : Option ℝ) (hd : ∀ d ∈ dist, 0 < d) :
    ((∃ a, K.absmag (some (.vec m)) (some (.vec iv)) (some (.scalar z)) (some (.vec c)) bs (dist.map .scalar) false false false = .ok (.one a)) ↔
      ∃ k, K.kcorrect (some (.scalar z)) (some (.vec c)) bs = .ok k) ∧
    ∀ a k, K.absmag (some (.vec m)) (some (.vec iv)) (some (.scalar z)) (some (.vec c)) bs (dist.map .scalar) false false false = .ok (.one a) →
      K.kcorrect (some (.scalar z)) (some (.vec c)) bs = .ok k →
      a.shape = k.shape ∧ ∀ (j i : Nat) mv v kv, K.imap[j]? = some i → m[i]? = some mv → iv[i]? = some v → entry k 0 j = some kv →
        entry a 0 j = some (if 0 < mv ∧ 0 < v then mag mv + abOffset K.abCls i - dmSpec K.distmod z dist - kv else -9999) := by
  rw [absmag_eff K hr z m iv c hm hiv hc, ← kcorrect_plain]
  obtain ⟨h1, h2⟩ := C70_formula_partial K.plain (Or.inl rfl) A Ao hA hAo z (m.mapIdx (fun j x => x * abFactor K.abCls j))
    (iv.mapIdx (fun j x => x / abFactor K.abCls j ^ 2)) c (by rw [List.length_mapIdx]; exact hm) (by rw [List.length_mapIdx]; exact hiv) hc bs dist hd
  refine ⟨h1, fun a k ha hk => ?_⟩
  obtain ⟨h3, h4⟩ := h2 a k ha hk
  refine ⟨h3, fun j i mv v kv hj hmi hvi hkv => ?_⟩
  have hf := abFactor_pos K.abCls i
  rw [h4 j i (mv * abFactor K.abCls i) (v / abFactor K.abCls i ^ 2) kv hj (by rw [List.getElem?_mapIdx, hmi]; rfl)
    (by rw [List.getElem?_mapIdx, hvi]; rfl) hkv]
  have e1 : 0 < mv * abFactor K.abCls i ↔ 0 < mv := by rw [mul_pos_iff_of_pos_right hf]
  have e2 : 0 < v / abFactor K.abCls i ^ 2 ↔ 0 < v := by rw [div_pos_iff_of_pos_right (pow_pos hf 2)]
  by_cases hp : 0 < mv ∧ 0 < v
  · rw [if_pos hp, if_pos (by rw [e1, e2]; exact hp), mag_factor _ _ _ hp.1]; rfl
  · rw [if_neg hp, if_neg (by rw [e1, e2]; exact hp)]

/-! ### Monte Carlo samples (C97) -/

/-- Fit of one object: that of a plain object to the corrected values. -/
theorem fit_eff (nnls : Nnls ℝ) (F : Fitter ℝ) (hr : AbReady F.abCls F.responses.length) (z : ℝ) (m iv : List ℝ) (hm : m.length = F.responses.length)
    (hiv : iv.length = F.responses.length) (mc : Nat) (noise : Nat → Nat → Nat → ℝ) :
    F.fitCoeffs nnls (some (.scalar z)) (some (.vec m)) (some (.vec iv)) mc noise =
      F.plain.fitCoeffs nnls (some (.scalar z)) (some (.vec (m.mapIdx (fun j x => x * abFactor F.abCls j))))
        (some (.vec (iv.mapIdx (fun j x => x / abFactor F.abCls j ^ 2)))) mc noise := by
  have e := process_eff F (some (.scalar z)) (.vec m) (some (.vec iv)) none (by intro a ha; cases ha; trivial)
    (shapes_one z m iv none hm hiv (by intro l hl; cases hl))
  rw [toAb_vec F.abCls m iv (by rw [hm]; exact hr) (by omega), ok_bind] at e
  unfold Fitter.fitCoeffs Fitter.fitCoeffsI
  rw [e, fitOne_plain, fitPass_plain]
  rfl

theorem absmag_plain_shape (K : Kc ℝ) {A Ao : AMat ℝ} (hA : K.Amatrix = some A) (hAo : K.AmatrixOut = some Ao) (z : ℝ) (m iv c : List ℝ)
    (hm : m.length = K.responses.length) (hiv : iv.length = K.responses.length) (hc : c.length = K.templates.nsed) (bs : ℝ) (dist : Option ℝ)
    (r l kk : Bool) (out : Ret ℝ)
    (h : K.plain.absmag (some (.vec m)) (some (.vec iv)) (some (.scalar z)) (some (.vec c)) bs (dist.map .scalar) r l kk = .ok out) :
    ∀ y ∈ out.list, ∃ row, y = .arr [] Ao.nrow [row] := by
  rw [absmag_scalar (K := K.plain) (Or.inl rfl) hA hAo z m iv c hm hiv hc] at h
  revert h
  generalize absOne _ A Ao id r l kk bs _ _ _ _ _ = X
  intro h
  cases X with
  | error e => cases h
  | ok rows =>
    simp only [Except.map, Except.ok.injEq] at h
    subst h
    intro y hy
    rw [ret_list] at hy
    obtain ⟨row, _, rfl⟩ := List.mem_map.mp hy
    exact ⟨row, rfl⟩

/-- C75 in every class for one galaxy, with as many output bands as input bands: sample `k` of the result holds the values of `absmag`
on the `k`-th maggies and coefficients. -/
theorem C75_corrected_partial (K : Kc ℝ) (hr : AbReady K.abCls K.responses.length) (A Ao : AMat ℝ) (hA : K.Amatrix = some A)
    (hAo : K.AmatrixOut = some Ao) (hn : Ao.nrow = K.responses.length) (mc : Nat) (mrows crows : List (List ℝ)) (hm : mrows.length = K.responses.length)
    (hc : crows.length = K.templates.nsed) (z : ℝ) (iv : List ℝ) (hiv : iv.length = K.responses.length) (bs : ℝ) (dist : Option ℝ)
    (r kk : Bool) :
    ((∃ ret, K.absmagMc (.arr [K.responses.length] mc mrows) (some (.vec iv)) (some (.scalar z)) (.arr [K.templates.nsed] mc crows) bs
        (dist.map .scalar) r kk = .ok ret) ↔
      ∀ k < mc, ∃ out, K.absmag (some (.vec (column mrows k))) (some (.vec iv)) (some (.scalar z))
        (some (.vec (column crows k))) bs (dist.map .scalar) r false kk = .ok out) ∧
    ∀ ret, K.absmagMc (.arr [K.responses.length] mc mrows) (some (.vec iv)) (some (.scalar z)) (.arr [K.templates.nsed] mc crows) bs
        (dist.map .scalar) r kk = .ok ret → ∀ k < mc, ∃ out, K.absmag (some (.vec (column mrows k))) (some (.vec iv)) (some (.scalar z))
        (some (.vec (column crows k))) bs (dist.map .scalar) r false kk = .ok out ∧
        out.list.length = ret.list.length ∧ ∀ (t : Nat) x y, ret.list[t]? = some x → out.list[t]? = some y →
          x.shape = y.shape ++ [mc] ∧ ∀ (j : Nat) v, j < K.responses.length → entry y 0 j = some v → entry x j k = some v := by
  have e : ∀ k, sampleAbs K [K.responses.length] mrows (some (.vec iv)) (some (.scalar z)) [K.templates.nsed] crows bs
      (dist.map .scalar) r kk k = K.absmag (some (.vec (column mrows k))) (some (.vec iv)) (some (.scalar z))
        (some (.vec (column crows k))) bs (dist.map .scalar) r false kk := by
    intro k
    unfold sampleAbs
    rw [ofFlat_one _ _ (by simpa using hm), ofFlat_one _ _ (by simpa using hc)]
    simp [column, ent]
  have hsh : ∀ k out, K.absmag (some (.vec (column mrows k))) (some (.vec iv)) (some (.scalar z))
        (some (.vec (column crows k))) bs (dist.map .scalar) r false kk = .ok out → ∀ y ∈ out.list, ∃ row, y = .arr [] Ao.nrow [row] := by
    intro k out ho
    rw [absmag_eff K hr z _ iv _ (by simpa [column] using hm) hiv (by simpa [column] using hc)] at ho
    exact absmag_plain_shape K hA hAo z _ _ _ (by simpa [column] using hm) (by simpa using hiv) (by simpa [column] using hc) bs dist _ _ _ out ho
  have hs : ∀ k < mc, ∀ out, sampleAbs K [K.responses.length] mrows (some (.vec iv)) (some (.scalar z)) [K.templates.nsed] crows bs
      (dist.map .scalar) r kk k = .ok out → ∀ y ∈ out.list, y.shape = [K.responses.length] := by
    intro k _ out h y hy
    obtain ⟨row, rfl⟩ := hsh k out ((e k).symm.trans h) y hy
    simp [NDA.shape, hn]
  obtain ⟨h1, h2⟩ := absmagMc_core K [K.responses.length] mc mrows (some (.vec iv)) (some (.scalar z)) [K.templates.nsed] crows bs
    (dist.map .scalar) r kk hs
  refine ⟨by simpa only [e] using h1, fun ret h k hk => ?_⟩
  obtain ⟨out, g1, g2, g3⟩ := h2 ret h k hk
  rw [e k] at g1
  refine ⟨out, g1, g2, fun t x y hx hy => ?_⟩
  obtain ⟨g4, g5⟩ := g3 t x y hx hy
  obtain ⟨row, rfl⟩ := hsh k out g1 y (List.mem_of_getElem? hy)
  refine ⟨by rw [g4]; simp [NDA.shape, hn], fun j v hj hv => ?_⟩
  have := g5 j v (by simpa using hj) (by simpa [entry, NDA.flat] using hv)
  simpa using this

/-- Samples without noise: every one has the corrected maggies and the coefficients of the fit. -/
theorem noiseless_samples (nnls : Nnls ℝ) (hlen : NnlsLen nnls) (K : Kc ℝ) (hr : AbReady K.abCls K.responses.length)
    (hnb : K.responses.length ≠ 1) (A : AMat ℝ) (hA : K.Amatrix = some A) (z : ℝ) (m iv : List ℝ)
    (hm : m.length = K.responses.length) (hiv : iv.length = K.responses.length) (hpos : ∀ v ∈ iv, 0 ≤ v) (mc : Nat) (hmc : 0 < mc)
    (c : List ℝ) (cm mm : NDA ℝ)
    (hfit : K.toFitter.fitCoeffs nnls (some (.scalar z)) (some (.vec m)) (some (.vec iv)) mc (fun _ _ _ => 0) = .ok ⟨.vec c, some (cm, mm)⟩) :
    ∃ cm' mm', cm = .arr [K.templates.nsed] mc cm' ∧ mm = .arr [K.responses.length] mc mm' ∧ cm'.length = K.templates.nsed ∧
      mm'.length = K.responses.length ∧ ∀ s < mc, column mm' s = m.mapIdx (fun j x => x * abFactor K.abCls j) ∧ column cm' s = c := by
  rw [fit_eff nnls K.toFitter hr z m iv hm hiv] at hfit
  obtain ⟨p, _, hp⟩ := C55_monte_carlo nnls hlen K.toFitter.plain (Or.inl rfl) hnb A hA z
    (m.mapIdx (fun j x => x * abFactor K.toFitter.abCls j)) (iv.mapIdx (fun j x => x / abFactor K.toFitter.abCls j ^ 2))
    (by rw [List.length_mapIdx]; exact hm) (by rw [List.length_mapIdx]; exact hiv)
    (by
      intro w hw
      obtain ⟨i, hi, rfl⟩ := List.mem_iff_getElem.mp hw
      rw [List.getElem_mapIdx]
      exact div_nonneg (hpos _ (List.getElem_mem _)) (by positivity))
  obtain ⟨f0, cm', mm', hmc', hl1, hl2, hl3, hl4, hcol⟩ := hp mc hmc _ _ hfit
  cases hmc'
  refine ⟨cm', mm', rfl, rfl, hl1, hl2, fun s hs => ?_⟩
  obtain ⟨c1, c2, c3⟩ := hcol s hs
  have hcolm : column mm' s = m.mapIdx (fun j x => x * abFactor K.toFitter.abCls j) := by
    apply List.ext_getElem?
    intro j
    by_cases hjm : j < m.length
    · have hji : j < iv.length := by omega
      have g1 : (m.mapIdx (fun j x => x * abFactor K.toFitter.abCls j))[j]? = some (m[j] * abFactor K.toFitter.abCls j) := by
        rw [List.getElem?_mapIdx, List.getElem?_eq_getElem hjm]; rfl
      have g2 : (iv.mapIdx (fun j x => x / abFactor K.toFitter.abCls j ^ 2))[j]? = some (iv[j] / abFactor K.toFitter.abCls j ^ 2) := by
        rw [List.getElem?_mapIdx, List.getElem?_eq_getElem hji]; rfl
      rcases (hpos _ (List.getElem_mem hji)).lt_or_eq with h | h
      · rw [g1, c3 j _ _ g1 g2 (div_pos h (pow_pos (abFactor_pos _ _) 2))]
        simp
      · rw [g1]
        exact c2 j _ g1 (by rw [g2, ← h, zero_div])
    · rw [List.getElem?_eq_none (by rw [column, List.length_map, hl2]; have : K.toFitter.plain.responses.length = K.responses.length := rfl; omega),
        List.getElem?_eq_none (by rw [List.length_mapIdx]; omega)]
  rw [hcolm, f0] at c1
  have hcc : c = column cm' s := by
    simp only [NDA.vec, Except.ok.injEq, FitOut.mk.injEq, NDA.arr.injEq, List.cons.injEq, and_true, true_and] at c1
    exact c1.2
  exact ⟨hcolm, hcc.symm⟩

/-- C97: samples without noise have the coefficients of the fit and the corrected maggies, and the Monte Carlo absolute magnitudes made
from them contain the AB correction twice, where `absmag` on the caller's maggies contains it once. -/
theorem C97_samples (nnls : Nnls ℝ) (hlen : NnlsLen nnls) (K : Kc ℝ) (hr : AbReady K.abCls K.responses.length) (hnb : K.responses.length ≠ 1)
    (A Ao : AMat ℝ) (hA : K.Amatrix = some A) (hAo : K.AmatrixOut = some Ao) (hn : Ao.nrow = K.responses.length) (z : ℝ) (m iv : List ℝ)
    (hm : m.length = K.responses.length) (hiv : iv.length = K.responses.length) (hpos : ∀ v ∈ iv, 0 ≤ v) (mc : Nat) (hmc : 0 < mc)
    (c : List ℝ) (cm mm : NDA ℝ)
    (hfit : K.toFitter.fitCoeffs nnls (some (.scalar z)) (some (.vec m)) (some (.vec iv)) mc (fun _ _ _ => 0) = .ok ⟨.vec c, some (cm, mm)⟩)
    (bs : ℝ) (dist : Option ℝ) (hd : ∀ d ∈ dist, 0 < d) (x y k : NDA ℝ)
    (hx : K.absmagMc mm (some (.vec iv)) (some (.scalar z)) cm bs (dist.map .scalar) false false = .ok (.one x))
    (hy : K.absmag (some (.vec m)) (some (.vec iv)) (some (.scalar z)) (some (.vec c)) bs (dist.map .scalar) false false false = .ok (.one y))
    (hk : K.kcorrect (some (.scalar z)) (some (.vec c)) bs = .ok k)
    (s : Nat) (hs : s < mc) (j i : Nat) (mv v kv : ℝ) (hj : K.imap[j]? = some i) (hjn : j < K.responses.length) (hmi : m[i]? = some mv)
    (hvi : iv[i]? = some v) (hkv : entry k 0 j = some kv) (h0 : 0 < mv) (hv : 0 < v) :
    entry y 0 j = some (mag mv + abOffset K.abCls i - dmSpec K.distmod z dist - kv) ∧
    entry x j s = some (mag mv + 2 * abOffset K.abCls i - dmSpec K.distmod z dist - kv) := by
  obtain ⟨cm', mm', rfl, rfl, hl1, hl2, hcol⟩ := noiseless_samples nnls hlen K hr hnb A hA z m iv hm hiv hpos mc hmc c cm mm hfit
  obtain ⟨hcolm, hcc⟩ := hcol s hs
  have hc : c.length = K.templates.nsed := by
    rw [← hcc, column, List.length_map, hl1]
  obtain ⟨o, ho, hol, hval⟩ := (C75_corrected_partial K hr A Ao hA hAo hn mc mm' cm' hl2 hl1 z iv hiv bs dist false false).2 _ hx s hs
  rw [hcolm, hcc] at ho
  obtain ⟨_, f1⟩ := C70_corrected_partial K hr A Ao hA hAo z m iv c hm hiv hc bs dist hd
  obtain ⟨f3, f2⟩ := C70_corrected_partial K hr A Ao hA hAo z (m.mapIdx (fun j x => x * abFactor K.toFitter.abCls j)) iv c
    (by rw [List.length_mapIdx]; exact hm) hiv hc bs dist hd
  refine ⟨by rw [(f1 y k hy hk).2 j i mv v kv hj hmi hvi hkv, if_pos ⟨h0, hv⟩], ?_⟩
  obtain ⟨a, ha⟩ := f3.mpr ⟨k, hk⟩
  rw [ha] at ho
  cases ho
  refine (hval 0 x a rfl rfl).2 j _ hjn ?_
  have hf := abFactor_pos K.abCls i
  rw [(f2 a k ha hk).2 j i (mv * abFactor K.abCls i) v kv hj (by rw [List.getElem?_mapIdx, hmi]; rfl) hvi hkv, if_pos ⟨mul_pos h0 hf, hv⟩,
    mag_factor _ _ _ h0]
  congr 1; ring

/-- C97 where there is no correction to apply: the Monte Carlo absolute magnitudes of noiseless samples are those of `absmag`. -/
theorem C97_partial (nnls : Nnls ℝ) (hlen : NnlsLen nnls) (K : Kc ℝ) (hcls : K.abcorrect = false ∨ K.cls = .base) (hnb : K.responses.length ≠ 1)
    (A Ao : AMat ℝ) (hA : K.Amatrix = some A) (hAo : K.AmatrixOut = some Ao) (hn : Ao.nrow = K.responses.length) (z : ℝ) (m iv : List ℝ)
    (hm : m.length = K.responses.length) (hiv : iv.length = K.responses.length) (hpos : ∀ v ∈ iv, 0 ≤ v) (mc : Nat) (hmc : 0 < mc)
    (c : List ℝ) (cm mm : NDA ℝ)
    (hfit : K.toFitter.fitCoeffs nnls (some (.scalar z)) (some (.vec m)) (some (.vec iv)) mc (fun _ _ _ => 0) = .ok ⟨.vec c, some (cm, mm)⟩)
    (bs : ℝ) (dist : Option ℝ) (x y : NDA ℝ)
    (hx : K.absmagMc mm (some (.vec iv)) (some (.scalar z)) cm bs (dist.map .scalar) false false = .ok (.one x))
    (hy : K.absmag (some (.vec m)) (some (.vec iv)) (some (.scalar z)) (some (.vec c)) bs (dist.map .scalar) false false false = .ok (.one y))
    (s : Nat) (hs : s < mc) (j : Nat) (v : ℝ) (hj : j < K.responses.length) (h : entry y 0 j = some v) : entry x j s = some v := by
  have hb : K.abCls = .base := by
    unfold Fitter.abCls
    rcases hcls with h | h <;> simp [h]
  have hr : AbReady K.abCls K.responses.length := by rw [hb]; trivial
  obtain ⟨cm', mm', rfl, rfl, hl1, hl2, hcol⟩ := noiseless_samples nnls hlen K hr hnb A hA z m iv hm hiv hpos mc hmc c cm mm hfit
  obtain ⟨hcolm, hcc⟩ := hcol s hs
  obtain ⟨o, ho, hol, hval⟩ := (C75_corrected_partial K hr A Ao hA hAo hn mc mm' cm' hl2 hl1 z iv hiv bs dist false false).2 _ hx s hs
  have : m.mapIdx (fun j x => x * abFactor K.abCls j) = m := by
    rw [hb]
    apply List.ext_getElem?
    intro j
    rw [List.getElem?_mapIdx]
    simp [abFactor, abOffset]
  rw [hcolm, hcc, this, hy] at ho
  cases ho
  exact (hval 0 x y rfl rfl).2 j v hj h

/-! ### A concrete SDSS object -/

/-- a solver that always returns -/
def NnlsReturns (nnls : Nnls ℝ) : Prop := ∀ n A b it, ∃ x, nnls n A b it = .ok x

theorem solve_returns {nnls : Nnls ℝ} (h : NnlsReturns nnls) (n : Nat) (A : List (List ℝ)) (b : List ℝ) : ∃ x, solve nnls n A b = .ok x := by
  unfold solve
  obtain ⟨x, hx⟩ := h n A b none
  rw [hx]
  exact ⟨x, rfl⟩

theorem fit_mc_returns {nnls : Nnls ℝ} (hlen : NnlsLen nnls) (F : Fitter ℝ) (hret : ∀ A b, ∃ x, solve nnls F.templates.nsed A b = .ok x) (hF : NoAb F) (hnb : F.responses.length ≠ 1)
    (A : AMat ℝ) (hA : F.Amatrix = some A) (z : ℝ) (M : List (List ℝ)) (hz : A.at z = .ok M) (hM : M.length = F.responses.length) (m iv : List ℝ)
    (hm : m.length = F.responses.length) (hiv : iv.length = F.responses.length) (mc : Nat) (hmc : 0 < mc) (noise : Nat → Nat → Nat → ℝ) :
    ∃ c cm mm, F.fitCoeffs nnls (some (.scalar z)) (some (.vec m)) (some (.vec iv)) mc noise = .ok ⟨.vec c, some (cm, mm)⟩ := by
  rw [fit_scalar nnls hF hnb z m iv hm hiv]
  simp only [real_f32, map_f32_list]
  unfold fitU
  rw [fit1_in hA hz _ (hiv.trans hM.symm)]
  obtain ⟨c, hc⟩ := hret (weighted (iv.map Arith.sqrt) M) (rhs m (iv.map Arith.sqrt))
  rw [hc, ok_bind, if_neg (by omega)]
  simp only
  generalize (List.range mc).map (fun k => mcMaggies (noise 0 k) m (iv.map Arith.sqrt)) = mm
  obtain ⟨cs, hcs⟩ : ∃ cs, mm.mapM (fun mk => do
          storeRow F.templates.nsed (.vec (← solve nnls F.templates.nsed (weighted (iv.map Arith.sqrt) M) (rhs mk (iv.map Arith.sqrt))))) = .ok cs := by
    apply mapM_exists
    intro mk _
    obtain ⟨ck, hck⟩ := hret (weighted (iv.map Arith.sqrt) M) (rhs mk (iv.map Arith.sqrt))
    exact ⟨_, by rw [hck, ok_bind, storeRow_vec (solve_len hlen hck)]⟩
  rw [hcs]
  simp only [ok_bind, pure_py, unpack, Except.map, outOne, if_neg (show ¬ mc = 0 by omega)]
  exact ⟨_, _, _, rfl⟩

noncomputable def demoAm5 : AMat ℝ := ⟨[0, 1], [[[1], [1], [1], [1], [1]], [[2], [2], [2], [1], [1]]], 5, 1⟩

theorem demoAm5_good : demoAm5.Good :=
  ⟨by simp [demoAm5], by simp [demoAm5], by simp [demoAm5], by simp [demoAm5, Shaped]⟩

noncomputable def demoTmpl5 : Tmpl ℝ := ⟨⟨[1, 2], [[1, 1]], [1, 2], [[1, 1]], 0, false, none, false⟩, [2], [1], [1 / 50], [1], [1], [0]⟩

/-- `KcorrectSDSS(responses=['u', 'g', 'r', 'i', 'z'], abcorrect=True, redshift_range=[0., 1.], nredshift=2)` with one template -/
noncomputable def demoSdss : Kc ℝ :=
  ⟨{ Fitter.mk' .sdss [['u'], ['g'], ['r'], ['i'], ['z']] (.template demoTmpl5) 0 1 2 true with Amatrix := some demoAm5, redshifts := [0, 1] },
    [['u'], ['g'], ['r'], ['i'], ['z']], [['u'], ['g'], ['r'], ['i'], ['z']], some demoAm5, [0, 1, 2, 3, 4], fun z => z⟩

theorem demoAm5_at0 : demoAm5.at 0 = .ok [[1], [1], [1], [1], [1]] := at_node (k := 0) demoAm5_good (by simp [demoAm5])

theorem demoSdss_k (c : List ℝ) (hc : c.length = 1) :
    ∃ k kv, demoSdss.kcorrect (some (.scalar 0)) (some (.vec c)) 0 = .ok k ∧ entry k 0 0 = some kv := by
  rw [kcorrect_real (K := demoSdss) (A := demoAm5) (Ao := demoAm5) rfl rfl 0 c hc]
  unfold kReal
  rw [demoAm5_at0]
  simp only [ok_bind, kRow]
  split
  · exact ⟨_, _, rfl, rfl⟩
  · exact ⟨_, _, rfl, rfl⟩

theorem absmagMc_one {α : Type} [Arith α] {K : Kc α} {mm cm : NDA α} {iv z d : Option (NDA α)} {bs : α} {ret : Ret α}
    (h : K.absmagMc mm iv z cm bs d false false = .ok ret) : ∃ x, ret = .one x := by
  unfold Kc.absmagMc at h
  rw [bind_ok_iff] at h
  obtain ⟨mc, _, h⟩ := h
  cases mm with
  | scalar v => simp only at h; split at h <;> cases h
  | arr slot n rows =>
    simp only at h
    rw [bind_ok_iff] at h
    obtain ⟨outs, _, h⟩ := h
    cases h
    exact ⟨_, rfl⟩

/-- C97 is false: for the SDSS object with `abcorrect` and maggies of 1 in every band at redshift 0, `absmag` on the caller's maggies and
`absmag_mc` on the (noiseless) samples returned by `fit_coeffs` differ by the AB offset of u, 0.036 mag. -/
theorem C97_false (nnls : Nnls ℝ) (hlen : NnlsLen nnls) (hret : NnlsReturns nnls) :
    ∃ c cm mm x y a, demoSdss.toFitter.fitCoeffs nnls (some (.scalar 0)) (some (.vec [1, 1, 1, 1, 1])) (some (.vec [1, 1, 1, 1, 1])) 1
        (fun _ _ _ => 0) = .ok ⟨.vec c, some (cm, mm)⟩ ∧
      demoSdss.absmagMc mm (some (.vec [1, 1, 1, 1, 1])) (some (.scalar 0)) cm 0 none false false = .ok (.one x) ∧
      demoSdss.absmag (some (.vec [1, 1, 1, 1, 1])) (some (.vec [1, 1, 1, 1, 1])) (some (.scalar 0)) (some (.vec c)) 0 none false false false =
        .ok (.one y) ∧
      entry y 0 0 = some a ∧ entry x 0 0 = some (a - 0.036) := by
  have hr : AbReady demoSdss.abCls demoSdss.responses.length := by
    show AbReady .sdss 5
    rfl
  obtain ⟨c, cm, mm, hfit⟩ := fit_mc_returns hlen demoSdss.toFitter.plain (solve_returns hret _) (Or.inl rfl) (by show (5 : Nat) ≠ 1; decide) demoAm5 rfl 0 _ demoAm5_at0 rfl
    ([1, 1, 1, 1, 1].mapIdx (fun j x => x * abFactor demoSdss.abCls j)) ([1, 1, 1, 1, 1].mapIdx (fun j x => x / abFactor demoSdss.abCls j ^ 2)) rfl rfl 1
    (by decide) (fun _ _ _ => 0)
  rw [← fit_eff nnls demoSdss.toFitter hr 0 [1, 1, 1, 1, 1] [1, 1, 1, 1, 1] rfl rfl] at hfit
  obtain ⟨cm', mm', rfl, rfl, hl1, hl2, hcol⟩ := noiseless_samples nnls hlen demoSdss hr (by show (5 : Nat) ≠ 1; decide) demoAm5 rfl 0 _ _ rfl rfl
    (by simp) 1 (by decide) c cm mm hfit
  have hc : c.length = 1 := by
    rw [← (hcol 0 (by decide)).2, column, List.length_map, hl1]; rfl
  obtain ⟨k, kv, hk, hkv⟩ := demoSdss_k c hc
  have hab : ∀ m : List ℝ, m.length = 5 → ∃ a, demoSdss.absmag (some (.vec m)) (some (.vec [1, 1, 1, 1, 1])) (some (.scalar 0)) (some (.vec c)) 0 none
      false false false = .ok (.one a) := fun m hm =>
    (C70_corrected_partial demoSdss hr demoAm5 demoAm5 rfl rfl 0 m [1, 1, 1, 1, 1] c hm rfl hc 0 none (by simp)).1.mpr ⟨k, hk⟩
  obtain ⟨y, hy⟩ := hab [1, 1, 1, 1, 1] rfl
  obtain ⟨hex, hval⟩ := C75_corrected_partial demoSdss hr demoAm5 demoAm5 rfl rfl rfl 1 mm' cm' hl2 hl1 0 [1, 1, 1, 1, 1] rfl 0 none false false
  obtain ⟨ret, hx⟩ := hex.mpr (by
    intro s hs
    rw [(hcol s hs).1, (hcol s hs).2]
    obtain ⟨a, ha⟩ := hab ([1, 1, 1, 1, 1].mapIdx (fun j x => x * abFactor demoSdss.abCls j)) rfl
    exact ⟨_, ha⟩)
  obtain ⟨x, rfl⟩ := absmagMc_one hx
  obtain ⟨g1, g2⟩ := C97_samples nnls hlen demoSdss hr (by show (5 : Nat) ≠ 1; decide) demoAm5 demoAm5 rfl rfl rfl 0 [1, 1, 1, 1, 1] [1, 1, 1, 1, 1] rfl rfl
    (by simp) 1 (by decide) c _ _ hfit 0 none (by simp) x y k hx hy hk 0 (by decide) 0 0 1 1 kv rfl (by show (0 : Nat) < 5; decide) rfl rfl hkv
    one_pos one_pos
  refine ⟨c, _, _, x, y, _, hfit, hx, hy, g1, g2.trans ?_⟩
  have : abOffset demoSdss.abCls 0 = -0.036 := by
    show gstOffset 2 = _
    simp [gstOffset]
  rw [this]
  congr 1; ring

/-- C83 is false for a corrected object: the SDSS object with `abcorrect` is saved and reopened as a `Kcorrect`, which does not
correct: for the same maggies, redshift and coefficients the absolute magnitude in u differs by 0.036. -/
theorem C83_false_class : ∃ (K K' : Kc ℝ) (f : FitsFile ℝ) (g g' : Reg ℝ) (a a' : NDA ℝ) (v : ℝ), K.tofits = .ok f ∧
    Kc.fromfits demoLib demoDisk f K.distmod g = (g', .ok K') ∧ K.cls = .sdss ∧ K'.cls = .base ∧ K'.abcorrect = true ∧
    K.absmag (some (.vec [1, 1, 1, 1, 1])) (some (.vec [1, 1, 1, 1, 1])) (some (.scalar 0)) (some (.vec [1])) 0 none false false false = .ok (.one a) ∧
    K'.absmag (some (.vec [1, 1, 1, 1, 1])) (some (.vec [1, 1, 1, 1, 1])) (some (.scalar 0)) (some (.vec [1])) 0 none false false false = .ok (.one a') ∧
    entry a' 0 0 = some v ∧ entry a 0 0 = some (v - 0.036) := by
  have hs : Savable demoSdss demoTmpl5 demoAm5 demoAm5 :=
    ⟨rfl, by simp [Rect, demoTmpl5], by simp [demoTmpl5], rfl, rfl, demoAm5_good, demoAm5_good, rfl, rfl, rfl⟩
  have hn : ∀ n ∈ demoSdss.responses ++ demoSdss.responsesOut ++ demoSdss.responsesMap, FitsOK n := by
    intro n hn
    have : n ∈ [['u'], ['g'], ['r'], ['i'], ['z']] := by
      simp only [List.mem_append] at hn
      rcases hn with (hn | hn) | hn <;> exact hn
    simp only [List.mem_cons, List.not_mem_nil, or_false] at this
    rcases this with rfl | rfl | rfl | rfl | rfl <;> exact ⟨by simp, by simp⟩
  obtain ⟨f, t', hf, _, e2, _, _, _, _, _, _, ho⟩ := reopen demoSdss demoTmpl5 demoAm5 demoAm5 hs hn
  let g : Reg ℝ := fun _ => some ⟨none, none, none, none, none, none, none⟩
  have hg : loadMissing demoLib demoDisk demoSdss.responses g = (g, .ok ()) := loadMissing_present _ _ _ _ (fun _ _ => rfl)
  have hK := ho demoLib demoDisk demoSdss.distmod g g hg
  obtain ⟨k, kv, hk, hkv⟩ := demoSdss_k [1] rfl
  obtain ⟨h1, h2⟩ := C70_corrected_partial demoSdss rfl demoAm5 demoAm5 rfl rfl 0 [1, 1, 1, 1, 1] [1, 1, 1, 1, 1] [1] rfl rfl rfl 0 none (by simp)
  obtain ⟨a, ha⟩ := h1.mpr ⟨k, hk⟩
  generalize hK' : ({ demoSdss with cls := .base, templates := .template t', range := (Arith.trunc demoSdss.range.1, Arith.trunc demoSdss.range.2), distmod := demoSdss.distmod } : Kc ℝ) = K' at hK
  have q1 : K'.abCls = .base := by rw [← hK']; rfl
  have q2 : K'.responses.length = 5 := by rw [← hK']; rfl
  have q3 : K'.Amatrix = some demoAm5 ∧ K'.AmatrixOut = some demoAm5 ∧ K'.imap = demoSdss.imap ∧ K'.cls = .base ∧ K'.abcorrect = true ∧
      K'.distmod = demoSdss.distmod := by rw [← hK']; exact ⟨rfl, rfl, rfl, rfl, rfl, rfl⟩
  have q4 : [(1 : ℝ)].length = K'.templates.nsed := by
    rw [← hK']
    simp only [Tpl.nsed, Tpl.toSed, Sed.nsed, e2]
    rfl
  obtain ⟨p1, p2, p3, p4, p5, p6⟩ := q3
  have hk' : K'.kcorrect (some (.scalar 0)) (some (.vec [1])) 0 = .ok k := by
    rw [← hk, kcorrect_real p1 p2 0 [1] q4, kcorrect_real (K := demoSdss) (A := demoAm5) (Ao := demoAm5) rfl rfl 0 [1] rfl, p3]
  obtain ⟨h3, h4⟩ := C70_corrected_partial K' (by rw [q1]; trivial) demoAm5 demoAm5 p1 p2 0 [1, 1, 1, 1, 1] [1, 1, 1, 1, 1] [1] q2.symm q2.symm q4 0 none (by simp)
  obtain ⟨a', ha'⟩ := h3.mpr ⟨k, hk'⟩
  refine ⟨demoSdss, K', f, g, g, a, a', _, hf, hK, rfl, p4, p5, ha, ha', (h4 a' k ha' hk').2 0 0 1 1 kv (by rw [p3]; rfl) rfl rfl hkv, ?_⟩
  rw [(h2 a k ha hk).2 0 0 1 1 kv rfl rfl rfl hkv, q1, p6]
  have : abOffset demoSdss.abCls 0 = -0.036 := by
    show gstOffset 2 = _
    simp [gstOffset]
  rw [this]
  simp only [abOffset, one_pos, and_self, if_true]
  congr 1; ring

/-- C90 is false: for magnitudes of two objects and no errors, `fit_coeffs_asinh` returns: the fit of the first object's maggies with
the second object's as inverse variances. -/
theorem C90_false (nnls : Nnls ℝ) (hret : NnlsReturns nnls) (noise : Nat → Nat → Nat → ℝ) :
    ∃ mag : NDA ℝ, mag.shape = [2, 5] ∧ ∃ out, demoSdss.fitCoeffsAsinh nnls (some (.scalar 0)) mag none none noise = .ok out := by
  obtain ⟨a, b, h, ha, hb⟩ : ∃ a b : List ℝ, asinhToMaggies (.arr [2] 5 [[20, 20, 20, 20, 20], [21, 21, 21, 21, 21]]) none none =
      .ok ⟨.arr [2] 5 [a, b], none⟩ ∧ a.length = 5 ∧ b.length = 5 := by
    refine ⟨_, _, rfl, ?_, ?_⟩ <;> simp [zeros]
  refine ⟨.arr [2] 5 [[20, 20, 20, 20, 20], [21, 21, 21, 21, 21]], rfl, ?_⟩
  rw [C90_silent_split nnls demoSdss (.scalar 0) _ none noise a b 5 h]
  have e := fit_eff nnls demoSdss.toFitter rfl 0 a b ha hb 0 noise
  simp only [NDA.vec, ha, hb] at e
  rw [e]
  obtain ⟨c, hc⟩ := C57_partial nnls demoSdss.toFitter.plain (Or.inl rfl) demoAm5 rfl (by show (5 : Nat) ≠ 1; decide) 0
    (a.mapIdx (fun j x => x * abFactor demoSdss.abCls j)) (b.mapIdx (fun j x => x / abFactor demoSdss.abCls j ^ 2))
    (by rw [List.length_mapIdx]; exact ha) (by rw [List.length_mapIdx]; exact hb) _ demoAm5_at0 rfl (fun A b => hret _ A b none) noise
  exact ⟨_, hc⟩

/-! ### Not vacuous -/

/-- C97_false, C90_false: a solver that meets the assumptions. -/
example : NnlsLen (fun n _ _ _ => .ok (zeros n) : Nnls ℝ) ∧ NnlsReturns (fun n _ _ _ => .ok (zeros n)) :=
  ⟨fun n _ _ _ x h => by cases h; simp [zeros], fun n _ _ _ => ⟨_, rfl⟩⟩

/-- C88_gst_partial: a table of two objects in ten bands. -/
example : (NDA.arr [2] 10 (List.replicate 2 (List.replicate 10 (1 : ℝ)))).WF ∧ lastAxis (NDA.arr [2] 10 (List.replicate 2 (List.replicate 10 (1 : ℝ)))) 10 :=
  ⟨⟨by simp, by simp⟩, rfl⟩

/-- C89_fit_once, C89_absmag_once: single and batched input to the SDSS object. -/
example : demoSdss.abcorrect = true ∧
    ShapesMatch demoSdss.responses.length demoSdss.templates.nsed (some (.scalar 0)) (some (.vec [1, 1, 1, 1, 1])) (some (.vec [1, 1, 1, 1, 1]))
      (some (.vec [(1 : ℝ)])) ∧
    ShapesMatch demoSdss.responses.length demoSdss.templates.nsed (some (.vec [0, 1])) (some (.arr [2] 5 [[1, 1, 1, 1, 1], [1, 2, 3, 4, 5]]))
      (some (.arr [2] 5 [[1, 1, 1, 1, 1], [1, 2, 3, 4, (5 : ℝ)]])) none := by
  refine ⟨rfl, ⟨_, rfl, Or.inl ⟨rfl, ?_⟩⟩, ⟨_, rfl, Or.inr ⟨2, rfl, ?_⟩⟩⟩
  · simp [NDA.vec, NDA.shape, demoSdss, Fitter.mk', Tpl.nsed, Tpl.toSed, Sed.nsed, demoTmpl5]
  · simp [NDA.shape, demoSdss, Fitter.mk']

/-- C70_corrected_partial, C75_corrected_partial: the SDSS object. -/
example : AbReady demoSdss.abCls demoSdss.responses.length ∧ demoAm5.nrow = demoSdss.responses.length ∧
    ∃ a, demoSdss.absmag (some (.vec [1, 1, 1, 1, 1])) (some (.vec [1, 1, 1, 1, 1])) (some (.scalar 0)) (some (.vec [1])) 0 none false false false = .ok (.one a) := by
  obtain ⟨k, _, hk, _⟩ := demoSdss_k [1] rfl
  exact ⟨rfl, rfl, (C70_corrected_partial demoSdss rfl demoAm5 demoAm5 rfl rfl 0 [1, 1, 1, 1, 1] [1, 1, 1, 1, 1] [1] rfl rfl rfl 0 none (by simp)).1.mpr ⟨k, hk⟩⟩

/-- C97_partial: the same object without the correction returns samples. -/
example : NoAb demoSdss.plain.toFitter ∧ ∃ c cm mm, demoSdss.plain.toFitter.fitCoeffs (fun n _ _ _ => .ok (zeros n)) (some (.scalar 0)) (some (.vec [1, 1, 1, 1, 1]))
    (some (.vec [1, 1, 1, 1, 1])) 3 (fun _ _ _ => 0) = .ok ⟨.vec c, some (cm, mm)⟩ :=
  ⟨Or.inl rfl, fit_mc_returns (fun n _ _ _ x h => by cases h; simp [zeros]) demoSdss.plain.toFitter (solve_returns (fun n _ _ _ => ⟨_, rfl⟩) _) (Or.inl rfl)
    (by show (5 : Nat) ≠ 1; decide) demoAm5 rfl 0 _ demoAm5_at0 rfl _ _ rfl rfl 3 (by decide) _⟩

end KC
