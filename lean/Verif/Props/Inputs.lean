import Verif.Lemmas.Inputs
import Verif.Lemmas.AMat

/-!
# Input checks (C53), reconstruction (C58–C60) and the refusal of redshifts off the grid (C46, `reconstruct`)
-/

namespace KC
open Spec

/-- Shapes documented for redshift, maggies, ivar and coefficients with `nb` bands and `nt` templates: a scalar redshift with
vectors, or `n` redshifts with tables of `n` rows. -/
def ShapesMatch {α : Type} (nb nt : Nat) (redshift maggies ivar coeffs : Option (NDA α)) : Prop :=
  ∃ z, redshift = some z ∧
    ((z.shape = [] ∧ (∀ a ∈ maggies, a.shape = [nb]) ∧ (∀ a ∈ ivar, a.shape = [nb]) ∧ (∀ a ∈ coeffs, a.shape = [nt])) ∨
     ∃ n, z.shape = [n] ∧ (∀ a ∈ maggies, a.shape = [n, nb]) ∧ (∀ a ∈ ivar, a.shape = [n, nb]) ∧ (∀ a ∈ coeffs, a.shape = [n, nt]))

section generic
variable {α : Type} [Arith α]

/-- C53, shapes that do not match are refused with `ValueError` or `TypeError`, in every class. -/
theorem C53_mismatch_refused (F : Fitter α) (redshift maggies ivar coeffs : Option (NDA α)) (hw : ∀ z ∈ redshift, z.WF)
    (h : ¬ ShapesMatch F.responses.length F.templates.nsed redshift maggies ivar coeffs) :
    processInputs F redshift maggies ivar coeffs = .error .valueError ∨
    processInputs F redshift maggies ivar coeffs = .error .typeError := by
  cases redshift with
  | none => left; rfl
  | some z =>
    cases z with
    | scalar z =>
      left
      apply processInputs_err_scalar
      intro h'
      exact h ⟨_, rfl, Or.inl ⟨rfl, h'⟩⟩
    | arr lead n rows =>
      cases lead with
      | nil =>
        obtain ⟨xs, hx, hl⟩ := vec_of_shape (hw (.arr [] n rows) rfl) (n := n) rfl
        rw [hx]
        left
        apply processInputs_err_array
        intro h'
        refine h ⟨_, rfl, Or.inr ⟨n, rfl, ?_⟩⟩
        rw [hl] at h'
        exact h'
      | cons d ds => right; rfl

/-- C53, matching shapes are accepted when no AB correction is asked for (or the base class is used). -/
theorem C53_match_accepted (F : Fitter α) (hF : NoAb F) (redshift maggies ivar coeffs : Option (NDA α))
    (hw : ∀ z ∈ redshift, z.WF) (h : ShapesMatch F.responses.length F.templates.nsed redshift maggies ivar coeffs) :
    ∃ i, processInputs F redshift maggies ivar coeffs = .ok i := by
  obtain ⟨z, rfl, h⟩ := h
  rcases h with ⟨hz, h1, h2, h3⟩ | ⟨n, hz, h1, h2, h3⟩
  · obtain ⟨x, rfl⟩ := scalar_of_shape hz
    exact ⟨_, processInputs_scalar hF x _ _ _ h1 h2 h3⟩
  · obtain ⟨xs, rfl, rfl⟩ := vec_of_shape (hw z (by simp)) hz
    exact ⟨_, processInputs_array hF xs _ _ _ h1 h2 h3⟩

/-- C53 together: proceed exactly on matching shapes. -/
theorem C53_shapes_iff_partial (F : Fitter α) (hF : NoAb F) (redshift maggies ivar coeffs : Option (NDA α))
    (hw : ∀ z ∈ redshift, z.WF) :
    (∃ i, processInputs F redshift maggies ivar coeffs = .ok i) ↔
      ShapesMatch F.responses.length F.templates.nsed redshift maggies ivar coeffs := by
  constructor
  · rintro ⟨i, hi⟩
    by_contra h
    rcases C53_mismatch_refused F redshift maggies ivar coeffs hw h with h | h <;> rw [h] at hi <;> cases hi
  · exact C53_match_accepted F hF redshift maggies ivar coeffs hw

/-- The methods refuse what the checks refuse: `fit_coeffs`. -/
theorem C53_fit_coeffs_refuses (nnls : Nnls α) (F : Fitter α) (redshift maggies ivar : Option (NDA α)) (mc : Nat)
    (noise : Nat → Nat → Nat → α) (hw : ∀ z ∈ redshift, z.WF)
    (h : ¬ ShapesMatch F.responses.length F.templates.nsed redshift maggies ivar none) :
    F.fitCoeffs nnls redshift maggies ivar mc noise = .error .valueError ∨
    F.fitCoeffs nnls redshift maggies ivar mc noise = .error .typeError := by
  cases redshift with
  | none => right; rfl
  | some z =>
    rcases C53_mismatch_refused F (some z) maggies ivar none hw h with h | h
    · left; simp [Fitter.fitCoeffs, h]
    · right; simp [Fitter.fitCoeffs, h]

/-- The methods refuse what the checks refuse: `reconstruct`. -/
theorem C53_reconstruct_refuses (F : Fitter α) (Am : Option (AMat α)) (redshift coeffs : Option (NDA α)) (bs : α)
    (hw : ∀ z ∈ redshift, z.WF) (h : ¬ ShapesMatch F.responses.length F.templates.nsed redshift none none coeffs) :
    reconstructWith F Am redshift coeffs bs = .error .valueError ∨ reconstructWith F Am redshift coeffs bs = .error .typeError := by
  rcases C53_mismatch_refused F redshift none none coeffs hw h with h | h
  · left; simp [reconstructWith, h]
  · right; simp [reconstructWith, h]

/-- C53 is false with AB correction: `KcorrectGST` raises `TypeError` on matching shapes when `ivar` is absent, and
`KcorrectSDSS` raises `TypeError` on matching shapes when it has other than five bands. -/
theorem C53_false (s : Tpl α) (lo hi : α) :
    (∃ (F : Fitter α) (z m : NDA α), z.WF ∧ m.WF ∧ F.cls = .gst ∧ F.responses.length = 7 ∧
      ShapesMatch F.responses.length F.templates.nsed (some z) (some m) none none ∧
      processInputs F (some z) (some m) none none = .error .typeError) ∧
    (∃ (F : Fitter α) (z m : NDA α), z.WF ∧ m.WF ∧ F.cls = .sdss ∧
      ShapesMatch F.responses.length F.templates.nsed (some z) (some m) none none ∧
      processInputs F (some z) (some m) none none = .error .typeError) := by
  constructor
  · refine ⟨Fitter.mk' .gst (List.replicate 7 ['x']) s lo hi 2 true, .scalar lo, .vec (zeros 7), trivial, by simp [NDA.vec, NDA.WF],
      rfl, rfl, ⟨_, rfl, Or.inl ⟨rfl, ?_, by simp, by simp⟩⟩, ?_⟩
    · intro a ha; cases ha; rfl
    · rfl
  · refine ⟨Fitter.mk' .sdss (List.replicate 4 ['x']) s lo hi 2 true, .scalar lo, .vec (zeros 4), trivial, by simp [NDA.vec, NDA.WF],
      rfl, ⟨_, rfl, Or.inl ⟨rfl, ?_, by simp, by simp⟩⟩, ?_⟩
    · intro a ha; cases ha; rfl
    · rfl

/-- Not vacuous: two redshifts, two bands. -/
example (s : Tpl α) (a : α) : NoAb (Fitter.mk' .base [['x'], ['y']] s a a 2 false) ∧
    ShapesMatch 2 s.nsed (some (.vec [a, a])) (some (.mat 2 [[a, a], [a, a]])) none none :=
  ⟨Or.inl rfl, _, rfl, Or.inr ⟨2, rfl, by intro b hb; cases hb; rfl, by simp, by simp⟩⟩

/-! ### Reconstruction -/

/-- `reconstruct` of one object. -/
theorem recon_scalar (F : Fitter α) (Am : AMat α) (z : α) (c : List α) (bs : α) (hc : c.length = F.templates.nsed) :
    reconstructWith F (some Am) (some (.scalar z)) (some (.vec c)) bs =
      (Am.at (shiftOf (f32 z) bs)).map (fun M => .arr [] Am.nrow [reconRow bs M (c.map f32)]) := by
  unfold reconstructWith reconI
  have : processInputs F (some (.scalar z)) none none (some (.vec c)) = .ok ⟨false, [f32 z], none, none, some [c.map f32]⟩ := by
    unfold processInputs
    simp only [Option.map_some, NDA.map, ok_bind, checkTable]
    rw [if_pos (by simp [NDA.vec, NDA.shape, hc]), ok_bind]
    cases F.abcorrect <;> simp [NDA.vec, NDA.rows]
  rw [this, ok_bind]
  simp only [AMat.atAll, List.map_cons, List.map_nil, List.mapM_cons, List.mapM_nil]
  cases Am.at (shiftOf (f32 z) bs) with
  | error e => rfl
  | ok M => rfl

/-- `reconstruct` of a batch. -/
theorem recon_array (F : Fitter α) (Am : AMat α) (zs : List α) (cs : List (List α)) (bs : α) :
    reconstructWith F (some Am) (some (.vec zs)) (some (.arr [zs.length] F.templates.nsed cs)) bs =
      (Am.atAll (zs.map (fun z => shiftOf (f32 z) bs))).map (fun Ms => .arr [zs.length] Am.nrow
        (List.zipWith (reconRow bs) Ms (cs.map (List.map f32)))) := by
  unfold reconstructWith reconI
  have : processInputs F (some (.vec zs)) none none (some (.arr [zs.length] F.templates.nsed cs)) =
      .ok ⟨true, zs.map f32, none, none, some (cs.map (List.map f32))⟩ := by
    unfold processInputs
    simp only [Option.map_some, NDA.map, NDA.vec, ok_bind, checkTable, List.map_cons, List.map_nil, List.flatten_cons,
      List.flatten_nil, List.append_nil, List.length_map]
    rw [if_pos (by simp [NDA.shape]), ok_bind]
    cases F.abcorrect <;> simp [NDA.rows]
  rw [this, ok_bind]
  simp only [List.map_map, Function.comp_def]
  cases Am.atAll (zs.map (fun z => shiftOf (f32 z) bs)) with
  | error e => rfl
  | ok M => simp [Except.map, Inp.tbl]

/-- C59: a batch reconstructs exactly when every object alone does, and row `i` of the result is the result for object `i`
alone.  Any arithmetic, any batch size. -/
theorem C59_batch (F : Fitter α) (Am : AMat α) (zs : List α) (cs : List (List α)) (bs : α)
    (hcs : cs.length = zs.length) (hc : ∀ c ∈ cs, c.length = F.templates.nsed) :
    ((∃ out, reconstructWith F (some Am) (some (.vec zs)) (some (.arr [zs.length] F.templates.nsed cs)) bs = .ok out) ↔
      ∀ (i : Nat) z c, zs[i]? = some z → cs[i]? = some c →
        ∃ r, reconstructWith F (some Am) (some (.scalar z)) (some (.vec c)) bs = .ok r) ∧
    ∀ out, reconstructWith F (some Am) (some (.vec zs)) (some (.arr [zs.length] F.templates.nsed cs)) bs = .ok out →
      out.shape = [zs.length, Am.nrow] ∧
      ∀ (i : Nat) z c, zs[i]? = some z → cs[i]? = some c → ∃ r, rowOf out i = some r ∧
        reconstructWith F (some Am) (some (.scalar z)) (some (.vec c)) bs = .ok r := by
  rw [recon_array]
  have hone : ∀ (i : Nat) z c, zs[i]? = some z → cs[i]? = some c →
      reconstructWith F (some Am) (some (.scalar z)) (some (.vec c)) bs =
      (Am.at (shiftOf (f32 z) bs)).map (fun M => .arr [] Am.nrow [reconRow bs M (c.map f32)]) :=
    fun i z c hz hci => recon_scalar F Am z c bs (hc c (List.mem_of_getElem? hci))
  have hrow : ∀ out, (Am.atAll (zs.map (fun z => shiftOf (f32 z) bs))).map (fun Ms => NDA.arr [zs.length] Am.nrow
        (List.zipWith (reconRow bs) Ms (cs.map (List.map f32)))) = .ok out →
      out.shape = [zs.length, Am.nrow] ∧
      ∀ (i : Nat) z c, zs[i]? = some z → cs[i]? = some c → ∃ r, rowOf out i = some r ∧
        reconstructWith F (some Am) (some (.scalar z)) (some (.vec c)) bs = .ok r := by
    intro out hout
    cases hA : Am.atAll (zs.map (fun z => shiftOf (f32 z) bs)) with
    | error e => rw [hA] at hout; cases hout
    | ok Ms =>
      rw [hA] at hout; cases hout
      refine ⟨rfl, ?_⟩
      intro i z c hz hci
      have hf := mapM_ok_iff.mp hA
      rw [List.forall₂_map_left_iff] at hf
      obtain ⟨hi, hz'⟩ := List.getElem?_eq_some_iff.mp hz
      have hi' : i < Ms.length := by rw [← hf.length_eq]; exact hi
      have hM := (List.forall₂_iff_get.mp hf).2 i hi hi'
      simp only [List.get_eq_getElem, hz'] at hM
      refine ⟨.arr [] Am.nrow [reconRow bs Ms[i] (c.map f32)], ?_, ?_⟩
      · simp only [rowOf, List.getElem?_zipWith, List.getElem?_map, hci, List.getElem?_eq_getElem hi', Option.map_some]
      · rw [hone i z c hz hci, hM]; rfl
  refine ⟨⟨?_, ?_⟩, hrow⟩
  · rintro ⟨out, hout⟩ i z c hz hci
    obtain ⟨r, _, h⟩ := (hrow out hout).2 i z c hz hci
    exact ⟨r, h⟩
  · intro hall
    have : ∃ Ms, List.Forall₂ (fun q M => Am.at q = .ok M) (zs.map (fun z => shiftOf (f32 z) bs)) Ms := by
      have hex : ∀ q ∈ zs.map (fun z => shiftOf (f32 z) bs), ∃ M, Am.at q = .ok M := by
        intro q hq
        obtain ⟨z, hz, rfl⟩ := List.mem_map.mp hq
        obtain ⟨i, hi, rfl⟩ := List.mem_iff_getElem.mp hz
        have hi' : i < cs.length := by omega
        obtain ⟨r, hr⟩ := hall i zs[i] cs[i] (List.getElem?_eq_getElem hi) (List.getElem?_eq_getElem hi')
        rw [hone i _ _ (List.getElem?_eq_getElem hi) (List.getElem?_eq_getElem hi')] at hr
        cases hA : Am.at (shiftOf (f32 zs[i]) bs) with
        | error e => rw [hA] at hr; cases hr
        | ok M => exact ⟨M, rfl⟩
      clear hrow hall hone
      generalize zs.map (fun z => shiftOf (f32 z) bs) = l at hex
      induction l with
      | nil => exact ⟨[], .nil⟩
      | cons a t ih =>
        obtain ⟨M, hM⟩ := hex a (List.mem_cons_self)
        obtain ⟨Ms, hMs⟩ := ih (fun q hq => hex q (List.mem_cons_of_mem _ hq))
        exact ⟨M :: Ms, .cons hM hMs⟩
    obtain ⟨Ms, hMs⟩ := this
    refine ⟨.arr [zs.length] Am.nrow (List.zipWith (reconRow bs) Ms (cs.map (List.map f32))), ?_⟩
    rw [AMat.atAll, mapM_ok hMs]; rfl

end generic

/-! ### Real arithmetic -/

theorem shiftOf_real (z bs : ℝ) : shiftOf z bs = (1 + z) * (1 + bs) - 1 := by simp [shiftOf]

/-- C46 for `reconstruct`: one redshift off the grid anywhere in the batch and the call raises `ValueError`. -/
theorem C46_reconstruct (F : Fitter ℝ) (Am : AMat ℝ) (hne : Am.x ≠ []) (zs : List ℝ) (cs : List (List ℝ)) (bs z : ℝ)
    (hz : z ∈ zs) (hout : (1 + z) * (1 + bs) - 1 < Am.x.headD 0 ∨ Am.x.getLastD 0 < (1 + z) * (1 + bs) - 1) :
    reconstructWith F (some Am) (some (.vec zs)) (some (.arr [zs.length] F.templates.nsed cs)) bs = .error .valueError := by
  rw [recon_array]
  have : Am.atAll (zs.map (fun z => shiftOf (f32 z) bs)) = .error .valueError := by
    refine mapM_error_uniq (a := shiftOf z bs) ?_ ?_ ?_
    · exact List.mem_map.mpr ⟨z, hz, rfl⟩
    · apply at_out hne
      rw [shiftOf_real]
      rintro ⟨h1, h2⟩
      rcases hout with h | h <;> linarith
    · intro q _ e he
      by_cases hq : InRange Am.x q
      · rw [at_in hne hq] at he; cases he
      · rw [at_out hne hq] at he; cases he; rfl
  rw [this]; rfl

/-- C46 for `reconstruct`, one object. -/
theorem C46_reconstruct_one (F : Fitter ℝ) (Am : AMat ℝ) (hne : Am.x ≠ []) (z bs : ℝ) (c : List ℝ)
    (hc : c.length = F.templates.nsed)
    (hout : (1 + z) * (1 + bs) - 1 < Am.x.headD 0 ∨ Am.x.getLastD 0 < (1 + z) * (1 + bs) - 1) :
    reconstructWith F (some Am) (some (.scalar z)) (some (.vec c)) bs = .error .valueError := by
  rw [recon_scalar F Am z c bs hc, at_out hne]
  · rfl
  · rw [shiftOf_real]
    rintro ⟨h1, h2⟩
    simp only [real_f32] at h1 h2
    rcases hout with h | h <;> linarith

/-- In the grid the call returns (one object). -/
theorem recon_in (F : Fitter ℝ) (Am : AMat ℝ) (hne : Am.x ≠ []) (z bs : ℝ) (c : List ℝ)
    (hc : c.length = F.templates.nsed) (hin : InRange Am.x ((1 + z) * (1 + bs) - 1)) :
    ∃ M, Am.at ((1 + z) * (1 + bs) - 1) = .ok M ∧
      reconstructWith F (some Am) (some (.scalar z)) (some (.vec c)) bs = .ok (.arr [] Am.nrow [reconRow bs M c]) := by
  obtain ⟨M, hM⟩ := (at_ok_iff hne).mpr hin
  refine ⟨M, hM, ?_⟩
  have : c.map f32 = c := List.map_id c
  rw [recon_scalar F Am z c bs hc, real_f32, shiftOf_real, hM, this]; rfl

theorem sumL_real (l : List ℝ) : sumL l = l.sum := by
  induction l with
  | nil => simp [sumL]
  | cons a t ih =>
    have : sumL (a :: t) = a + sumL t := rfl
    rw [this, ih, List.sum_cons]

theorem dot_cons (a b : ℝ) (r c : List ℝ) : dot (a :: r) (b :: c) = a * b + dot r c := by
  simp [dot, sumL_real]

/-- linear combination of two vectors -/
def lincomb (a b : ℝ) (c1 c2 : List ℝ) : List ℝ := List.zipWith (fun x y => a * x + b * y) c1 c2

theorem dot_lincomb (a b : ℝ) : ∀ (row c1 c2 : List ℝ), c1.length = c2.length →
    dot row (lincomb a b c1 c2) = a * dot row c1 + b * dot row c2
  | [], c1, c2, _ => by simp [dot, sumL_real]
  | _ :: _, [], [], _ => by simp [dot, sumL_real, lincomb]
  | r :: row, x :: c1, y :: c2, h => by
    have ih := dot_lincomb a b row c1 c2 (by simpa using h)
    have : lincomb a b (x :: c1) (y :: c2) = (a * x + b * y) :: lincomb a b c1 c2 := rfl
    rw [this, dot_cons, dot_cons, dot_cons, ih]; ring

theorem reconRow_lincomb (a b bs : ℝ) (M : List (List ℝ)) (c1 c2 : List ℝ) (h : c1.length = c2.length) :
    reconRow bs M (lincomb a b c1 c2) = lincomb a b (reconRow bs M c1) (reconRow bs M c2) := by
  unfold reconRow
  induction M with
  | nil => simp [lincomb]
  | cons r M ih =>
    have e : ∀ (x y : ℝ) (X Y : List ℝ), lincomb a b (x :: X) (y :: Y) = (a * x + b * y) :: lincomb a b X Y := fun _ _ _ _ => rfl
    rw [List.map_cons, List.map_cons, List.map_cons, e, ih, dot_lincomb a b r c1 c2 h]
    congr 1; ring

/-- C58: reconstruction is linear in the coefficients, one object (`Am` is the matrix of the input or of the output bands). -/
theorem C58_linear (F : Fitter ℝ) (Am : AMat ℝ) (z bs a b : ℝ) (c1 c2 : List ℝ) (h1 : c1.length = F.templates.nsed)
    (h2 : c2.length = F.templates.nsed) (r1 r2 : NDA ℝ)
    (hr1 : reconstructWith F (some Am) (some (.scalar z)) (some (.vec c1)) bs = .ok r1)
    (hr2 : reconstructWith F (some Am) (some (.scalar z)) (some (.vec c2)) bs = .ok r2) :
    ∃ v1 v2, r1 = .arr [] Am.nrow [v1] ∧ r2 = .arr [] Am.nrow [v2] ∧ v1.length = v2.length ∧
      reconstructWith F (some Am) (some (.scalar z)) (some (.vec (lincomb a b c1 c2))) bs =
        .ok (.arr [] Am.nrow [lincomb a b v1 v2]) := by
  have e : ∀ c : List ℝ, c.map f32 = c := fun c => List.map_id c
  rw [recon_scalar F Am z _ bs h1] at hr1
  rw [recon_scalar F Am z _ bs h2] at hr2
  rw [recon_scalar F Am z _ bs (by simp [lincomb, h1, h2])]
  cases hA : Am.at (shiftOf (f32 z) bs) with
  | error er => rw [hA] at hr1; cases hr1
  | ok M =>
    rw [hA] at hr1 hr2
    cases hr1; cases hr2
    refine ⟨_, _, rfl, rfl, by simp [reconRow], ?_⟩
    simp only [Except.map, e]
    rw [reconRow_lincomb a b bs M c1 c2 (by rw [h1, h2])]

/-- C58 for a batch, by `C59_batch` row by row. -/
theorem C58_linear_batch (F : Fitter ℝ) (Am : AMat ℝ) (zs : List ℝ) (bs a b : ℝ) (cs1 cs2 : List (List ℝ))
    (l1 : cs1.length = zs.length) (l2 : cs2.length = zs.length) (h1 : ∀ c ∈ cs1, c.length = F.templates.nsed)
    (h2 : ∀ c ∈ cs2, c.length = F.templates.nsed) (r1 r2 : NDA ℝ)
    (hr1 : reconstructWith F (some Am) (some (.vec zs)) (some (.arr [zs.length] F.templates.nsed cs1)) bs = .ok r1)
    (hr2 : reconstructWith F (some Am) (some (.vec zs)) (some (.arr [zs.length] F.templates.nsed cs2)) bs = .ok r2) :
    ∃ v1 v2, r1 = .arr [zs.length] Am.nrow v1 ∧ r2 = .arr [zs.length] Am.nrow v2 ∧ v1.length = zs.length ∧ v2.length = zs.length ∧
      reconstructWith F (some Am) (some (.vec zs)) (some (.arr [zs.length] F.templates.nsed (List.zipWith (lincomb a b) cs1 cs2))) bs =
        .ok (.arr [zs.length] Am.nrow (List.zipWith (lincomb a b) v1 v2)) := by
  have e : ∀ c : List (List ℝ), c.map (List.map (f32 : ℝ → ℝ)) = c := by
    intro c
    have : (List.map (f32 : ℝ → ℝ)) = id := by funext l; exact List.map_id l
    rw [this, List.map_id]
  rw [recon_array] at hr1 hr2 ⊢
  cases hA : Am.atAll (zs.map (fun z => shiftOf (f32 z) bs)) with
  | error er => rw [hA] at hr1; cases hr1
  | ok Ms =>
    rw [hA] at hr1 hr2
    cases hr1; cases hr2
    have hl : Ms.length = zs.length := by
      have := (mapM_ok_iff.mp hA).length_eq
      simpa using this.symm
    simp only [e]
    refine ⟨_, _, rfl, rfl, by simp [hl, l1], by simp [hl, l2], ?_⟩
    simp only [Except.map]
    congr 2
    clear hA
    have key : ∀ (Ms : List (List (List ℝ))) (A B : List (List ℝ)), (∀ c ∈ A, c.length = F.templates.nsed) →
        (∀ c ∈ B, c.length = F.templates.nsed) →
        List.zipWith (reconRow bs) Ms (List.zipWith (lincomb a b) A B) =
        List.zipWith (lincomb a b) (List.zipWith (reconRow bs) Ms A) (List.zipWith (reconRow bs) Ms B) := by
      intro Ms
      induction Ms with
      | nil => intro A B _ _; simp
      | cons M Ms ih =>
        intro A B hA hB
        cases A with
        | nil => simp
        | cons x A =>
          cases B with
          | nil => simp
          | cons y B =>
            simp only [List.zipWith_cons_cons]
            rw [ih A B (fun c hc => hA c (List.mem_cons_of_mem _ hc)) (fun c hc => hB c (List.mem_cons_of_mem _ hc)),
              reconRow_lincomb a b bs M x y ((hA x (List.mem_cons_self)).trans (hB y (List.mem_cons_self)).symm)]
    exact key Ms cs1 cs2 h1 h2

theorem dot_nonneg : ∀ (r c : List ℝ), (∀ v ∈ r, 0 ≤ v) → (∀ v ∈ c, 0 ≤ v) → 0 ≤ dot r c
  | [], c, _, _ => by simp [dot, sumL_real]
  | _ :: _, [], _, _ => by simp [dot, sumL_real]
  | a :: r, b :: c, hr, hc => by
    rw [dot_cons]
    exact add_nonneg (mul_nonneg (hr a (by simp)) (hc b (by simp)))
      (dot_nonneg r c (fun v hv => hr v (List.mem_cons_of_mem _ hv)) (fun v hv => hc v (List.mem_cons_of_mem _ hv)))

/-- Every entry of the interpolated matrix is nonnegative when every stored one is. -/
theorem at_nonneg {A : AMat ℝ} (hA : A.Good) (hpos : ∀ M ∈ A.ys, ∀ row ∈ M, ∀ v ∈ row, 0 ≤ v) {q : ℝ} {M : List (List ℝ)}
    (hM : A.at q = .ok M) : ∀ row ∈ M, ∀ v ∈ row, 0 ≤ v := by
  have hq := (at_ok_iff hA.ne).mp ⟨M, hM⟩
  obtain ⟨h1, h2, h3, h4⟩ := bracket_idx hA.incr hA.two hq
  rw [at_in hA.ne hq] at hM
  cases hM
  have hys : ∀ k, k < A.x.length → ∀ row ∈ A.ys.getD k [], ∀ v ∈ row, 0 ≤ v := by
    intro k hk
    apply hpos
    rw [getD_lt (by rw [hA.len]; exact hk)]
    exact List.getElem_mem _
  intro row hrow v hv
  obtain ⟨r, hr, rfl⟩ := List.mem_iff_getElem.mp hrow
  obtain ⟨j, hj, rfl⟩ := List.mem_iff_getElem.mp hv
  simp only [linBetween, List.getElem_zipWith]
  refine le_trans (le_min ?_ ?_) (linEntry_between (ent_lt hA.incr (by omega) h2) h3 h4).1
  · exact hys _ (by omega) _ (List.getElem_mem _) _ (List.getElem_mem _)
  · exact hys _ h2 _ (List.getElem_mem _) _ (List.getElem_mem _)

/-- C60: nonnegative projections and coefficients give nonnegative maggies. -/
theorem C60_nonneg (F : Fitter ℝ) (Am : AMat ℝ) (hA : Am.Good) (hpos : ∀ M ∈ Am.ys, ∀ row ∈ M, ∀ v ∈ row, 0 ≤ v)
    (z bs : ℝ) (hbs : -1 < bs) (c : List ℝ) (hc : c.length = F.templates.nsed) (hc0 : ∀ v ∈ c, 0 ≤ v) (r : NDA ℝ)
    (hr : reconstructWith F (some Am) (some (.scalar z)) (some (.vec c)) bs = .ok r) : ∀ v ∈ r.flat, 0 ≤ v := by
  have e : c.map f32 = c := List.map_id c
  rw [recon_scalar F Am z c bs hc] at hr
  cases hA' : Am.at (shiftOf (f32 z) bs) with
  | error er => rw [hA'] at hr; cases hr
  | ok M =>
    rw [hA'] at hr; cases hr
    intro v hv
    simp only [NDA.flat, List.flatten_cons, List.flatten_nil, List.append_nil, reconRow, e, List.mem_map] at hv
    obtain ⟨row, hrow, rfl⟩ := hv
    simp only [real_lit, Rat.cast_one]
    exact div_nonneg (dot_nonneg _ _ (at_nonneg hA hpos hA' row hrow) hc0) (by linarith)

/-- C60 for a batch. -/
theorem C60_nonneg_batch (F : Fitter ℝ) (Am : AMat ℝ) (hA : Am.Good) (hpos : ∀ M ∈ Am.ys, ∀ row ∈ M, ∀ v ∈ row, 0 ≤ v)
    (zs : List ℝ) (bs : ℝ) (hbs : -1 < bs) (cs : List (List ℝ)) (hcs : cs.length = zs.length)
    (hc : ∀ c ∈ cs, c.length = F.templates.nsed) (hc0 : ∀ c ∈ cs, ∀ v ∈ c, 0 ≤ v) (out : NDA ℝ)
    (hr : reconstructWith F (some Am) (some (.vec zs)) (some (.arr [zs.length] F.templates.nsed cs)) bs = .ok out)
    (i : Nat) (r : NDA ℝ) (hi : i < zs.length) (hrow : rowOf out i = some r) : ∀ v ∈ r.flat, 0 ≤ v := by
  have hi' : i < cs.length := by omega
  obtain ⟨r', hr', h⟩ := ((C59_batch F Am zs cs bs hcs hc).2 out hr).2 i zs[i] cs[i]
    (List.getElem?_eq_getElem hi) (List.getElem?_eq_getElem hi')
  rw [hrow] at hr'; cases hr'
  exact C60_nonneg F Am hA hpos zs[i] bs hbs cs[i] (hc _ (List.getElem_mem _)) (hc0 _ (List.getElem_mem _)) r h

/-- Three nodes, one band, two templates. -/
noncomputable def demoAm : AMat ℝ := ⟨[0, 1, 3], [[[1, 2]], [[2, 0]], [[0, 4]]], 1, 2⟩

theorem demoAm_good : demoAm.Good := ⟨by simp [demoAm], by simp [demoAm], by simp [demoAm], by simp [demoAm, Shaped]⟩

/-- A fitter with one band and two templates. -/
noncomputable def demoFitter : Fitter ℝ :=
  { Fitter.mk' .base [['x']] (.sed ⟨[], [[], []], [], [[], []], 0, false, none, false⟩) 0 3 3 false with Amatrix := some demoAm }

/-- Not vacuous (C46, C58–C60): reconstruction of two objects returns. -/
theorem demo_recon (bs : ℝ) (h : bs = 0) :
    ∃ out, reconstructWith demoFitter (some demoAm) (some (.vec [(1 : ℝ) / 2, 2])) (some (.arr [2] 2 [[1, 1], [0, 3]])) bs = .ok out := by
  subst h
  refine ((C59_batch demoFitter demoAm [1 / 2, 2] [[1, 1], [0, 3]] 0 rfl (by simp [demoFitter, Fitter.mk', Tpl.nsed, Tpl.toSed, Sed.nsed])).1).mpr ?_
  intro i z c hz hc
  have hin : InRange demoAm.x ((1 + z) * (1 + 0) - 1) := by
    match i, hz with
    | 0, hz => simp at hz; subst hz; norm_num [InRange, demoAm]
    | 1, hz => simp at hz; subst hz; norm_num [InRange, demoAm]
  obtain ⟨M, _, h⟩ := recon_in demoFitter demoAm demoAm_good.ne z 0 c
    (by
      have := List.mem_of_getElem? hc
      simp only [List.mem_cons, List.not_mem_nil, or_false] at this
      rcases this with rfl | rfl <;> rfl) hin
  exact ⟨_, h⟩

example : demoAm.Good ∧ (∀ M ∈ demoAm.ys, ∀ row ∈ M, ∀ v ∈ row, 0 ≤ v) ∧ demoAm.x.getLastD 0 < (1 + 4) * (1 + 0) - 1 :=
  ⟨demoAm_good, by simp [demoAm], by norm_num [demoAm]⟩

end KC
