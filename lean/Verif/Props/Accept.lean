import Verif.Props.Asinh
import Verif.Props.Flambda
import Verif.Props.Fits

/-!
# Which arrays and files are accepted

C140: `sdss_asinh_to_maggies`, `error_floor`.  C141: `maggies2flambda`.  C142: `SED.fromfits`.  Also the default offsets of C02.
-/

namespace KC
open Spec

/-! ### C02: the default offsets -/

/-- The documented AB offsets of u, g, r, i, z (message sdss-calib/1152, quoted in the documentation). -/
noncomputable def sdssOffsets : Fin 5 → ℝ := ![-0.036, 0.012, 0.010, 0.028, 0.040]

/-- C02 for a call without `abfix`: u, g, r, i, z magnitudes change by -0.036, 0.012, 0.010, 0.028, 0.040. -/
theorem C02_default_offsets (m : NDA ℝ) (iv : Option (NDA ℝ)) (hm : m.WF) (h5 : lastAxis m 5)
    (hiv : ∀ v ∈ iv, v.WF ∧ v.shape = m.shape) :
    ∃ out, sdssAbCorrect m iv abfixDefault = .ok out ∧ out.maggies.shape = m.shape ∧
      ∀ r (k : Fin 5) x, entry m r k = some x → 0 < x →
        ∃ y, entry out.maggies r k = some y ∧ 0 < y ∧ mag y = mag x + sdssOffsets k := by
  obtain ⟨out, h1, h2, h3⟩ := C02_ab_correct_offset m iv abfixDefault hm h5 rfl hiv
  refine ⟨out, h1, h2, fun r k x hx hp => h3 r k x (sdssOffsets k) hx hp ?_⟩
  fin_cases k <;> simp [abfixDefault, sdssOffsets, real_lit] <;> norm_num

example : let m := NDA.mat 5 [[1, 2, 3, 4, (5 : ℝ)], [1, 1, 1, 1, 0]]
    m.WF ∧ lastAxis m 5 ∧ entry m 1 3 = some 1 := by
  simp [NDA.mat, NDA.WF, lastAxis, NDA.shape, entry]

/-! ### C140 -/

section generic
variable {α : Type} [Arith α]

/-- C140: `sdss_asinh_to_maggies` returns exactly when the last axis of the magnitudes has length 5 and the errors and the
extinctions, if given, have the shape of the magnitudes; what it returns has that shape, and there is an inverse variance exactly
when errors were given. -/
theorem C140_asinh (mg : NDA α) (err ext : Option (NDA α)) :
    ((∃ out, Returns (asinhToMaggies mg err ext) out) ↔
      lastAxis mg 5 ∧ (∀ e, err = some e → e.shape = mg.shape) ∧ ∀ e, ext = some e → e.shape = mg.shape) ∧
    ∀ out, Returns (asinhToMaggies mg err ext) out → out.maggies.shape = mg.shape ∧ (out.ivar = none ↔ err = none) ∧
      ∀ v, out.ivar = some v → v.shape = mg.shape := by
  have hsh : ∀ o : Option (NDA α), (∀ e ∈ o.map (NDA.map (f32 (α := α))), (mg.map f32).shape = e.shape) ↔
      ∀ e, o = some e → e.shape = mg.shape := by
    intro o
    cases o with
    | none => simp
    | some a => simp [map_shape, eq_comm]
  by_cases h1 : ∀ e, err = some e → e.shape = mg.shape
  swap
  · have : asinhToMaggies mg err ext = .error .typeError := by
      unfold asinhToMaggies
      simp only [require_false (mt (hsh err).mp h1), error_bind]
    simp [this, Returns, h1]
  by_cases h2 : ∀ e, ext = some e → e.shape = mg.shape
  swap
  · have : asinhToMaggies mg err ext = .error .typeError := by
      unfold asinhToMaggies
      simp only [require_true ((hsh err).mpr h1), require_false (mt (hsh ext).mp h2), error_bind, ok_bind]
    simp [this, Returns, h2]
  cases mg with
  | scalar x =>
    have : asinhToMaggies (.scalar x) err ext = .error .indexError := by
      unfold asinhToMaggies
      simp only [require_true ((hsh err).mpr h1), require_true ((hsh ext).mpr h2), ok_bind]
      rfl
    simp [this, Returns, lastAxis, NDA.shape]
  | arr lead ncol rows =>
    by_cases h5 : ncol = 5
    swap
    · have : asinhToMaggies (.arr lead ncol rows) err ext = .error .typeError := by
        unfold asinhToMaggies
        simp only [require_true ((hsh err).mpr h1), require_true ((hsh ext).mpr h2), ok_bind]
        simp only [NDA.map, require_false h5, error_bind]
      simp [this, Returns, lastAxis, NDA.shape, h5]
    · subst h5
      have hl : lastAxis (.arr lead 5 rows) 5 := by simp [lastAxis, NDA.shape]
      have key : ∃ m v, asinhToMaggies (.arr lead 5 rows) err ext = .ok ⟨.arr lead 5 m, v⟩ ∧ (v = none ↔ err = none) ∧
          ∀ w, v = some w → w.shape = lead ++ [5] := by
        unfold asinhToMaggies
        simp only [require_true ((hsh err).mpr h1), require_true ((hsh ext).mpr h2), ok_bind]
        simp only [NDA.map, require_true, ok_bind]
        refine ⟨_, _, rfl, ?_, ?_⟩
        · cases err with
          | none => simp
          | some e =>
            cases e with
            | scalar _ => have := h1 _ rfl; simp [NDA.shape] at this
            | arr => simp [NDA.map]
        · intro w hw
          cases err with
          | none => simp at hw
          | some e =>
            cases e with
            | scalar _ => have := h1 _ rfl; simp [NDA.shape] at this
            | arr => simp [NDA.map] at hw; rw [← hw]; rfl
      obtain ⟨m, v, k1, k2, k3⟩ := key
      refine ⟨⟨fun _ => ⟨hl, h1, h2⟩, fun _ => ⟨_, k1⟩⟩, ?_⟩
      intro out ho
      unfold Returns at ho
      rw [k1] at ho
      cases ho
      exact ⟨rfl, k2, k3⟩

/-- C140: `error_floor` on vectors and tables returns exactly when the last axis has one entry per floor value and the inverse variances
have the shape of the maggies, and what it returns has that shape. -/
theorem C140_floor (store : α → α) (floor : List α) (m iv : NDA α) (hr : m.ndim ≤ 2) :
    ((∃ out, Returns (errorFloor store floor m iv) out) ↔ lastAxis m floor.length ∧ iv.shape = m.shape) ∧
    ∀ out, Returns (errorFloor store floor m iv) out → out.shape = m.shape := by
  cases m with
  | scalar x => simp [errorFloor, Returns, lastAxis, NDA.shape, throw, throwThe, MonadExceptOf.throw]
  | arr lead ncol rows =>
    by_cases h1 : ncol = floor.length
    swap
    · have : errorFloor store floor (.arr lead ncol rows) iv = .error .typeError := by
        unfold errorFloor
        simp only [require_false h1, error_bind]
      simp [this, Returns, lastAxis, NDA.shape, h1]
    by_cases h2 : (NDA.arr lead ncol rows).shape = iv.shape
    swap
    · have : errorFloor store floor (.arr lead ncol rows) iv = .error .typeError := by
        unfold errorFloor
        simp only [require_true h1, require_false h2, error_bind, ok_bind]
      simp [this, Returns, Ne.symm h2]
    cases iv with
    | scalar _ => simp [NDA.shape] at h2
    | arr lead' ncol' rows' =>
      have he : lead = lead' ∧ ncol = ncol' := by
        simp only [NDA.shape] at h2
        have := List.append_inj' h2 rfl
        simpa using this
      obtain ⟨rfl, rfl⟩ := he
      have key : ∃ q, errorFloor store floor (.arr lead ncol rows) (.arr lead ncol rows') = .ok (.arr lead ncol q) := by
        unfold errorFloor
        simp only [require_true h1, require_true h2, ok_bind]
        match lead, hr with
        | [], _ => exact ⟨_, rfl⟩
        | [_], _ => exact ⟨_, rfl⟩
        | _ :: _ :: _, hr => simp [NDA.ndim] at hr
      obtain ⟨q, hq⟩ := key
      refine ⟨⟨fun _ => ⟨by simp [lastAxis, NDA.shape, h1], rfl⟩, fun _ => ⟨_, hq⟩⟩, ?_⟩
      intro out ho
      unfold Returns at ho
      rw [hq] at ho
      cases ho
      rfl

end generic

/-- Both sides occur: five bands with errors and extinctions are accepted; six bands, or three extinctions, are refused. -/
example : (∃ out, Returns (asinhToMaggies (.vec [20, 20, 20, 20, (20 : ℝ)]) (some (.vec [1, 1, 1, 1, 1])) none) out) ∧
    (¬ ∃ out, Returns (asinhToMaggies (.vec [20, 20, 20, 20, 20, (20 : ℝ)]) none none) out) ∧
    (¬ ∃ out, Returns (asinhToMaggies (.vec [20, 20, 20, 20, (20 : ℝ)]) none (some (.vec [1, 1, 1]))) out) := by
  simp only [(C140_asinh _ _ _).1]
  simp [lastAxis, NDA.vec, NDA.shape]

example : (∃ out, Returns (errorFloor id [0.1, 0.2] (.mat 2 [[1, (2 : ℝ)], [3, 4]]) (.mat 2 [[1, 1], [0, 4]])) out) ∧
    (¬ ∃ out, Returns (errorFloor id [0.1, 0.2] (.mat 2 [[1, (2 : ℝ)], [3, 4]]) (.vec [1, 1])) out) := by
  rw [(C140_floor _ _ _ _ (by simp [NDA.mat, NDA.ndim])).1, (C140_floor _ _ _ _ (by simp [NDA.mat, NDA.ndim])).1]
  simp [lastAxis, NDA.vec, NDA.mat, NDA.shape]

/-! ### C141 -/

section flambda
variable {α : Type} [Arith α]

theorem bcast_ok {β γ δ : Type} (f : β → γ → δ) (xs : List β) (ys : List γ) (h : BcOK xs.length ys.length) : ∃ zs, bcast f xs ys = .ok zs := by
  unfold bcast
  split
  · exact ⟨_, rfl⟩
  · rename_i hne
    rcases h with h | h | h
    · exact absurd h hne
    · obtain ⟨x, rfl⟩ := List.length_eq_one_iff.mp h
      exact ⟨_, rfl⟩
    · obtain ⟨y, rfl⟩ := List.length_eq_one_iff.mp h
      rcases xs with _ | ⟨x, _ | ⟨x', xs⟩⟩ <;> exact ⟨_, rfl⟩

theorem bcast_bad {β γ δ : Type} (f : β → γ → δ) (xs : List β) (ys : List γ) (h : ¬ BcOK xs.length ys.length) : bcast f xs ys = .error .valueError := by
  unfold BcOK at h
  push Not at h
  unfold bcast
  rw [if_neg h.1]
  split
  · exact absurd rfl h.2.1
  · exact absurd rfl h.2.2
  · rfl

theorem bcast_rows_ok {β γ δ : Type} (f : β → γ → δ) (xs : List β) (n : Nat) (h : BcOK xs.length n) (rows : List (List γ))
    (hr : ∀ row ∈ rows, row.length = n) : ∃ zs, rows.mapM (bcast f xs) = .ok zs :=
  mapM_exists (fun row hrow => bcast_ok f xs row (by rw [hr row hrow]; exact h))

/-- `flambdaOf` on vectors and tables returns exactly when the last axis can be broadcast against the list of bands. -/
theorem flambdaOf_iff (wave : List α) (m : NDA α) (ivar : Option (NDA α)) (hm : m.WF) (hr : m.ndim = 1 ∨ m.ndim = 2)
    (hiv : ∀ v, ivar = some v → v.WF ∧ v.shape = m.shape) :
    ((∃ n, lastAxis m n ∧ BcOK wave.length n) → ∃ out, flambdaOf wave m ivar = .ok out) ∧
    ((∀ n, lastAxis m n → ¬ BcOK wave.length n) → flambdaOf wave m ivar = .error .valueError) := by
  cases m with
  | scalar _ => simp [NDA.ndim] at hr
  | arr lead n rows =>
    have hla : ∀ k, lastAxis (.arr lead n rows) k ↔ k = n := by
      intro k; simp [lastAxis, NDA.shape, eq_comm]
    simp only [hla, exists_eq_left, forall_eq]
    have hrow := hm.2
    have hlen : (wave.map (sedAbAt (α := α))).length = wave.length := by simp
    constructor
    · intro hb
      have hb' : BcOK (wave.map (sedAbAt (α := α))).length n := by rw [hlen]; exact hb
      obtain ⟨f, hf⟩ := bcast_rows_ok (fun (c m : α) => c * m) (wave.map sedAbAt) n hb' rows hrow
      match lead, hr with
      | [], _ =>
        cases ivar with
        | none => simp only [flambdaOf, hf, ok_bind, pure_py]; exact ⟨_, rfl⟩
        | some v =>
          obtain ⟨hw, hs⟩ := hiv v rfl
          obtain ⟨vrows, rfl, h1, h2⟩ := shape_arr hw hs
          obtain ⟨g, hg⟩ := bcast_rows_ok (fun (c iv : α) => iv / (c * c)) (wave.map sedAbAt) n hb' vrows h2
          simp only [flambdaOf, hf, hg, ok_bind, pure_py]; exact ⟨_, rfl⟩
      | [k], _ =>
        cases ivar with
        | none => simp only [flambdaOf, hf, ok_bind, pure_py, require_true hb']; exact ⟨_, rfl⟩
        | some v =>
          obtain ⟨hw, hs⟩ := hiv v rfl
          obtain ⟨vrows, rfl, h1, h2⟩ := shape_arr hw hs
          obtain ⟨g, hg⟩ := bcast_rows_ok (fun (c iv : α) => lit 1 / (c * c) * iv) (wave.map sedAbAt) n hb' vrows h2
          simp only [flambdaOf, hf, hg, ok_bind, pure_py, require_true hb', require_true]; exact ⟨_, rfl⟩
      | _ :: _ :: _, hr => simp [NDA.ndim] at hr
    · intro hb
      have hb' : ¬ BcOK (wave.map (sedAbAt (α := α))).length n := by rw [hlen]; exact hb
      match lead, hr with
      | [], _ =>
        have h1 : rows.length = 1 := by simpa using hm.1
        obtain ⟨row, rfl⟩ := List.length_eq_one_iff.mp h1
        have : row.length = n := hrow row (by simp)
        have hbad := bcast_bad (fun (c m : α) => c * m) (wave.map sedAbAt) row (by rw [this]; exact hb')
        simp only [flambdaOf, List.mapM_cons, hbad, error_bind]
      | [k], _ => simp only [flambdaOf, require_false hb', error_bind]
      | _ :: _ :: _, hr => simp [NDA.ndim] at hr

end flambda

/-- The hypothesis of C14 and C141: every band is in the dictionary, complete, or can be loaded. -/
def Loadable (lib : Lib ℝ) (disk : Disk ℝ) (responses : List Name) (g : Reg ℝ) : Prop :=
  ∀ n ∈ responses, (∃ o, g n = some o ∧ Complete lib o) ∨ (g n = none ∧ ∃ R, FileGives lib disk n R)

theorem flambda_run {lib : Lib ℝ} {disk : Disk ℝ} {responses : List Name} {g : Reg ℝ} (hg : Loadable lib disk responses g) :
    ∃ g' ls, ls.length = responses.length ∧ ∀ m iv, maggies2flambda lib disk m iv responses g = (g', flambdaOf ls m iv) := by
  obtain ⟨g', hl, -, hcomp⟩ := loadMissing_spec lib disk responses g hg
  have hlam : ∃ ls, responses.mapM (lambdaEffIn g') = .ok ls := by
    refine mapM_exists (fun n hn => ?_)
    obtain ⟨o, ho, hc⟩ := hcomp n hn
    obtain ⟨l, hl, _⟩ := complete_lambda hc
    exact ⟨l, by simp [lambdaEffIn, ho, hl]⟩
  obtain ⟨ls, hls⟩ := hlam
  refine ⟨g', ls.map f32, by simpa using (mapM_ok_iff.mp hls).length_eq.symm, fun m iv => ?_⟩
  simp only [maggies2flambda, hl, hls, ok_bind]

/-- C141, exactly: with bands that load, `maggies2flambda` on a vector or a table, and `ivar` absent or of the same shape, returns if and only if the number of
columns is the number of bands, or one of the two is 1; otherwise it raises `ValueError`. -/
theorem C141_returns_iff (lib : Lib ℝ) (disk : Disk ℝ) (responses : List Name) (g : Reg ℝ) (hg : Loadable lib disk responses g)
    (m : NDA ℝ) (iv : Option (NDA ℝ)) (hm : m.WF) (hr : m.ndim = 1 ∨ m.ndim = 2) (hiv : ∀ v, iv = some v → v.WF ∧ v.shape = m.shape)
    (n : Nat) (hn : lastAxis m n) :
    ((∃ out, Returns (maggies2flambda lib disk m iv responses g).2 out) ↔ n = responses.length ∨ n = 1 ∨ responses.length = 1) ∧
    (¬ (n = responses.length ∨ n = 1 ∨ responses.length = 1) →
      (maggies2flambda lib disk m iv responses g).2 = .error .valueError) := by
  obtain ⟨g', ls, hl, hrun⟩ := flambda_run hg
  obtain ⟨h1, h2⟩ := flambdaOf_iff ls m iv hm hr hiv
  have hu : ∀ k, lastAxis m k → k = n := by
    intro k hk
    unfold lastAxis at hk hn
    rw [hn] at hk
    simpa using hk.symm
  have hb : BcOK ls.length n ↔ (n = responses.length ∨ n = 1 ∨ responses.length = 1) := by
    unfold BcOK; rw [hl]; tauto
  rw [hrun]
  have bad : ¬ (n = responses.length ∨ n = 1 ∨ responses.length = 1) → flambdaOf ls m iv = .error .valueError := by
    intro hno
    refine h2 (fun k hk => ?_)
    rw [hu k hk, hb]
    exact hno
  refine ⟨⟨fun ⟨out, ho⟩ => ?_, fun h => ?_⟩, bad⟩
  · by_contra hno
    unfold Returns at ho
    rw [bad hno] at ho
    cases ho
  · exact h1 ⟨n, hn, hb.mpr h⟩

/-- C141: with several bands, an array with another number of columns, other than 1, is refused. -/
theorem C141_refuses (lib : Lib ℝ) (disk : Disk ℝ) (responses : List Name) (g : Reg ℝ) (hg : Loadable lib disk responses g)
    (m : NDA ℝ) (iv : Option (NDA ℝ)) (hm : m.WF) (hr : m.ndim = 1 ∨ m.ndim = 2) (hiv : ∀ v, iv = some v → v.WF ∧ v.shape = m.shape)
    (hn : ¬ lastAxis m responses.length) (h1 : ¬ lastAxis m 1) (hb : responses.length ≠ 1) :
    Raises (maggies2flambda lib disk m iv responses g).2 := by
  have : ∃ n, lastAxis m n := by
    cases m with
    | scalar _ => simp [NDA.ndim] at hr
    | arr lead n rows => exact ⟨n, by simp [lastAxis, NDA.shape]⟩
  obtain ⟨n, hl⟩ := this
  refine ⟨.valueError, (C141_returns_iff lib disk responses g hg m iv hm hr hiv n hl).2 ?_⟩
  rintro (rfl | rfl | h)
  · exact hn hl
  · exact h1 hl
  · exact hb h

/-- C141, the other side: one number is accepted for two bands (any two that load), and gives a flux in both. -/
theorem C141_broadcasts (lib : Lib ℝ) (disk : Disk ℝ) (a b : Name) (g : Reg ℝ) (hg : Loadable lib disk [a, b] g) (x : ℝ) :
    ¬ lastAxis (NDA.vec [x]) [a, b].length ∧
    ∃ out, Returns (maggies2flambda lib disk (.vec [x]) none [a, b] g).2 out ∧ out.wave.length = 2 ∧ out.flux.shape = [2] := by
  refine ⟨by simp [lastAxis, NDA.vec, NDA.shape], ?_⟩
  obtain ⟨g', ls, hl, hrun⟩ := flambda_run hg
  match ls, hl with
  | [l, l'], _ => 
    refine ⟨⟨[l, l'], .arr [] 2 [[sedAbAt l * x, sedAbAt l' * x]], none⟩, ?_, rfl, rfl⟩
    rw [hrun]
    simp [Returns, flambdaOf, NDA.vec, bcast, bcols]

/-- Not vacuous: the response `x` of the demonstration disk, twice. -/
example : Loadable demoLib demoDisk [['x'], ['x']] (fun _ => none) := by
  obtain ⟨R, hR⟩ := demo_file
  intro n hn
  simp only [List.mem_cons, List.not_mem_nil, or_false, or_self] at hn
  subst hn
  exact Or.inr ⟨rfl, R, hR⟩

/-! ### C142 -/

section files
variable {α : Type} [Arith α]

/-- Number of spectra in a stored flux array: the last but one axis, 1 for a vector. -/
def nsedOf (a : NDA α) : Nat := a.shape.dropLast.getLastD 1

theorem chunks_spec {β : Type} (k : Nat) : ∀ (n : Nat) (l : List β), l.length = n * k →
    (NDA.chunks k n l).length = n ∧ (∀ r ∈ NDA.chunks k n l, r.length = k) ∧ (NDA.chunks k n l).flatten = l := by
  intro n
  induction n with
  | zero => intro l h; simp at h; subst h; simp [NDA.chunks]
  | succ n ih =>
    intro l h
    rw [Nat.succ_mul] at h
    obtain ⟨h1, h2, h3⟩ := ih (l.drop k) (by rw [List.length_drop]; omega)
    refine ⟨by simp [NDA.chunks, h1], ?_, by simp [NDA.chunks, h3]⟩
    intro r hr
    rw [NDA.chunks, List.mem_cons] at hr
    rcases hr with rfl | hr
    · rw [List.length_take]; omega
    · exact h2 r hr

theorem ofStored_iff (wave : List α) (lead : List Nat) (ncol : Nat) (rows : List (List α)) (bi : Bool) :
    ((∃ s, Sed.ofStored wave (.arr lead ncol rows) false bi = .ok s) ↔
      wave.length ≠ 1 ∧ rows.flatten.length = lead.getLastD 1 * wave.length) ∧
    ∀ s, Sed.ofStored wave (.arr lead ncol rows) false bi = .ok s → s.restWave = wave ∧ s.nsed = lead.getLastD 1 ∧
      (∀ r ∈ s.restFlux, r.length = wave.length) ∧ s.restFlux.flatten = rows.flatten ∧ s.binimage = bi := by
  have hf : fluxFlat (.arr lead ncol rows) = .ok (lead.getLastD 1, rows.flatten) := by
    cases lead <;> rfl
  by_cases h1 : wave.length ≠ 1
  swap
  · have : Sed.ofStored wave (.arr lead ncol rows) false bi = .error .typeError := by
      simp only [Sed.ofStored, hf, ok_bind, require_false h1, error_bind]
    simp [this, h1]
  by_cases h2 : rows.flatten.length = lead.getLastD 1 * wave.length
  swap
  · have : Sed.ofStored wave (.arr lead ncol rows) false bi = .error .valueError := by
      simp only [Sed.ofStored, hf, ok_bind, require_true h1, require_false h2, error_bind]
    rw [this]
    exact ⟨⟨fun ⟨_, h⟩ => (nomatch h), fun h => absurd h.2 h2⟩, fun _ h => (nomatch h)⟩
  obtain ⟨c1, c2, c3⟩ := chunks_spec wave.length _ _ h2
  have : Sed.ofStored wave (.arr lead ncol rows) false bi = .ok ⟨wave, NDA.chunks wave.length (lead.getLastD 1) rows.flatten, wave,
      NDA.chunks wave.length (lead.getLastD 1) rows.flatten, lit 0, false, none, bi⟩ := by
    simp only [Sed.ofStored, hf, ok_bind, require_true h1, require_true h2, Sed.setup]
    rfl
  rw [this]
  refine ⟨⟨fun _ => ⟨h1, h2⟩, fun _ => ⟨_, rfl⟩⟩, ?_⟩
  intro s hs
  cases hs
  exact ⟨rfl, c1, c2, c3, rfl⟩

/-- C142, file with two images (`WAVE` a vector, `FLUX` an array `a` of rank 1 or more): `SED(filename, interpolate=False)` returns exactly when there is not
just one wavelength and the number of stored fluxes is the number of spectra times the number of wavelengths; the fluxes of the object, spectrum
after spectrum, are the stored ones in their order. -/
theorem C142_images (f : FitsFile α) (ext : Ext) (wave : List α) (a : NDA α) (ha : a.ndim ≠ 0) (hw : f.get .wave = .ok (.image (.vec wave)))
    (hf : f.get .flux = .ok (.image a)) :
    ((∃ s, Returns (Sed.fromfits f ext false) s) ↔ wave.length ≠ 1 ∧ a.flat.length = nsedOf a * wave.length) ∧
    ∀ s, Returns (Sed.fromfits f ext false) s → s.restWave = wave ∧ s.nsed = nsedOf a ∧ (∀ r ∈ s.restFlux, r.length = wave.length) ∧
      s.restFlux.flatten = a.flat ∧ s.binimage = true := by
  have has : ∀ (e : Ext) h, f.get e = .ok h → f.has e = true := by
    intro e h he
    unfold FitsFile.get at he
    split at he
    · rename_i x hx
      rw [FitsFile.has, List.any_eq_true]
      exact ⟨x, List.mem_of_find?_eq_some hx, by simpa using List.find?_some hx⟩
    · cases he
  cases a with
  | scalar _ => simp [NDA.ndim] at ha
  | arr lead ncol rows =>
    have : Sed.fromfits f ext false = Sed.ofStored wave (.arr lead ncol rows) false true := by
      simp only [Sed.fromfits, has _ _ hw, has _ _ hf, Bool.and_self, if_true, FitsFile.image, hw, hf, ok_bind, pure_py, NDA.vec]
    rw [this]
    have := ofStored_iff wave lead ncol rows true
    simpa [Returns, nsedOf, NDA.shape, NDA.flat] using this

/-- C142, file with one table row (`wave`, `flux`) in extension `ext`. -/
theorem C142_table (f : FitsFile α) (ext : Ext) (wave : List α) (rows : List (List α)) (hno : f.has .wave = false ∨ f.has .flux = false)
    (ht : f.get ext = .ok (.sedTable wave rows)) :
    ((∃ s, Returns (Sed.fromfits f ext false) s) ↔ wave.length ≠ 1 ∧ rows.flatten.length = rows.length * wave.length) ∧
    ∀ s, Returns (Sed.fromfits f ext false) s → s.restWave = wave ∧ s.nsed = rows.length ∧ (∀ r ∈ s.restFlux, r.length = wave.length) ∧
      s.restFlux.flatten = rows.flatten ∧ s.binimage = false := by
  have : Sed.fromfits f ext false = Sed.ofStored wave (.arr [1, rows.length] wave.length rows) false false := by
    rcases hno with h | h <;> simp [Sed.fromfits, h, ht, ok_bind]
  rw [this]
  have := ofStored_iff wave [1, rows.length] wave.length rows false
  simpa [Returns] using this

end files

/-- Two wavelengths and a stored 2 x 2 image are accepted; a 2 x 3 image is refused. -/
example : (∃ s, Returns (Sed.fromfits [(.wave, .image (.vec [1, (2 : ℝ)])), (.flux, .image (.mat 2 [[1, 2], [3, 4]]))] .flux false) s) ∧
    (¬ ∃ s, Returns (Sed.fromfits [(.wave, .image (.vec [1, (2 : ℝ)])), (.flux, .image (.mat 3 [[1, 2, 5], [3, 4, 5]]))] .flux false) s) := by
  rw [(C142_images _ .flux [1, 2] (.mat 2 [[1, 2], [3, 4]]) (by simp [NDA.mat, NDA.ndim]) rfl rfl).1,
    (C142_images _ .flux [1, 2] (.mat 3 [[1, 2, 5], [3, 4, 5]]) (by simp [NDA.mat, NDA.ndim]) rfl rfl).1]
  simp [nsedOf, NDA.mat, NDA.flat, NDA.shape]

end KC
