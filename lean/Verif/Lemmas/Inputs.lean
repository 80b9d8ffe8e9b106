import Verif.Model.Fitter
import Verif.Lemmas.Utils
import Verif.Lemmas.MapM

/-! What `_process_inputs` accepts and returns. -/

namespace KC
open Spec
variable {α : Type} [Arith α]

/-- `to_ab` is not applied, or is the identity of the base class. -/
def NoAb (F : Fitter α) : Prop := F.abcorrect = false ∨ F.cls = .base

/-- The single-precision rows of an argument. -/
def rowsF (a : NDA α) : List (List α) := (a.map f32).rows

theorem checkTable_ok (array : Bool) (n w : Nat) (o : Option (NDA α))
    (h : ∀ a ∈ o, a.shape = if array then [n, w] else [w]) : checkTable array n w o = .ok (o.map (NDA.map f32)) := by
  cases o with
  | none => rfl
  | some a =>
    simp only [checkTable, map_shape]
    rw [if_pos (h a (by simp))]; rfl

theorem checkTable_err (array : Bool) (n w : Nat) (o : Option (NDA α))
    (h : ¬ ∀ a ∈ o, a.shape = if array then [n, w] else [w]) : checkTable array n w o = .error .valueError := by
  cases o with
  | none => simp at h
  | some a =>
    simp only [checkTable, map_shape]
    rw [if_neg (by simpa using h)]

/-- What comes after the checks when nothing is corrected. -/
theorem abStep_noAb {F : Fitter α} (hF : NoAb F) (array : Bool) (z : List α) (m iv c : Option (NDA α)) :
    (match F.abcorrect, m with
      | true, some m => do
        let r ← toAb F.cls m iv
        return (⟨array, z, some r.maggies.rows, r.ivar.map NDA.rows, c.map NDA.rows⟩ : Inp α)
      | _, _ => (return ⟨array, z, m.map NDA.rows, iv.map NDA.rows, c.map NDA.rows⟩ : Py (Inp α))) =
    .ok ⟨array, z, m.map NDA.rows, iv.map NDA.rows, c.map NDA.rows⟩ := by
  rcases hF with h | h
  · rw [h]; rfl
  · rw [h]
    cases F.abcorrect <;> cases m <;> rfl

theorem processInputs_scalar {F : Fitter α} (hF : NoAb F) (z : α) (m iv c : Option (NDA α))
    (hm : ∀ a ∈ m, a.shape = [F.responses.length]) (hiv : ∀ a ∈ iv, a.shape = [F.responses.length])
    (hc : ∀ a ∈ c, a.shape = [F.templates.nsed]) :
    processInputs F (some (.scalar z)) m iv c = .ok ⟨false, [f32 z], m.map rowsF, iv.map rowsF, c.map rowsF⟩ := by
  unfold processInputs
  simp only [Option.map_some, NDA.map, ok_bind]
  rw [checkTable_ok false _ _ m (by simpa using hm), ok_bind, checkTable_ok false _ _ iv (by simpa using hiv), ok_bind,
    checkTable_ok false _ _ c (by simpa using hc), ok_bind]
  refine (abStep_noAb hF false [f32 z] _ _ _).trans ?_
  cases m <;> cases iv <;> cases c <;> rfl

theorem processInputs_array {F : Fitter α} (hF : NoAb F) (zs : List α) (m iv c : Option (NDA α))
    (hm : ∀ a ∈ m, a.shape = [zs.length, F.responses.length]) (hiv : ∀ a ∈ iv, a.shape = [zs.length, F.responses.length])
    (hc : ∀ a ∈ c, a.shape = [zs.length, F.templates.nsed]) :
    processInputs F (some (.vec zs)) m iv c = .ok ⟨true, zs.map f32, m.map rowsF, iv.map rowsF, c.map rowsF⟩ := by
  unfold processInputs
  simp only [Option.map_some, NDA.map, NDA.vec, ok_bind, List.map_cons, List.map_nil, List.flatten_cons, List.flatten_nil,
    List.append_nil, List.length_map]
  rw [checkTable_ok true _ _ m (by simpa using hm), ok_bind, checkTable_ok true _ _ iv (by simpa using hiv), ok_bind,
    checkTable_ok true _ _ c (by simpa using hc), ok_bind]
  refine (abStep_noAb hF true (zs.map f32) _ _ _).trans ?_
  cases m <;> cases iv <;> cases c <;> rfl

/-- Only shapes decide about the checks, whatever `to_ab` does afterwards. -/
theorem processInputs_err_scalar (F : Fitter α) (z : α) (m iv c : Option (NDA α))
    (h : ¬ ((∀ a ∈ m, a.shape = [F.responses.length]) ∧ (∀ a ∈ iv, a.shape = [F.responses.length]) ∧
      (∀ a ∈ c, a.shape = [F.templates.nsed]))) :
    processInputs F (some (.scalar z)) m iv c = .error .valueError := by
  unfold processInputs
  simp only [Option.map_some, NDA.map, ok_bind]
  by_cases h1 : ∀ a ∈ m, a.shape = [F.responses.length]
  · rw [checkTable_ok false _ _ m (by simpa using h1), ok_bind]
    by_cases h2 : ∀ a ∈ iv, a.shape = [F.responses.length]
    · rw [checkTable_ok false _ _ iv (by simpa using h2), ok_bind]
      rw [checkTable_err false _ _ c (fun h3 => h ⟨h1, h2, by simpa using h3⟩)]; rfl
    · rw [checkTable_err false _ _ iv (by simpa using h2)]; rfl
  · rw [checkTable_err false _ _ m (by simpa using h1)]; rfl

theorem processInputs_err_array (F : Fitter α) (zs : List α) (m iv c : Option (NDA α))
    (h : ¬ ((∀ a ∈ m, a.shape = [zs.length, F.responses.length]) ∧ (∀ a ∈ iv, a.shape = [zs.length, F.responses.length]) ∧
      (∀ a ∈ c, a.shape = [zs.length, F.templates.nsed]))) :
    processInputs F (some (.vec zs)) m iv c = .error .valueError := by
  unfold processInputs
  simp only [Option.map_some, NDA.map, NDA.vec, ok_bind, List.map_cons, List.map_nil, List.flatten_cons, List.flatten_nil,
    List.append_nil, List.length_map]
  by_cases h1 : ∀ a ∈ m, a.shape = [zs.length, F.responses.length]
  · rw [checkTable_ok true _ _ m (by simpa using h1), ok_bind]
    by_cases h2 : ∀ a ∈ iv, a.shape = [zs.length, F.responses.length]
    · rw [checkTable_ok true _ _ iv (by simpa using h2), ok_bind]
      rw [checkTable_err true _ _ c (fun h3 => h ⟨h1, h2, by simpa using h3⟩)]; rfl
    · rw [checkTable_err true _ _ iv (by simpa using h2)]; rfl
  · rw [checkTable_err true _ _ m (by simpa using h1)]; rfl

/-- A one-dimensional array is a vector. -/
theorem vec_of_shape {a : NDA α} (hw : a.WF) {n : Nat} (hs : a.shape = [n]) : ∃ xs, a = .vec xs ∧ xs.length = n := by
  obtain ⟨rows, rfl, hl, hr⟩ := shape_arr (lead := []) hw (by simpa using hs)
  match rows, hl with
  | [r], _ => exact ⟨r, by simp [NDA.vec, hr r (by simp)], hr r (by simp)⟩
  | [], h => simp at h
  | _ :: _ :: _, h => simp at h

theorem scalar_of_shape {a : NDA α} (hs : a.shape = []) : ∃ x, a = .scalar x := by
  cases a with
  | scalar x => exact ⟨x, rfl⟩
  | arr l n r => simp [NDA.shape] at hs

/-- A table is a list of rows. -/
theorem mat_of_shape {a : NDA α} (hw : a.WF) {n w : Nat} (hs : a.shape = [n, w]) :
    ∃ rows, a = .arr [n] w rows ∧ rows.length = n ∧ ∀ r ∈ rows, r.length = w := by
  obtain ⟨rows, rfl, hl, hr⟩ := shape_arr (lead := [n]) hw (by simpa using hs)
  exact ⟨rows, rfl, by simpa using hl, hr⟩

theorem rowsF_vec (xs : List α) : rowsF (.vec xs) = [xs.map f32] := by simp [rowsF, NDA.vec, NDA.map, NDA.rows]

theorem rowsF_mat (lead : List Nat) (w : Nat) (rows : List (List α)) : rowsF (.arr lead w rows) = rows.map (List.map f32) := rfl

end KC
