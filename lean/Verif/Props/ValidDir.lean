import Verif.Props.Registry

/-!
# Which names `all_responses(check_validity=True)` returns (C174)
-/

namespace KC
open Spec

section generic
variable {α : Type} [Arith α]

namespace Spec

/-- `n.dat` in the directory `d` is the file of a response that can be built -/
def ValidIn (lib : Lib α) (d : Disk α) (n : Name) : Prop := ∃ R, FileGives lib d n R

end Spec

open Classical in
theorem check_fresh (lib : Lib α) (disk : Disk α) : ∀ (l : List Name) (g : Reg α) (acc : List Name), l.Nodup → (∀ n ∈ l, g n = none) →
    (l.foldl (checkStep lib disk true) (g, acc)).2 = acc ++ l.filter (fun n => decide (ValidIn lib disk n)) := by
  intro l
  induction l with
  | nil => intro g acc _ _; simp
  | cons a t ih =>
    intro g acc hnd hg
    rw [List.nodup_cons] at hnd
    simp only [List.foldl_cons]
    have hother : ∀ n ∈ t, (loadResponse lib disk a false g).1 n = none := fun n hn => by
      rw [loadResponse_other lib disk a n false g (fun h => hnd.1 (h ▸ hn))]
      exact hg n (List.mem_cons_of_mem _ hn)
    have hga := hg a List.mem_cons_self
    rcases hl : loadResponse lib disk a false g with ⟨g', e | u⟩
    · rw [hl] at hother
      rw [checkStep_err hl, ih g' acc hnd.2 hother, List.filter_cons_of_neg]
      simp only [decide_eq_true_eq]
      rintro ⟨R, hR⟩
      have := (C29_load_contents lib disk a false g (g.insert a (RespObj.full R)) (Or.inl hga)).mpr
        ⟨R, hR, by simp [Reg.insert], fun m hm => by simp [Reg.insert, hm]⟩
      rw [hl] at this
      cases this
    · rw [hl] at hother
      rw [checkStep_ok hl, ih g' _ hnd.2 hother, List.filter_cons_of_pos, List.append_assoc]
      · rfl
      · obtain ⟨R, hR, _⟩ := (C29_load_contents lib disk a false g g' (Or.inl hga)).mp hl
        exact decide_eq_true ⟨R, hR⟩

open Classical in
/-- C174, what holds: with none of the names loaded before, `all_responses(check_validity=True)` returns, in the order of the listing, the names whose file in the
*default* directory (`disk`) is valid.  So it does what C174 says for the default directory.  Missing: other directories (`C174_false`). -/
theorem C174_fresh_partial (lib : Lib α) (disk : Disk α) (listing : List (Name × Bool)) (g : Reg α) (hnl : ∀ p ∈ listing, '\n' ∉ p.1)
    (hnd : (listing.map (fun p => p.1)).Nodup) (hg : ∀ n ∈ (allResponses lib disk false listing g).2, g n = none) :
    (allResponses lib disk true listing g).2 = (allResponses lib disk false listing g).2.filter (fun n => decide (ValidIn lib disk n)) := by
  have hf : (allResponses lib disk false listing g).2 = datNames listing := by
    have : ∀ (l acc : List Name), l.foldl (checkStep lib disk false) (g, acc) = (g, acc ++ l) := by
      intro l
      induction l with
      | nil => intro acc; simp
      | cons a t ih => intro acc; simp [checkStep, ih]
    unfold allResponses
    rw [this]; simp
  rw [hf] at hg ⊢
  unfold allResponses
  rw [check_fresh lib disk _ g [] (datNames_nodup listing hnl hnd) hg, List.nil_append]

end generic

open Classical in
/-- C174 fails: a directory holds `x.dat`, which is no response, and `y.dat`, which is one; the default directory has another file `x.dat`.  The names
returned for the directory are `x` alone. -/
theorem C174_false : ∃ (lib : Lib ℝ) (own disk : Disk ℝ), ¬ ValidIn lib own ['x'] ∧ ValidIn lib own ['y'] ∧
    (allResponses lib disk true [(datName ['x'], true), (datName ['y'], true)] (fun _ => none)).2 = [['x']] := by
  obtain ⟨R, w, r, hd, hR⟩ := demo_file
  let own : Disk ℝ := fun n => if n = datName ['y'] then .ok (w, r) else .error .valueError
  let disk : Disk ℝ := fun n => if n = datName ['x'] then .ok (w, r) else .error .valueError
  refine ⟨demoLib, own, disk, ?_, ⟨R, w, r, by simp [own], hR⟩, ?_⟩
  · rintro ⟨R', w', r', h, -⟩
    rw [show own (datName ['x']) = .error .valueError from if_neg (by decide)] at h
    cases h
  · rw [C174_fresh_partial _ _ _ _ (by decide) (by decide) (by simp)]
    have h0 : (allResponses demoLib disk false [(datName ['x'], true), (datName ['y'], true)] (fun _ => none)).2 = [['x'], ['y']] := rfl
    rw [h0, List.filter_cons_of_pos, List.filter_cons_of_neg, List.filter_nil]
    · simp only [decide_eq_true_eq]
      rintro ⟨R', w', r', h, -⟩
      rw [show disk (datName ['y']) = .error .valueError from if_neg (by decide)] at h
      cases h
    · exact decide_eq_true ⟨R, w, r, by simp [disk], hR⟩

/-- Not vacuous: a listing with a directory and a text file besides two response files, nothing loaded. -/
example : ∀ n ∈ (allResponses demoLib demoDisk false [(datName ['x'], true), (['a'], true), (['d'], false), (datName ['y'], true)] (fun _ => none)).2,
    (fun _ => none : Reg ℝ) n = none := fun _ _ => rfl

end KC
