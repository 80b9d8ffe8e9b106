import Verif.Lemmas.Registry
import Verif.Lemmas.Fwhm

/-!
# C29–C33: loading responses, listing them

`datName n` is the file name `n.dat`.
-/

namespace KC
variable {α : Type} [Arith α]

namespace Spec

/-- `o` is a complete `Response`: the object `Response(wave, response)` of some arrays. -/
def Complete (lib : Lib α) (o : RespObj α) : Prop := ∃ w r R, mkResponse lib w r = .ok R ∧ o = RespObj.full R

/-- The file `n.dat` holds arrays that make the response `R`. -/
def FileGives (lib : Lib α) (disk : Disk α) (n : Name) (R : Resp α) : Prop :=
  ∃ w r, disk (datName n) = .ok (w, r) ∧ mkResponse lib w r = .ok R

end Spec

open Spec

/-! ### C29 -/

/-- C29.  After a `load_response(n)` that returns, loads (without reload) of any names, whatever is on disk at the time of
each, leave every entry that was there, in particular that of `n`, as it was, and the load of `n` never reads the disk again. -/
theorem C29_load_cached (lib : Lib α) (disk : Disk α) (n : Name) (reload : Bool) (g g' : Reg α)
    (h : loadResponse lib disk n reload g = (g', .ok ())) (hist : List (Disk α × Name)) :
    ∃ o, g' n = some o ∧
      (∀ later, later = hist.foldl (fun s p => (loadResponse lib p.1 p.2 false s).1) g' →
        later n = some o ∧ (∀ m v, g' m = some v → later m = some v) ∧
        ∀ disk', loadResponse lib disk' n false later = (later, .ok ())) := by
  have hp := loadResponse_present lib disk n reload g
  rw [h] at hp
  obtain ⟨o, ho⟩ := Option.isSome_iff_exists.mp hp
  have key : ∀ (hist : List (Disk α × Name)) (s : Reg α), (∀ m v, g' m = some v → s m = some v) →
      ∀ m v, g' m = some v → (hist.foldl (fun s p => (loadResponse lib p.1 p.2 false s).1) s) m = some v := by
    intro hist
    induction hist with
    | nil => intro s hs; exact hs
    | cons p t ih =>
      intro s hs
      simp only [List.foldl_cons]
      apply ih
      intro m v hm
      rw [loadResponse_keeps _ _ _ _ _ (by rw [hs m v hm]; rfl)]
      exact hs m v hm
  refine ⟨o, ho, ?_⟩
  rintro later rfl
  have hk := key hist g' (fun _ _ h => h)
  refine ⟨hk n o ho, hk, fun disk' => loadResponse_cached _ _ _ _ ?_⟩
  rw [hk n o ho]; rfl

/-- C29, first load.  A load of a name that is not in the dictionary (or with `reload`) returns exactly when the file makes a
`Response`; then the entry is that response and no other entry has changed. -/
theorem C29_load_contents (lib : Lib α) (disk : Disk α) (n : Name) (reload : Bool) (g g' : Reg α)
    (hn : g n = none ∨ reload = true) :
    loadResponse lib disk n reload g = (g', .ok ()) ↔
      ∃ R, FileGives lib disk n R ∧ g' n = some (RespObj.full R) ∧ ∀ m, m ≠ n → g' m = g m := by
  rw [loadResponse_fresh _ _ _ _ _ hn]
  constructor
  · intro h
    simp only [Prod.mk.injEq] at h
    obtain ⟨h1, h2⟩ := h
    obtain ⟨w, r, R, hd, hR, ho⟩ := (fromdat_ok_iff lib disk (datName n) RespObj.empty _).mp
      (Prod.ext rfl h2)
    refine ⟨R, ⟨w, r, hd, hR⟩, ?_, ?_⟩
    · rw [← h1]; simp only [Reg.insert, if_true]; exact congrArg some ho
    · intro m hm; rw [← h1]; simp [Reg.insert, hm]
  · rintro ⟨R, ⟨w, r, hd, hR⟩, hg, hm⟩
    have := (fromdat_ok_iff lib disk (datName n) RespObj.empty (RespObj.full R)).mpr ⟨w, r, R, hd, hR, rfl⟩
    rw [this]
    simp only [Prod.mk.injEq, and_true]
    funext m
    by_cases e : m = n
    · subst e; rw [hg]; simp [Reg.insert]
    · rw [hm m e]; simp [Reg.insert, e]

/-- a disk with the one file `x.dat` -/
noncomputable def demoDisk : Disk ℝ := fun f =>
  if f = ['x', '.', 'd', 'a', 't'] then .ok ([1, 2, 3, 4], [0, 1, 1, 0]) else .error .valueError

theorem demo_file : ∃ R, FileGives demoLib demoDisk ['x'] R := by
  obtain ⟨R, hR⟩ := demo_response (wave := [1, 2, 3, 4]) (resp := [0, 1, 1, 0]) (by norm_num) (by simp) rfl
    ⟨1, by simp, by norm_num⟩
  exact ⟨R, _, _, by simp [demoDisk, datName], hR⟩

theorem demo_load : ∃ g', loadResponse demoLib demoDisk ['x'] false (fun _ => none) = (g', .ok ()) := by
  obtain ⟨R, hR⟩ := demo_file
  exact ⟨Reg.insert (fun _ => none) ['x'] (RespObj.full R), (C29_load_contents _ _ _ _ _ _ (Or.inl rfl)).mpr
    ⟨R, hR, by simp [Reg.insert], fun m hm => by simp [Reg.insert, hm]⟩⟩

/-- Not vacuous: `x.dat` loads into the empty dictionary. -/
example : ∃ g', loadResponse demoLib demoDisk ['x'] false (fun _ => none) = (g', .ok ()) := demo_load

/-! ### C30 -/

/-- C30, the part that holds: a `load_response(n)` that raises changes at most the entry of `n`.  Missing: that the entry of
`n` is also as before (`C30_false`). -/
theorem C30_failed_load_partial (lib : Lib α) (disk : Disk α) (n : Name) (reload : Bool) (g g' : Reg α) (e : PyErr)
    (h : loadResponse lib disk n reload g = (g', .error e)) :
    (∀ m, m ≠ n → g' m = g m) ∧ (g n = none ∨ reload = true) := by
  constructor
  · intro m hm
    have := loadResponse_other lib disk n m reload g hm
    rw [h] at this; exact this
  · by_contra hc
    push Not at hc
    obtain ⟨h1, h2⟩ := hc
    have : reload = false := by simpa using h2
    subst this
    rw [loadResponse_cached _ _ _ _ (Option.isSome_iff_ne_none.mpr h1)] at h
    simp at h

/-- What happens instead: whenever a load raises, the dictionary contains the name afterwards, and every later load of it
(without reload) returns at once, whatever is on disk. -/
theorem C30_failed_load_poisons (lib : Lib α) (disk : Disk α) (n : Name) (reload : Bool) (g g' : Reg α) (e : PyErr)
    (h : loadResponse lib disk n reload g = (g', .error e)) :
    (∃ o, g' n = some o) ∧ ∀ disk', loadResponse lib disk' n false g' = (g', .ok ()) := by
  have hp := loadResponse_present lib disk n reload g
  rw [h] at hp
  exact ⟨Option.isSome_iff_exists.mp hp, fun disk' => loadResponse_cached _ _ _ _ hp⟩

/-- The whole of C30 fails for every library: loading a name without a file into the empty dictionary raises and leaves
an empty `Response` (no wavelengths, no interpolator, no effective wavelength) under that name. -/
theorem C30_false (lib : Lib α) : ∃ (disk : Disk α) (n : Name) (g g' : Reg α) (e : PyErr),
    loadResponse lib disk n false g = (g', .error e) ∧ g n = none ∧ g' n = some RespObj.empty := by
  refine ⟨fun _ => .error .valueError, ['x'], fun _ => none, Reg.insert (fun _ => none) ['x'] RespObj.empty, .valueError, ?_, rfl, ?_⟩
  · simp [loadResponse, fromdat]
  · simp [Reg.insert]

/-- A file that can be read but whose curve fails half way through the set-up leaves a half-filled entry: one with
wavelengths but no interpolator. -/
theorem C30_false_half (lib : Lib ℝ) : ∃ (disk : Disk ℝ) (n : Name) (g g' : Reg ℝ) (e : PyErr) (o : RespObj ℝ),
    loadResponse lib disk n false g = (g', .error e) ∧ g n = none ∧ g' n = some o ∧ o.wave ≠ none ∧ o.itp = none := by
  refine ⟨fun _ => .ok ([1], [1]), ['x'], fun _ => none,
    Reg.insert (fun _ => none) ['x'] ⟨some [1], some [1], none, none, none, none, none⟩, .valueError, _, ?_, rfl, rfl, by simp, rfl⟩
  have hs : sortCurve ([1] : List ℝ) [1] = .ok ([1], [1]) := by
    simp [sortCurve, gather, argsort]
  have hi : mkInterp ([1] : List ℝ) [[1]] = .error .valueError := by simp [mkInterp]
  have e : List.range nSetup = [0, 1, 2, 3, 4, 5, 6] := rfl
  simp only [loadResponse, fromdat, ok_bind, hs, Option.isSome_none, Bool.false_and, Bool.false_eq_true, if_false, e,
    runSetup, setupStep, RespObj.arrays, hi, error_bind]
  rfl

/-- Not vacuous: a load that raises. -/
example : ∃ g' e, loadResponse demoLib demoDisk ['y'] false (fun _ => none) = (g', .error e) :=
  ⟨_, .valueError, by simp [loadResponse, fromdat, demoDisk, datName]; rfl⟩

/-! ### C31 -/

/-- C31, the part that holds: a reload that returns puts the response of the present file in place of the old one; a reload that
raises leaves all other entries.  Missing: that a reload that raises keeps the old entry (`C31_false`). -/
theorem C31_reload_partial (lib : Lib α) (disk : Disk α) (n : Name) (g g' : Reg α) (res : Py Unit)
    (h : loadResponse lib disk n true g = (g', res)) :
    (∀ m, m ≠ n → g' m = g m) ∧ (res = .ok () → ∃ R, FileGives lib disk n R ∧ g' n = some (RespObj.full R)) := by
  constructor
  · intro m hm
    have := loadResponse_other lib disk n m true g hm
    rw [h] at this; exact this
  · rintro rfl
    obtain ⟨R, h1, h2, _⟩ := (C29_load_contents lib disk n true g g' (Or.inr rfl)).mp h
    exact ⟨R, h1, h2⟩

/-- The whole of C31 fails for every library and every dictionary: if the file has disappeared, a reload raises and replaces the entry
by an empty `Response`. -/
theorem C31_reload_missing (lib : Lib α) (disk : Disk α) (n : Name) (g : Reg α) (e : PyErr) (h : disk (datName n) = .error e) :
    loadResponse lib disk n true g = (g.insert n RespObj.empty, .error e) := by
  simp [loadResponse, fromdat, h]

/-- C31 fails: a complete response in the dictionary is lost by a reload that raises. -/
theorem C31_false : ∃ (lib : Lib ℝ) (disk : Disk ℝ) (n : Name) (g g' : Reg ℝ) (o : RespObj ℝ) (e : PyErr),
    g n = some o ∧ Complete lib o ∧ loadResponse lib disk n true g = (g', .error e) ∧ g' n = some RespObj.empty ∧
      RespObj.empty ≠ o := by
  obtain ⟨R, w, r, _, hR⟩ := demo_file
  refine ⟨demoLib, fun _ => .error .valueError, ['x'], fun _ => some (RespObj.full R), _, RespObj.full R, .valueError, rfl,
    ⟨w, r, R, hR, rfl⟩, C31_reload_missing _ _ _ _ _ rfl, by simp [Reg.insert], ?_⟩
  intro h
  have := congrArg RespObj.wave h
  simp [RespObj.empty, RespObj.full] at this

/-- Not vacuous: a reload that returns. -/
example : ∃ g', loadResponse demoLib demoDisk ['x'] true (fun _ => none) = (g', .ok ()) := by
  obtain ⟨R, hR⟩ := demo_file
  exact ⟨Reg.insert (fun _ => none) ['x'] (RespObj.full R), (C29_load_contents _ _ _ _ _ _ (Or.inr rfl)).mpr
    ⟨R, hR, by simp [Reg.insert], fun m hm => by simp [Reg.insert, hm]⟩⟩

/-! ### C32 -/

theorem datMatch_dat (n : Name) (h : '\n' ∉ n) : datMatch (datName n) = some n := by
  have h1 : (datName n).getLast? = some 't' := by simp [datName]
  have h2 : ¬ ((datName n).getLast? = some '\n') := by rw [h1]; decide
  unfold datMatch
  rw [if_neg h2]
  have hl : (datName n).length - 4 = n.length := by simp [datName]
  simp only [hl]
  have ht : (datName n).take n.length = n := by simp [datName]
  have hd : (datName n).drop n.length = ['.', 'd', 'a', 't'] := by simp [datName]
  rw [ht, hd, if_pos]
  exact ⟨by simp [datName], rfl, h⟩

theorem datMatch_some {f n : Name} (hf : '\n' ∉ f) (h : datMatch f = some n) : f = datName n := by
  unfold datMatch at h
  have h2 : ¬ (f.getLast? = some '\n') := fun hc => hf (List.mem_of_getLast? hc)
  rw [if_neg h2] at h
  simp only at h
  split at h
  · rename_i hc
    cases h
    unfold datName
    rw [← hc.2.1, List.take_append_drop]
  · cases h

/-- C32, for file names without a newline character: the names returned, with `.dat` appended, are exactly the
regular files of the directory that end in `.dat`, in directory order; the dictionary is not touched.  Missing: file names
with newlines (`C32_false`). -/
theorem C32_all_responses_partial (lib : Lib α) (disk : Disk α) (listing : List (Name × Bool)) (g : Reg α)
    (hnl : ∀ p ∈ listing, '\n' ∉ p.1) :
    ∃ names, allResponses lib disk false listing g = (g, names) ∧
      names.map (fun n => n ++ ['.', 'd', 'a', 't']) =
        (listing.filter (fun p => p.2 && List.isSuffixOf ['.', 'd', 'a', 't'] p.1)).map (fun p => p.1) := by
  refine ⟨datNames listing, ?_, ?_⟩
  · have : ∀ (l : List Name) (acc : List Name), l.foldl (checkStep lib disk false) (g, acc) = (g, acc ++ l) := by
      intro l
      induction l with
      | nil => intro acc; simp
      | cons a t ih =>
        intro acc
        simp only [List.foldl_cons, checkStep, Bool.false_eq_true, if_false]
        rw [ih]; simp
    have h := this (datNames listing) []
    unfold allResponses
    simpa using h
  · induction listing with
    | nil => rfl
    | cons p t ih =>
      have ih := ih (fun q hq => hnl q (List.mem_cons_of_mem _ hq))
      have hp := hnl p (List.mem_cons_self)
      obtain ⟨f, isf⟩ := p
      simp only at hp
      unfold datNames at ih ⊢
      cases isf with
      | false => simpa using ih
      | true =>
        rcases hm : datMatch f with _ | n
        · have hns : List.isSuffixOf ['.', 'd', 'a', 't'] f = false := by
            rw [Bool.eq_false_iff]
            intro hs
            rw [List.isSuffixOf_iff_suffix] at hs
            obtain ⟨n, rfl⟩ := hs
            have hn : '\n' ∉ n := fun hc => hp (List.mem_append_left _ hc)
            have := datMatch_dat n hn
            unfold datName at this
            rw [this] at hm; cases hm
          simp only [List.filterMap_cons, hm, if_true, List.filter_cons, hns, Bool.true_and, Bool.false_eq_true, if_false]
          exact ih
        · have hf := datMatch_some hp hm
          have hs : List.isSuffixOf ['.', 'd', 'a', 't'] f = true := by
            rw [List.isSuffixOf_iff_suffix]; exact ⟨n, hf.symm⟩
          simp only [List.filterMap_cons, hm, if_true, List.filter_cons, hs, Bool.true_and, List.map_cons, ih]
          rw [hf]; rfl

/-- The whole of C32 fails: for a directory with the single file `x.dat⏎` (a trailing newline in the name) the list contains `x`,
although there is no file `x.dat`; and a file name with an inner newline is not listed. -/
theorem C32_false (lib : Lib α) (disk : Disk α) (g : Reg α) :
    (allResponses lib disk false [(['x', '.', 'd', 'a', 't', '\n'], true)] g).2 = [['x']] ∧
    (allResponses lib disk false [(['x', '\n', 'y', '.', 'd', 'a', 't'], true)] g).2 = [] := by
  constructor <;> rfl

/-- Not vacuous: a directory with a response, a directory called `d.dat`, a file with two suffixes and a readme. -/
example : (allResponses demoLib demoDisk false
    [(['x', '.', 'd', 'a', 't'], true), (['d', '.', 'd', 'a', 't'], false), (['b', '.', 'd', 'a', 't', '.', 'd', 'a', 't'], true),
     (['r'], true)] (fun _ => none)).2 = [['x'], ['b', '.', 'd', 'a', 't']] := rfl

/-! ### C33 -/

theorem checkStep_ok {lib : Lib α} {disk : Disk α} {g g' : Reg α} {acc : List Name} {n : Name}
    (h : loadResponse lib disk n false g = (g', .ok ())) : checkStep lib disk true (g, acc) n = (g', acc ++ [n]) := by
  simp [checkStep, h]

theorem checkStep_err {lib : Lib α} {disk : Disk α} {g g' : Reg α} {acc : List Name} {n : Name} {e : PyErr}
    (h : loadResponse lib disk n false g = (g', .error e)) : checkStep lib disk true (g, acc) n = (g', acc) := by
  simp [checkStep, h]

/-- The checking loop over distinct names. -/
theorem check_loop (lib : Lib α) (disk : Disk α) : ∀ (l : List Name) (g : Reg α) (acc : List Name), l.Nodup →
    (∀ n ∈ l, ∀ o, g n = some o → Complete lib o) → (∀ n ∈ acc, ∃ o, g n = some o ∧ Complete lib o) →
    ∀ n ∈ (l.foldl (checkStep lib disk true) (g, acc)).2,
      ∃ o, (l.foldl (checkStep lib disk true) (g, acc)).1 n = some o ∧ Complete lib o := by
  intro l
  induction l with
  | nil => intro g acc _ _ h; exact h
  | cons a t ih =>
    intro g acc hnd hg hacc
    rw [List.nodup_cons] at hnd
    simp only [List.foldl_cons]
    have hother : ∀ m, m ≠ a → (loadResponse lib disk a false g).1 m = g m := fun m hm =>
      loadResponse_other lib disk a m false g hm
    have hkeep : ∀ m o, g m = some o → (loadResponse lib disk a false g).1 m = some o := by
      intro m o hm
      rw [loadResponse_keeps lib disk a m g (by rw [hm]; rfl)]; exact hm
    rcases hl : loadResponse lib disk a false g with ⟨g', e | u⟩
    · rw [hl] at hother hkeep
      rw [checkStep_err hl]
      refine ih g' acc hnd.2 ?_ ?_
      · intro n hn o ho
        have hna : n ≠ a := fun h => hnd.1 (h ▸ hn)
        exact hg n (List.mem_cons_of_mem _ hn) o (by rw [← hother n hna]; exact ho)
      · intro n hn
        obtain ⟨o, ho, hc⟩ := hacc n hn
        exact ⟨o, hkeep n o ho, hc⟩
    · rw [hl] at hother hkeep
      rw [checkStep_ok hl]
      refine ih g' _ hnd.2 ?_ ?_
      · intro n hn o ho
        have hna : n ≠ a := fun h => hnd.1 (h ▸ hn)
        exact hg n (List.mem_cons_of_mem _ hn) o (by rw [← hother n hna]; exact ho)
      · intro n hn
        rw [List.mem_append, List.mem_singleton] at hn
        rcases hn with hn | rfl
        · obtain ⟨o, ho, hc⟩ := hacc n hn
          exact ⟨o, hkeep n o ho, hc⟩
        · rcases hgn : g n with _ | o
          · obtain ⟨R, ⟨w, r, _, hR⟩, hgR, _⟩ := (C29_load_contents lib disk n false g g' (Or.inl hgn)).mp hl
            exact ⟨_, hgR, w, r, R, hR, rfl⟩
          · exact ⟨o, hkeep n o hgn, hg n (List.mem_cons_self) o hgn⟩

/-- Different names without newline give different responses. -/
theorem datNames_nodup (listing : List (Name × Bool)) (hnl : ∀ p ∈ listing, '\n' ∉ p.1)
    (hnd : (listing.map (fun p => p.1)).Nodup) : (datNames listing).Nodup := by
  induction listing with
  | nil => simp [datNames]
  | cons p t ih =>
    obtain ⟨f, isf⟩ := p
    simp only [List.map_cons, List.nodup_cons] at hnd
    have ih := ih (fun q hq => hnl q (List.mem_cons_of_mem _ hq)) hnd.2
    unfold datNames at ih ⊢
    simp only [List.filterMap_cons]
    split
    · exact ih
    · rename_i n hn
      rw [List.nodup_cons]
      refine ⟨?_, ih⟩
      intro hm
      rw [List.mem_filterMap] at hm
      obtain ⟨⟨f', isf'⟩, hmem, hm⟩ := hm
      simp only at hm hn
      split at hn <;> split at hm
      · have h1 : f = datName n := datMatch_some (hnl (f, isf) (List.mem_cons_self)) hn
        have h2 : f' = datName n := datMatch_some (hnl (f', isf') (List.mem_cons_of_mem _ hmem)) hm
        apply hnd.1
        rw [h1, ← h2]
        exact List.mem_map.mpr ⟨_, hmem, rfl⟩
      all_goals simp_all

/-- C33, the part that holds.  If no load has failed before (every entry of the dictionary is a complete response), every name returned by
`all_responses(check_validity=True)` has a complete response afterwards.  A directory does not contain a name twice; names with
newlines are excluded as in C32.  Missing: dictionaries in which a load has failed before, and that a second call returns the
same (`C33_false`). -/
theorem C33_valid_partial (lib : Lib α) (disk : Disk α) (listing : List (Name × Bool)) (g g' : Reg α) (names : List Name)
    (hnl : ∀ p ∈ listing, '\n' ∉ p.1) (hnd : (listing.map (fun p => p.1)).Nodup)
    (hg : ∀ n o, g n = some o → Complete lib o)
    (h : allResponses lib disk true listing g = (g', names)) :
    ∀ n ∈ names, ∃ o, g' n = some o ∧ Complete lib o := by
  have key := check_loop lib disk (datNames listing) g [] (datNames_nodup listing hnl hnd) (fun n _ o ho => hg n o ho) (by simp)
  unfold allResponses at h
  rw [h] at key
  exact key

theorem check_present (lib : Lib α) (disk : Disk α) : ∀ (l : List Name) (g : Reg α) (acc : List Name),
    ∀ n, (n ∈ l ∨ (g n).isSome) → ((l.foldl (checkStep lib disk true) (g, acc)).1 n).isSome := by
  intro l
  induction l with
  | nil => intro g acc n h; simpa using h
  | cons a t ih =>
    intro g acc n h
    simp only [List.foldl_cons]
    have h1 : (checkStep lib disk true (g, acc) a).1 = (loadResponse lib disk a false g).1 := by
      rcases hl : loadResponse lib disk a false g with ⟨g', e | u⟩
      · rw [checkStep_err hl]
      · rw [checkStep_ok hl]
    have : checkStep lib disk true (g, acc) a = ((loadResponse lib disk a false g).1, (checkStep lib disk true (g, acc) a).2) :=
      Prod.ext h1 rfl
    rw [this]
    apply ih
    rw [List.mem_cons] at h
    by_cases hna : n = a
    · subst hna; exact Or.inr (loadResponse_present _ _ _ _ _)
    · rcases h with (h | h) | h
      · exact absurd h hna
      · exact Or.inl h
      · right; rw [loadResponse_keeps _ _ _ _ _ h]; exact h

/-- What the second call does: it returns every candidate name, valid or not, whatever is on disk. -/
theorem C33_second_call (lib : Lib α) (disk disk' : Disk α) (listing : List (Name × Bool)) (g : Reg α) :
    allResponses lib disk' true listing (allResponses lib disk true listing g).1 =
      ((allResponses lib disk true listing g).1, (allResponses lib disk true listing g |>.1 |> allResponses lib disk' false listing).2) := by
  have hp : ∀ n ∈ datNames listing, ((allResponses lib disk true listing g).1 n).isSome := fun n hn =>
    check_present lib disk _ g [] n (Or.inl hn)
  generalize (allResponses lib disk true listing g).1 = s at hp
  unfold allResponses
  generalize datNames listing = l at hp
  suffices ∀ (acc : List Name), l.foldl (checkStep lib disk' true) (s, acc) =
      (s, (l.foldl (checkStep lib disk' false) (s, acc)).2) from this []
  induction l with
  | nil => intro acc; rfl
  | cons a t ih =>
    intro acc
    simp only [List.foldl_cons]
    rw [checkStep_ok (loadResponse_cached lib disk' a s (hp a (List.mem_cons_self)))]
    have e : checkStep lib disk' false (s, acc) a = (s, acc ++ [a]) := rfl
    rw [e]
    exact ih (fun n hn => hp n (List.mem_cons_of_mem _ hn)) _

/-- C33 fails for every library: with one unreadable file, the first call returns nothing and the second, with nothing
changed, returns its name, whose entry is an empty `Response`. -/
theorem C33_false (lib : Lib α) : ∃ (disk : Disk α) (listing : List (Name × Bool)) (g1 g2 : Reg α) (n : Name),
    allResponses lib disk true listing (fun _ => none) = (g1, []) ∧
    allResponses lib disk true listing g1 = (g2, [n]) ∧ g2 n = some RespObj.empty := by
  refine ⟨fun _ => .error .osError, [(['x', '.', 'd', 'a', 't'], true)], Reg.insert (fun _ => none) ['x'] RespObj.empty,
    Reg.insert (fun _ => none) ['x'] RespObj.empty, ['x'], ?_, ?_, by simp [Reg.insert]⟩
  · have : datNames [(['x', '.', 'd', 'a', 't'], true)] = [['x']] := rfl
    unfold allResponses
    rw [this]
    simp [checkStep, loadResponse, fromdat]
  · have : datNames [(['x', '.', 'd', 'a', 't'], true)] = [['x']] := rfl
    unfold allResponses
    rw [this, List.foldl_cons, checkStep_ok (loadResponse_cached _ _ _ _ (by simp [Reg.insert]))]
    rfl

/-- Not vacuous: a directory with one valid and one missing file, starting from the empty dictionary, returns the valid one. -/
example : ∃ g', allResponses demoLib demoDisk true [(['x', '.', 'd', 'a', 't'], true), (['y', '.', 'd', 'a', 't'], true)]
    (fun _ => none) = (g', [['x']]) := by
  obtain ⟨g', h⟩ := demo_load
  have e : datNames [(['x', '.', 'd', 'a', 't'], true), (['y', '.', 'd', 'a', 't'], true)] = [['x'], ['y']] := rfl
  unfold allResponses
  rw [e]
  simp only [List.foldl_cons, List.foldl_nil]
  rw [checkStep_ok h]
  rcases hl : loadResponse demoLib demoDisk ['y'] false g' with ⟨g'', er | u⟩
  · exact ⟨g'', by rw [checkStep_err hl]; rfl⟩
  · exfalso
    have hy : g' ['y'] = none := by
      have := loadResponse_other demoLib demoDisk ['x'] ['y'] false (fun _ => none) (by simp)
      rw [h] at this; exact this
    rw [loadResponse_fresh _ _ _ _ _ (Or.inl hy)] at hl
    simp [fromdat, demoDisk, datName] at hl

end KC
