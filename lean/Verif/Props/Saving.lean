import Verif.Model.Saving
import Verif.Props.KFiles

/-! Interrupted saves of spectra and templates, `clobber`. -/

namespace KC
variable {α : Type} [Arith α]
open Spec

theorem writing_append {b f s : FitsFile α} (h : s ∈ writing b f) : s ∈ writing [] (b ++ f) := by
  unfold writing at h ⊢
  simp only [List.nil_append, List.mem_append, List.mem_map, List.mem_range, List.length_append] at h ⊢
  rcases h with ⟨k, hk, rfl⟩ | ⟨k, hk, rfl⟩
  · refine Or.inl ⟨b.length + k, by omega, ?_⟩
    rw [List.take_length_add_append]
  · refine Or.inr ⟨b.length + k, by omega, ?_⟩
    rw [List.take_length_add_append, List.drop_length_add_append]

/-- C123 for spectra: whatever the moment at which `SED.tofits` is interrupted, reading what is on disk either raises, or the disk holds the complete file. -/
theorem C123_sed (s : Sed α) (ext ext' : Ext) (f : FitsFile α) (hf : s.tofits ext = .ok f) (states : List (FitsFile α)) (hst : s.saveStates ext = .ok states)
    (d : FitsFile α) (hd : d ∈ states) (ip : Bool) (s' : Sed α) (ho : Sed.fromfits d ext' ip = .ok s') : d = f := by
  unfold Sed.saveStates at hst
  rw [hf] at hst
  cases hst
  unfold Sed.tofits at hf
  split at hf
  · cases hf
    simp only [writing, List.nil_append, List.mem_append, List.mem_map, List.mem_range, List.length_cons, List.length_nil] at hd
    rcases hd with ⟨k, hk, rfl⟩ | ⟨k, hk, rfl⟩
    · have : k = 0 ∨ k = 1 ∨ k = 2 := by omega
      rcases this with rfl | rfl | rfl
      · simp [Sed.fromfits, FitsFile.has, FitsFile.get] at ho
      · by_cases he : Ext.wave = ext'
        · subst he; simp [Sed.fromfits, FitsFile.has, FitsFile.get] at ho
        · simp [Sed.fromfits, FitsFile.has, FitsFile.get, he] at ho
      · rfl
    · have : k = 0 ∨ k = 1 := by omega
      rcases this with rfl | rfl
      · by_cases he : Ext.wave = ext'
        · subst he; simp [Sed.fromfits, FitsFile.has, FitsFile.get] at ho
        · simp [Sed.fromfits, FitsFile.has, FitsFile.get, he] at ho
      · simp [Sed.fromfits, FitsFile.has, FitsFile.get, FitsFile.image] at ho
  · split at hf
    · cases hf
      simp only [writing, List.nil_append, List.mem_append, List.mem_map, List.mem_range, List.length_cons, List.length_nil] at hd
      rcases hd with ⟨k, hk, rfl⟩ | ⟨k, hk, rfl⟩
      · have : k = 0 ∨ k = 1 ∨ k = 2 := by omega
        rcases this with rfl | rfl | rfl
        · simp [Sed.fromfits, FitsFile.has, FitsFile.get] at ho
        · by_cases he : Ext.primary = ext'
          · subst he; simp [Sed.fromfits, FitsFile.has, FitsFile.get] at ho
          · simp [Sed.fromfits, FitsFile.has, FitsFile.get, he] at ho
        · rfl
      · have : k = 0 ∨ k = 1 := by omega
        rcases this with rfl | rfl
        · by_cases he : Ext.primary = ext'
          · subst he; simp [Sed.fromfits, FitsFile.has, FitsFile.get] at ho
          · simp [Sed.fromfits, FitsFile.has, FitsFile.get, he] at ho
        · by_cases h1 : ext = .flux
          · subst h1
            by_cases he : Ext.primary = ext'
            · subst he
              simp [Sed.fromfits, FitsFile.has, FitsFile.get] at ho
            · by_cases he' : Ext.flux = ext'
              · subst he'; simp [Sed.fromfits, FitsFile.has, FitsFile.get, he] at ho
              · simp [Sed.fromfits, FitsFile.has, FitsFile.get, he, he'] at ho
          · by_cases he : Ext.primary = ext'
            · subst he
              simp [Sed.fromfits, FitsFile.has, FitsFile.get, h1] at ho
            · by_cases he' : ext = ext'
              · subst he'; simp [Sed.fromfits, FitsFile.has, FitsFile.get, h1, he] at ho
              · simp [Sed.fromfits, FitsFile.has, FitsFile.get, h1, he, he'] at ho
    · cases hf

/-- C123 for templates: whatever the moment at which `Template.tofits` is interrupted, opening what is on disk either raises, or the disk holds the complete
file.  In particular a file cut before `M50` is not taken for an old file without it, for which `m50` is set to zero. -/
theorem C123_template (t : Tmpl α) (f : FitsFile α) (hf : t.tofits = .ok f) (states : List (FitsFile α)) (hst : t.saveStates = .ok states)
    (d : FitsFile α) (hd : d ∈ states) (ip : Bool) (t' : Tmpl α) (ho : Tmpl.fromfits d ip = .ok t') : d = f := by
  have need : ∃ a, d.get .m1000 = .ok (.image a) := by
    unfold Tmpl.fromfits at ho
    obtain ⟨_, _, ho⟩ := bind_ok_iff.mp ho
    obtain ⟨_, _, ho⟩ := bind_ok_iff.mp ho
    obtain ⟨_, _, ho⟩ := bind_ok_iff.mp ho
    obtain ⟨_, _, ho⟩ := bind_ok_iff.mp ho
    obtain ⟨_, _, ho⟩ := bind_ok_iff.mp ho
    obtain ⟨v, hv, _⟩ := bind_ok_iff.mp ho
    unfold FitsFile.vec at hv
    obtain ⟨a, ha, _⟩ := bind_ok_iff.mp hv
    unfold FitsFile.image at ha
    obtain ⟨h, hh, ha⟩ := bind_ok_iff.mp ha
    cases h with
    | image b => exact ⟨b, hh⟩
    | _ => cases ha
  obtain ⟨a, ha⟩ := need
  unfold Tmpl.saveStates at hst
  obtain ⟨fs, hfs, hst⟩ := bind_ok_iff.mp hst
  rw [hf, ok_bind] at hst
  cases hst
  unfold Tmpl.tofits at hf
  rw [hfs, ok_bind] at hf
  cases hf
  obtain ⟨h1, _, _⟩ := tofits_names hfs
  have no : ∀ x ∈ fs, x.1 ≠ .m1000 := by
    intro x hx he
    rcases h1 x hx with h | h | h <;> rw [he] at h <;> cases h
  rcases List.mem_append.mp hd with hd | hd
  · rw [get_none] at ha
    · cases ha
    · intro x hx
      obtain ⟨y, hy, he⟩ := writing_names hd hx
      rw [he]
      rcases hy with hy | hy
      · cases hy
      · exact no y hy
  · rw [List.drop_left] at hd
    have hd' := writing_append hd
    have e : ∀ (x1 x2 x3 x4 x5 x6 : Ext × Hdu α), fs ++ [x1, x2, x3, x4, x5, x6] = (fs ++ [x1, x2, x3, x4, x5]) ++ [x6] := by
      intros; simp
    rw [e] at hd' ⊢
    refine writing_last ?_ hd' ha
    intro x hx
    rcases List.mem_append.mp hx with hx | hx
    · exact no x hx
    · simp only [List.mem_cons, List.not_mem_nil, or_false] at hx
      rcases hx with rfl | rfl | rfl | rfl | rfl <;> simp

/-- The last state of an uninterrupted save is the complete file. -/
theorem C123_complete_at_end (t : Tmpl α) (f : FitsFile α) (hf : t.tofits = .ok f) : ∃ states, t.saveStates = .ok states ∧ f ∈ states ∧ 13 ≤ states.length := by
  have hf' := hf
  unfold Tmpl.tofits at hf
  obtain ⟨fs, hfs, hf⟩ := bind_ok_iff.mp hf
  cases hf
  refine ⟨_, by unfold Tmpl.saveStates; rw [hfs, ok_bind, hf', ok_bind]; rfl, ?_, ?_⟩
  · refine List.mem_append_right _ ?_
    rw [List.drop_left]
    unfold writing
    simp only [List.mem_append, List.mem_map, List.mem_range]
    exact Or.inl ⟨6, by simp, by simp⟩
  · rw [List.drop_left]
    simp only [writing, List.length_append, List.length_map, List.length_range, List.length_cons, List.length_nil]
    omega

/-- Not vacuous: a pair of templates with nonzero `m50` in table layout. -/
example : ∃ (t : Tmpl ℝ) (f : FitsFile ℝ), t.tofits = .ok f ∧ t.m50 ≠ [0, 0] ∧ f.length = 8 :=
  ⟨⟨⟨[1, 2, 3, 4], [[1, 2, 3, 4], [0, 0, 1, 0]], [1, 2, 3, 4], [[1, 2, 3, 4], [0, 0, 1, 0]], 0, false, none, false⟩,
    [1, 2], [0.5, 1], [0.02, 0.01], [3, 1], [4, 1], [2, 1]⟩, _, by
      unfold Tmpl.tofits Sed.tofits
      rw [if_neg (by simp), if_pos (by simp)]
      rfl, by simp, by simp⟩

/-! ### `clobber` -/

/-- C124: a save that raises leaves the file as it was; one that returns leaves exactly what a save to a new file leaves, whatever was there before. -/
theorem C124_sed (s : Sed α) (ext : Ext) (clobber : Bool) (old : Option (FitsFile α)) :
    (∀ e, (s.save ext clobber old).2 = .error e → (s.save ext clobber old).1 = old) ∧
    ((s.save ext clobber old).2 = .ok () → (s.save ext clobber old).1 = (s.save ext clobber none).1 ∧ ∃ f, s.tofits ext = .ok f ∧ (s.save ext clobber old).1 = some f) := by
  unfold Sed.save
  cases s.tofits ext with
  | error e => simp
  | ok f => cases old <;> cases clobber <;> simp [writeTo]

theorem C124_template (t : Tmpl α) (clobber : Bool) (old : Option (FitsFile α)) :
    (∀ e, (t.save clobber old).2 = .error e → (t.save clobber old).1 = old) ∧
    ((t.save clobber old).2 = .ok () → (t.save clobber old).1 = (t.save clobber none).1 ∧ ∃ f, t.tofits = .ok f ∧ (t.save clobber old).1 = some f) := by
  unfold Tmpl.save Sed.save Tmpl.tofits
  cases t.toSed.tofits .flux with
  | error e => simp
  | ok f => cases old <;> cases clobber <;> simp [writeTo]

theorem C124_response (c : Curve α) (ext : Ext) (clobber : Bool) (old : Option (FitsFile α)) :
    (∀ e, (c.save ext clobber old).2 = .error e → (c.save ext clobber old).1 = old) ∧
    ((c.save ext clobber old).2 = .ok () → (c.save ext clobber old).1 = some c.tofits) := by
  unfold Curve.save
  cases old <;> cases clobber <;> simp [writeTo]

/-- C124: without `clobber`, a file that exists is never replaced: the call raises. -/
theorem C124_no_clobber (g : FitsFile α) :
    (∀ (s : Sed α) ext, (s.save ext false (some g)).1 = some g ∧ Raises (s.save ext false (some g)).2) ∧
    (∀ t : Tmpl α, (t.save false (some g)).1 = some g ∧ Raises (t.save false (some g)).2) ∧
    (∀ (c : Curve α) ext, (c.save ext false (some g)).1 = some g ∧ Raises (c.save ext false (some g)).2) := by
  refine ⟨fun s ext => ?_, fun t => ?_, fun c ext => ?_⟩
  · unfold Sed.save
    cases s.tofits ext <;> simp [writeTo, Raises]
  · unfold Tmpl.save Sed.save
    cases t.toSed.tofits .flux <;> simp [writeTo, Raises]
  · simp [Curve.save, writeTo, Raises]

/-- C124: contrary to the documentation ("whether to clobber the existing file or add an HDU"), no call of `SED.tofits` or `Response.tofits` adds an HDU
to a file. -/
theorem C124_never_appends (g : FitsFile α) :
    (∀ (s : Sed α) ext h, (s.save ext false (some g)).1 ≠ some (g ++ [h])) ∧ (∀ (c : Curve α) ext h, (c.save ext false (some g)).1 ≠ some (g ++ [h])) := by
  obtain ⟨h1, _, h3⟩ := C124_no_clobber g
  constructor
  · intro s ext h
    rw [(h1 s ext).1]
    intro he
    simp at he
  · intro c ext h
    rw [(h3 c ext).1]
    intro he
    simp at he

/-- Not vacuous (C124): a save over an existing file, which returns with `clobber` and raises without. -/
example (g : FitsFile ℝ) (c : Curve ℝ) (ext : Ext) : (c.save ext true (some g)).2 = .ok () ∧ Raises (c.save ext false (some g)).2 := by
  simp [Curve.save, writeTo, Raises]

end KC
