import Verif.Props.RespExt

/-!
# Interrupted saves of responses (C193)
-/

namespace KC
open Spec

/-- what is read as a response is a table of a response in the file -/
theorem respFromfitsExt_table {lib : Lib ℝ} {f : FitsFile ℝ} {ext : ExtSel} {R : Resp ℝ} (h : respFromfitsExt lib f ext = .ok R) :
    ∃ p ∈ f, ∃ w r, p.2 = .respTable w r ∧ mkResponse lib w r = .ok R := by
  unfold respFromfitsExt at h
  obtain ⟨hd, hs, h⟩ := bind_ok_iff.mp h
  have hmem : ∃ p ∈ f, p.2 = hd := by
    cases ext with
    | name e =>
      simp only [FitsFile.select, FitsFile.get] at hs
      split at hs
      · next p hp => cases hs; exact ⟨_, List.mem_of_find?_eq_some hp, rfl⟩
      · cases hs
    | num n =>
      unfold FitsFile.select at hs
      dsimp only at hs
      generalize (if n < 0 then n + (f.length : Int) else n) = k at hs
      by_cases hk : k < 0
      · rw [if_pos hk] at hs; cases hs
      · rw [if_neg hk] at hs
        split at hs
        · next p hp => cases hs; exact ⟨p, List.mem_of_getElem? hp, rfl⟩
        · cases hs
  obtain ⟨p, hp, rfl⟩ := hmem
  refine ⟨p, hp, ?_⟩
  split at h
  · next w r e => exact ⟨w, r, e, h⟩
  all_goals cases h

/-- C193: whatever the moment at which `Response.tofits` is interrupted, reading what is on disk from any extension, by name or by number, either raises or the disk
holds the complete file; and what is read is then the response that was saved. -/
theorem C193_detected (lib : Lib ℝ) (wave resp : List ℝ) (R : Resp ℝ) (h : mkResponse lib wave resp = .ok R) (d : FitsFile ℝ) (hd : d ∈ writing [] R.toCurve.tofits)
    (ext : ExtSel) (R' : Resp ℝ) (ho : respFromfitsExt lib d ext = .ok R') : d = R.toCurve.tofits ∧ R' = R := by
  obtain ⟨p, hp, w, r, he, hm⟩ := respFromfitsExt_table ho
  have hdd : d = R.toCurve.tofits := by
    simp only [writing, List.nil_append, List.mem_append, List.mem_map, List.mem_range, Curve.tofits, List.length_cons, List.length_nil] at hd
    rcases hd with ⟨k, hk, rfl⟩ | ⟨k, hk, rfl⟩
    · have : k = 0 ∨ k = 1 ∨ k = 2 := by omega
      rcases this with rfl | rfl | rfl
      · simp at hp
      · simp at hp; subst hp; cases he
      · rfl
    · have : k = 0 ∨ k = 1 := by omega
      rcases this with rfl | rfl
      · simp at hp; subst hp; cases he
      · simp at hp; rcases hp with rfl | rfl <;> cases he
  refine ⟨hdd, ?_⟩
  subst hdd
  have h2 := C92_response_roundtrip lib wave resp R h
  simp only [Curve.tofits, List.mem_cons, List.not_mem_nil, or_false] at hp
  rcases hp with rfl | rfl
  · cases he
  · simp only [Hdu.respTable.injEq] at he
    rw [← he.1, ← he.2] at hm
    exact Except.ok.inj (hm.symm.trans h2)

/-- C193: the complete file is the last of five states, and it is read. -/
theorem C193_complete (lib : Lib ℝ) (wave resp : List ℝ) (R : Resp ℝ) (h : mkResponse lib wave resp = .ok R) :
    R.toCurve.tofits ∈ writing [] R.toCurve.tofits ∧ (writing [] R.toCurve.tofits).length = 5 ∧ respFromfitsExt lib R.toCurve.tofits (.num 1) = .ok R :=
  ⟨List.mem_append_left _ (List.mem_map.mpr ⟨2, by simp [Curve.tofits], rfl⟩), by simp [writing, Curve.tofits], C92_response_roundtrip lib wave resp R h⟩

/-- A response and a torn file meet the hypotheses of C193 up to the last one. -/
example : ∃ R, mkResponse demoLib [1, 2, 3, 4] [0, 1, 1, 0] = .ok R ∧
    [(Ext.primary, Hdu.empty), (Ext.named [], Hdu.torn)] ∈ writing [] R.toCurve.tofits ∧
    respFromfitsExt demoLib [(Ext.primary, Hdu.empty), (Ext.named [], Hdu.torn)] (.num 1) = .error .osError := by
  obtain ⟨R, hR⟩ := demo_response (wave := [1, 2, 3, 4]) (resp := [0, 1, 1, 0]) (by norm_num) (by simp) rfl
    ⟨1, by simp, by norm_num⟩
  exact ⟨R, hR, List.mem_append_right _ (List.mem_map.mpr ⟨1, by simp [Curve.tofits], rfl⟩), rfl⟩

end KC
