import Verif.Model.RespExt
import Verif.Props.Fits
import Verif.Props.Saving

/-!
# The extension of a response file (C191)
-/

namespace KC
open Spec

/-- The default extension is the one of C92. -/
theorem respFromfitsExt_one (lib : Lib ℝ) (c : Curve ℝ) : respFromfitsExt lib c.tofits (.num 1) = respFromfits lib c.tofits := rfl

/-- C191 where it holds: whatever extension is asked for when a response is written, and whatever was in the file before, a save that returns is read back from
extension number 1 (or the last one, or the one with the empty name), with the same curve and attributes.  Missing (false, `C191_false`): every other
extension. -/
theorem C191_default_partial (lib : Lib ℝ) (wave resp : List ℝ) (R : Resp ℝ) (h : mkResponse lib wave resp = .ok R) (ext : Ext) (clobber : Bool)
    (old : Option (FitsFile ℝ)) (hs : (R.toCurve.save ext clobber old).2 = .ok ()) :
    ∃ f, (R.toCurve.save ext clobber old).1 = some f ∧ ∀ e, e = .num 1 ∨ e = .num (-1) ∨ e = .name (.named []) → respFromfitsExt lib f e = .ok R := by
  refine ⟨_, (C124_response R.toCurve ext clobber old).2 hs, fun e he => ?_⟩
  have := C92_response_roundtrip lib wave resp R h
  rcases he with rfl | rfl | rfl <;> exact this

/-- C191 is false: whatever the response, a response written to extension `e` can not be read from extension `e`: by any name other than the empty one, `fromfits`
raises (`KeyError`, or `TypeError` for the primary HDU), so the extension name given to `tofits`, the documented default `FLUX` included, leads nowhere; by
number, it raises for every number other than 1 and -1 (`TypeError` for 0 and -2, `IndexError` for the others). -/
theorem C191_false (lib : Lib ℝ) (c : Curve ℝ) (ext : Ext) (clobber : Bool) (old : Option (FitsFile ℝ)) (hs : (c.save ext clobber old).2 = .ok ()) :
    ∃ f, (c.save ext clobber old).1 = some f ∧
      (ext ≠ .named [] → respFromfitsExt lib f (.name ext) = .error (if ext = .primary then .typeError else .keyError)) ∧
      ∀ n : Int, n ≠ 1 → n ≠ -1 → respFromfitsExt lib f (.num n) = .error (if n = 0 ∨ n = -2 then .typeError else .indexError) := by
  refine ⟨_, (C124_response c ext clobber old).2 hs, fun he => ?_, fun n h1 h2 => ?_⟩
  · by_cases hp : ext = .primary
    · subst hp; rfl
    · have e1 : (Ext.primary == ext) = false := beq_eq_false_iff_ne.mpr (Ne.symm hp)
      have e2 : (Ext.named [] == ext) = false := beq_eq_false_iff_ne.mpr (Ne.symm he)
      rw [if_neg hp]
      simp only [respFromfitsExt, FitsFile.select, FitsFile.get, Curve.tofits, List.find?_cons, List.find?_nil, e1, e2]
      rfl
  · by_cases h0 : n = 0 ∨ n = -2
    · rw [if_pos h0]
      rcases h0 with rfl | rfl <;> rfl
    · rw [if_neg h0]
      push Not at h0
      have key : FitsFile.select c.tofits (.num n) = .error .indexError := by
        simp only [FitsFile.select, Curve.tofits, List.length_cons, List.length_nil]
        split_ifs with hn hk
        · rfl
        · exact absurd hk (by push_cast; omega)
        · rw [List.getElem?_eq_none (by simp only [List.length_cons, List.length_nil]; omega)]
      unfold respFromfitsExt
      rw [key]
      rfl

/-- The default arguments of `tofits` meet the hypotheses: a response written with `ext='FLUX'` to a new file. -/
example : ∃ R, mkResponse demoLib [1, 2, 3, 4] [0, 1, 1, 0] = .ok R ∧ (R.toCurve.save .flux true none).2 = .ok () ∧
    ∃ f, (R.toCurve.save .flux true none).1 = some f ∧ respFromfitsExt demoLib f (.num 1) = .ok R ∧ respFromfitsExt demoLib f (.name .flux) = .error .keyError := by
  obtain ⟨R, hR⟩ := demo_response (wave := [1, 2, 3, 4]) (resp := [0, 1, 1, 0]) (by norm_num) (by simp) rfl
    ⟨1, by simp, by norm_num⟩
  obtain ⟨f, hf, hr⟩ := C191_default_partial demoLib _ _ R hR .flux true none rfl
  obtain ⟨f', hf', hn, _⟩ := C191_false demoLib R.toCurve .flux true none rfl
  rw [hf] at hf'
  cases hf'
  exact ⟨R, hR, rfl, f, hf, hr _ (Or.inl rfl), hn (by decide)⟩

end KC
