import Verif.Model.Registry
import Verif.Lemmas.MapM

/-! # Lemmas about loading responses -/

namespace KC
variable {α : Type} [Arith α]

/-- The parts of a successful `_setup`. -/
theorem respSetup_parts {lib : Lib α} {w r : List α} {R : Resp α} (h : respSetup lib w r = .ok R) :
    ∃ lo hi, mkInterp w [r] = .ok R.itp ∧ solarMagOf lib ⟨w, r, R.itp⟩ = .ok R.solarMag ∧
      vega2abOf lib ⟨w, r, R.itp⟩ = .ok R.vega2ab ∧ fwhmLimits lib ⟨w, r, R.itp⟩ = .ok (lo, hi) ∧
      R = { wave := w, resp := r, itp := R.itp, lambdaEff := lambdaEffOf w r, solarMag := R.solarMag,
            vega2ab := R.vega2ab, fwhmLow := lo, fwhmHigh := hi, fwhm := hi - lo } := by
  unfold respSetup at h
  rcases h1 : mkInterp w [r] with e | i
  · simp [h1] at h
  rcases h2 : solarMagOf lib ⟨w, r, i⟩ with e | s
  · simp [h1, h2] at h
  rcases h3 : vega2abOf lib ⟨w, r, i⟩ with e | v
  · simp [h1, h2, h3] at h
  rcases h4 : fwhmLimits lib ⟨w, r, i⟩ with e | ⟨lo, hi⟩
  · simp [h1, h2, h3, h4] at h
  simp [h1, h2, h3, h4] at h
  subst h
  exact ⟨lo, hi, rfl, h2, h3, h4, rfl⟩

/-- Running all assignments succeeds exactly when `_setup` does, with the same attributes. -/
theorem runSetup_ok_iff (lib : Lib α) (w r : List α) (o o' : RespObj α) :
    runSetup lib w r (List.range nSetup) o = (o', .ok ()) ↔
      ∃ R, respSetup lib w r = .ok R ∧ o' = RespObj.full R := by
  have e : List.range nSetup = [0, 1, 2, 3, 4, 5, 6] := rfl
  rw [e]
  simp only [runSetup, setupStep, respSetup, RespObj.arrays, RespObj.curve, ok_bind, pure, Except.pure]
  rcases h1 : mkInterp w [r] with e | i
  · simp
  rcases h2 : solarMagOf lib ⟨w, r, i⟩ with e | s
  · simp [h2]
  rcases h3 : vega2abOf lib ⟨w, r, i⟩ with e | v
  · simp [h2, h3]
  rcases h4 : fwhmLimits lib ⟨w, r, i⟩ with e | ⟨lo, hi⟩
  · simp [h2, h3, h4]
  simp only [ok_bind, h2, h3, h4, Except.ok.injEq, exists_eq_left', Prod.mk.injEq, and_true, RespObj.full]
  exact eq_comm

/-- `fromdat` succeeds exactly when the file can be read and its curve makes a `Response`. -/
theorem fromdat_ok_iff (lib : Lib α) (disk : Disk α) (f : Name) (o o' : RespObj α) :
    fromdat lib disk f o = (o', .ok ()) ↔
      ∃ w r R, disk f = .ok (w, r) ∧ mkResponse lib w r = .ok R ∧ o' = RespObj.full R := by
  unfold fromdat mkResponse
  rcases h1 : disk f with e | ⟨w, r⟩
  · simp
  rcases h2 : sortCurve w r with e | ⟨w', r'⟩
  · simp [h2]
  simp only [ok_bind, h2]
  rw [runSetup_ok_iff]
  constructor
  · rintro ⟨R, h, rfl⟩
    exact ⟨w, r, R, rfl, by simp [h2, h], rfl⟩
  · rintro ⟨w1, r1, R, h, h', rfl⟩
    cases h
    rw [h2] at h'
    exact ⟨R, h', rfl⟩

theorem loadResponse_other (lib : Lib α) (disk : Disk α) (n m : Name) (reload : Bool) (g : Reg α) (h : m ≠ n) :
    (loadResponse lib disk n reload g).1 m = g m := by
  unfold loadResponse
  split
  · rfl
  · simp [Reg.insert, h]

theorem loadResponse_cached (lib : Lib α) (disk : Disk α) (n : Name) (g : Reg α) (h : (g n).isSome) :
    loadResponse lib disk n false g = (g, .ok ()) := by
  simp [loadResponse, h]

theorem loadResponse_present (lib : Lib α) (disk : Disk α) (n : Name) (reload : Bool) (g : Reg α) :
    ((loadResponse lib disk n reload g).1 n).isSome := by
  unfold loadResponse
  split
  · rename_i h; simp at h; exact h.1
  · simp [Reg.insert]

theorem loadResponse_keeps (lib : Lib α) (disk : Disk α) (n m : Name) (g : Reg α) (h : (g m).isSome) :
    (loadResponse lib disk n false g).1 m = g m := by
  by_cases e : m = n
  · subst e; rw [loadResponse_cached _ _ _ _ h]
  · exact loadResponse_other _ _ _ _ _ _ e

theorem loadResponse_fresh (lib : Lib α) (disk : Disk α) (n : Name) (reload : Bool) (g : Reg α)
    (h : g n = none ∨ reload = true) :
    loadResponse lib disk n reload g =
      (g.insert n (fromdat lib disk (datName n) RespObj.empty).1, (fromdat lib disk (datName n) RespObj.empty).2) := by
  unfold loadResponse
  rw [if_neg]
  rcases h with h | h <;> simp [h]

end KC
