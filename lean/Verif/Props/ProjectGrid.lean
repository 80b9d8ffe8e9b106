import Verif.Props.Response

/-!
# The grid that `project` integrates on (C26)
-/

namespace KC
open Spec

/-- C26 for what `project` returns: it is the ratio of two integrals by the trapezoid rule (with the boundary terms of C18) on a strictly increasing grid that consists exactly of the
wavelengths of the band, those of the spectrum inside the band, and the closest one of the spectrum beyond each end. -/
theorem C26_project (lib : Lib ℝ) (wave resp : List ℝ) (R : Resp ℝ) (hR : mkResponse lib wave resp = .ok R)
    (sw : List ℝ) (hs : sw.Pairwise (· < ·)) (rows : List (List ℝ)) (m : NDA ℝ) (hm : Projects lib R.toCurve sw rows m)
    (hov : ∃ w ∈ sw, R.wave.headD 0 ≤ w ∧ w ≤ R.wave.getLastD 0) : ∃ g : List ℝ, g.Pairwise (· < ·) ∧
      (∀ w, w ∈ g ↔ w ∈ R.wave ∨ (w ∈ sw ∧ R.wave.headD 0 ≤ w ∧ w ≤ R.wave.getLastD 0) ∨
        IsGreatest {v | v ∈ sw ∧ v < R.wave.headD 0} w ∨ IsLeast {v | v ∈ sw ∧ R.wave.getLastD 0 < v} w) ∧
      m.flat = rows.map (fun y =>
        let r := curveFn lib.spline R.wave R.resp
        let edge := fun f : ℝ → ℝ => g.getLastD 0 * (g.getLastD 0 * r (g.getLastD 0) * f (g.getLastD 0)) -
          g.headD 0 * (g.headD 0 * r (g.headD 0) * f (g.headD 0))
        (photonInt g r (curveFn lib.spline sw y) - edge (curveFn lib.spline sw y)) /
          (photonInt g r abFlux - edge abFlux)) := by
  have hc := mkResponse_good hR
  obtain ⟨rfl, _, _⟩ := projects_eq hs hm
  cases hg : projGrid sw R.wave with
  | none => exact absurd hov ((projGrid_none _ _).mp hg)
  | some g =>
    have hu := projGrid_union hg
    have hne := union_ne_nil hu (ne_nil_of_four hc.four)
    refine ⟨g, hu.incr, projGrid_mem (hs.imp le_of_lt) hg, ?_⟩
    rw [projectWith_some hc hg]
    apply List.map_congr_left
    intro y _
    rw [bandIntegral_eq g hne, bandIntegral_eq g hne, ← neg_div_neg_eq]
    simp only [neg_sub]

/-- A band and a spectrum that samples it and extends beyond it. -/
example : ∃ R m, mkResponse demoLib [2, 3, 4, 5] [1, 1, 1, 1] = .ok R ∧ Projects demoLib R.toCurve [1, 2, 5, 6] [[1, 1, 1, 1]] m ∧
    ∃ w ∈ [1, 2, 5, 6], R.wave.headD 0 ≤ w ∧ w ≤ R.wave.getLastD 0 := by
  obtain ⟨R, hR⟩ := demo_response (wave := [2, 3, 4, 5]) (resp := [1, 1, 1, 1]) (by norm_num) (by simp) rfl
    ⟨1, by simp, by norm_num⟩
  obtain ⟨m, hm⟩ := projects_exists demoLib R.toCurve [1, 2, 5, 6] [1, 1, 1, 1] (by norm_num) (by simp) rfl
  obtain ⟨_, h1, _, _⟩ := mkResponse_ok hR
  rw [argsort_of_sorted _ (by norm_num), gather_range _ _ rfl] at h1
  exact ⟨R, m, hR, hm, 2, by simp, by rw [h1]; norm_num⟩

end KC
