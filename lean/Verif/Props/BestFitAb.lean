import Verif.Props.BestFit
import Verif.Props.AbClasses

/-!
# fit_coeffs returns a best fit, in every class and for tables (C161)
-/

namespace KC
open Spec

/-- C161, every class, with or without the AB correction: with a solver that meets its contract and returns, `fit_coeffs` returns a best fit
to the (AB corrected) photometry for all photometry with nonnegative weights at all redshifts in range. -/
theorem C161_ab (nnls : Nnls ℝ) (hn : NNLSOK nnls) (F : Fitter ℝ) (hret : ∀ A b, ∃ x, solve nnls F.templates.nsed A b = .ok x) (hr : AbReady F.abCls F.responses.length)
    (hnb : F.responses.length ≠ 1) (Am : AMat ℝ) (hR : Ready F Am) (z : ℝ) (hz : InRange Am.x z) (m iv : List ℝ)
    (hm : m.length = F.responses.length) (hiv : iv.length = F.responses.length) (hpos : ∀ v ∈ iv, 0 ≤ v) (noise : Nat → Nat → Nat → ℝ) :
    ∃ c, F.fitCoeffs nnls (some (.scalar z)) (some (.vec m)) (some (.vec iv)) 0 noise = .ok ⟨.vec c, none⟩ ∧
      Optimal F z (abM F.abCls m) (abIv F.abCls iv) c := by
  obtain ⟨c, h, _⟩ := C161_fit nnls hn F.plain hret (Or.inl rfl) hnb Am (ready_plain hR) z hz (abM F.abCls m) (abIv F.abCls iv)
    (by rw [abM_length]; exact hm) (by rw [abIv_length]; exact hiv) (abIv_nonneg F.abCls iv hpos) noise
  have h' := fit_eff nnls F hr z m iv hm hiv 0 noise
  rw [show (m.mapIdx fun j x => x * abFactor F.abCls j) = abM F.abCls m from rfl,
    show (iv.mapIdx fun j x => x / abFactor F.abCls j ^ 2) = abIv F.abCls iv from rfl, h] at h'
  obtain ⟨c', e1, e2⟩ := C49_ab nnls hn F hr Am hR z hz m iv hm hiv hpos noise _ h'
  exact ⟨c', by rw [h', e1], e2⟩

/-- C161, tables: the call returns a table whose `k`-th row is a best fit to the `k`-th object. -/
theorem C161_batch (nnls : Nnls ℝ) (hn : NNLSOK nnls) (F : Fitter ℝ) (hret : ∀ A b, ∃ x, solve nnls F.templates.nsed A b = .ok x) (hr : AbReady F.abCls F.responses.length)
    (hnb : F.responses.length ≠ 1) (Am : AMat ℝ) (hR : Ready F Am) (zs : List ℝ) (ms ivs : List (List ℝ)) (hl : zs.length ≠ 1)
    (hz : ∀ z ∈ zs, InRange Am.x z) (hml : ms.length = zs.length) (hivl : ivs.length = zs.length)
    (hmr : ∀ r ∈ ms, r.length = F.responses.length) (hivr : ∀ r ∈ ivs, r.length = F.responses.length)
    (hpos : ∀ iv ∈ ivs, ∀ v ∈ iv, 0 ≤ v) (noise : Nat → Nat → Nat → ℝ) :
    ∃ cs : List (List ℝ), cs.length = zs.length ∧
      F.fitCoeffs nnls (some (.vec zs)) (some (.arr [zs.length] F.responses.length ms)) (some (.arr [zs.length] F.responses.length ivs)) 0 noise =
        .ok ⟨.arr [zs.length] F.templates.nsed cs, none⟩ ∧
      ∀ (k : Nat) (z : ℝ) (m iv c : List ℝ), zs[k]? = some z → ms[k]? = some m → ivs[k]? = some iv → cs[k]? = some c →
        Optimal F z (abM F.abCls m) (abIv F.abCls iv) c := by
  have alone : ∀ (k : Nat) (z : ℝ) (m iv : List ℝ), zs[k]? = some z → ms[k]? = some m → ivs[k]? = some iv →
      ∃ c, F.fitCoeffs nnls (some (.scalar z)) (some (.vec m)) (some (.vec iv)) 0 (fun _ => noise k) = .ok ⟨.vec c, none⟩ ∧
        Optimal F z (abM F.abCls m) (abIv F.abCls iv) c := fun k z m iv h1 h2 h3 =>
    C161_ab nnls hn F hret hr hnb Am hR z (hz z (List.mem_of_getElem? h1)) m iv (hmr m (List.mem_of_getElem? h2)) (hivr iv (List.mem_of_getElem? h3))
      (hpos iv (List.mem_of_getElem? h3)) _
  have look : ∀ k < zs.length, zs[k]? = some (ent zs k) ∧ ms[k]? = some (ms.getD k []) ∧ ivs[k]? = some (ivs.getD k []) := by
    intro k hk
    refine ⟨?_, ?_, ?_⟩
    · simp [ent, List.getD, List.getElem?_eq_getElem hk]
    · simp [List.getD, List.getElem?_eq_getElem (show k < ms.length by omega)]
    · simp [List.getD, List.getElem?_eq_getElem (show k < ivs.length by omega)]
  obtain ⟨hiff, hres⟩ := C52_ab_partial nnls hn.len F hr hnb zs ms ivs hl hml hivl hmr hivr 0 noise
  obtain ⟨out, hout⟩ := hiff.mpr (fun k hk => by
    obtain ⟨h1, h2, h3⟩ := look k hk
    obtain ⟨c, hc, _⟩ := alone k _ _ _ h1 h2 h3
    exact ⟨_, hc⟩)
  obtain ⟨cs, hcl, hrow, hco, hmc⟩ := hres out hout
  refine ⟨cs.map (fun r => r.1), by rw [List.length_map, hcl], ?_, ?_⟩
  · rw [hout]
    congr 1
    cases out
    simp only at hco hmc
    rw [hco, hmc]
    rfl
  · intro k z m iv c h1 h2 h3 h4
    have hk : k < zs.length := (List.getElem?_eq_some_iff.mp h1).1
    obtain ⟨l1, l2, l3⟩ := look k hk
    rw [h1] at l1; rw [h2] at l2; rw [h3] at l3
    rw [List.getElem?_map] at h4
    obtain ⟨r, hr1, hr2⟩ := Option.map_eq_some_iff.mp h4
    have hal := hrow k r hr1
    dsimp only at hal
    rw [← Option.some.inj l1, ← Option.some.inj l2, ← Option.some.inj l3] at hal
    obtain ⟨c', hc', ho⟩ := alone k z m iv h1 h2 h3
    rw [hc'] at hal
    have : c' = r.1 := by
      have := congrArg (fun o : Py (FitOut ℝ) => match o with | .ok o => some o.coeffs | .error _ => none) hal
      simp only [NDA.vec, Option.some.injEq, NDA.arr.injEq, List.cons.injEq, and_true] at this
      exact this.2.2
    rw [← hr2, ← this]; exact ho

example : NNLSOK demoNnls ∧ NnlsReturns demoNnls ∧ Ready demoFitter2 demoAm2 ∧ AbReady demoFitter2.abCls demoFitter2.responses.length ∧
    demoFitter2.responses.length ≠ 1 ∧ ∀ z ∈ [(2 : ℝ), 1 / 2], InRange demoAm2.x z :=
  ⟨C161_solver.1, C161_solver.2, demo_ready, trivial, by decide, by
    intro z hz
    simp only [List.mem_cons, List.not_mem_nil, or_false] at hz
    rcases hz with rfl | rfl <;> norm_num [InRange, demoAm2]⟩

end KC
