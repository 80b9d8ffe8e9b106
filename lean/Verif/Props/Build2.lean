import Verif.Props.KFiles
import Verif.Props.FloatGrid

/-!
C43, C93 and C129 for the objects a user holds: the grid a `Fitter` or `Kcorrect` keeps, and a fitter that can be used once
its matrix has been set.
-/

namespace KC
open Spec

/-- `zs` is the evenly spaced increasing list of `n` redshifts from `lo` to `hi` -/
structure EvenGrid (lo hi : ℝ) (n : Nat) (zs : List ℝ) : Prop where
  len : zs.length = n
  first : zs[0]? = some lo
  last : zs[n - 1]? = some hi
  incr : zs.Pairwise (· < ·)
  step : ∀ i a b, zs[i]? = some a → zs[i + 1]? = some b → b - a = (hi - lo) / ((n : ℝ) - 1)

theorem even_grid (lo hi : ℝ) (n : Nat) (h : lo < hi) (hn : 2 ≤ n) : EvenGrid lo hi n (redshiftGrid lo hi n) :=
  let ⟨a, b, c, d, e⟩ := C43_grid lo hi n h hn
  ⟨a, b, c, d, e⟩

/-- C43: the redshifts of a fitter are the evenly spaced redshifts from the lower to the upper limit it was given, before
and after its matrix is set, and so are those of a constructed Kcorrect object of any class. -/
theorem C43_object (lib : Lib ℝ) (disk : Disk ℝ) (cls : Cls) (R : List Name) (T : Tpl ℝ) (lo hi : ℝ) (n : Nat) (ab : Bool) (h : lo < hi) (hn : 2 ≤ n) :
    EvenGrid lo hi n (Fitter.mk' cls R T lo hi n ab).redshifts ∧
    (∀ w w' F, (Fitter.mk' cls R T lo hi n ab).setAmatrix lib disk w = (w', .ok F) → EvenGrid lo hi n F.redshifts) ∧
    (∀ out rmap dm w w' K, Kc.init lib disk cls R T out rmap lo hi n ab dm w = (w', .ok K) → EvenGrid lo hi n K.redshifts) := by
  have hg := even_grid lo hi n h hn
  refine ⟨hg, fun w w' F hF => ?_, fun out rmap dm w w' K hK => ?_⟩
  · unfold Fitter.setAmatrix at hF
    split at hF
    · simp only [Prod.mk.injEq, Except.ok.injEq] at hF
      rw [← hF.2]
      exact hg
    · simp at hF
  · obtain ⟨_, A, _, e, _⟩ := init_ok hK
    rw [e]
    exact hg

/-- C129 for objects: the redshifts a fitter keeps, before and after its matrix is set, have the stated number, start at the
lower limit in single precision and do not decrease. -/
theorem C129_object (lib : Lib Fl) (disk : Disk Fl) (cls : Cls) (R : List Name) (T : Tpl Fl) (lo hi : Fl) (n : Nat) (ab : Bool) (h2 : 2 ≤ n) (hn : n ≤ 2 ^ 24)
    (h : lo.val ≤ hi.val) (F : Fitter Fl)
    (hF : F = Fitter.mk' cls R T lo hi n ab ∨ ∃ w w', (Fitter.mk' cls R T lo hi n ab).setAmatrix lib disk w = (w', .ok F)) :
    F.redshifts.length = n ∧ F.redshifts.headD (lit 0) = f32 lo ∧ F.redshifts.Pairwise (fun a b => a.val ≤ b.val) ∧
      (0 ≤ lo.val → ∀ i, i < n → ∃ z, F.redshifts[i]? = some z ∧
        |z.val - gridExact (f32 lo).val (f32 hi).val n i| ≤ 4 * uro 24 / (1 - 4 * uro 24) * gridExact (f32 lo).val (f32 hi).val n i) := by
  have e : F.redshifts = redshiftGrid lo hi n := by
    rcases hF with rfl | ⟨w, w', hF⟩
    · rfl
    · obtain ⟨A, rfl, _⟩ := set_grid hF h2 hn h
      rfl
  rw [e]
  obtain ⟨a, b, c, _⟩ := C129_grid lo hi h2 hn h
  exact ⟨a, b, c, fun h0 i hi' => C129_accuracy lo hi h2 hn h0 h i hi'⟩

/-- C93 for a fitter: with templates and responses as in C93 and a redshift range above -1, `set_Amatrix` returns, and the
fitter then reconstructs maggies, one per response, at every redshift of its range. -/
theorem C93_fitter (lib : Lib ℝ) (disk : Disk ℝ) (cls : Cls) (R : List Name) (T : Tpl ℝ) (lo hi : ℝ) (n : Nat) (ab : Bool) (w : Shared ℝ) (h0 : -1 < lo)
    (h : lo < hi) (hn : 2 ≤ n) (hwv : w.sed.restWave.Pairwise (· < ·)) (h4 : 4 ≤ w.sed.restWave.length)
    (hfl : ∀ row ∈ w.sed.restFlux, row.length = w.sed.restWave.length) (hne : w.sed.restFlux ≠ [])
    (hr : ∀ n ∈ R, (∃ o, w.reg n = some o ∧ Complete lib o) ∨ (w.reg n = none ∧ ∃ R, FileGives lib disk n R)) :
    ∃ w' F, (Fitter.mk' cls R T lo hi n ab).setAmatrix lib disk w = (w', .ok F) ∧
      ∀ z, lo ≤ z → z ≤ hi → ∀ c : List ℝ, c.length = F.templates.nsed →
        ∃ m, F.reconstruct (some (.scalar z)) (some (.vec c)) 0 = .ok m ∧ m.flat.length = R.length := by
  obtain ⟨g1, g2, g3, g4, _⟩ := C43_grid lo hi n h hn
  obtain ⟨w', A, hA, hrow, _, _⟩ := C93_build_succeeds lib disk (redshiftGrid lo hi n) R w (by
    intro z hz
    obtain ⟨i, hi'⟩ := List.mem_iff_getElem?.mp hz
    rcases Nat.eq_zero_or_pos i with rfl | hp
    · rw [g2] at hi'
      obtain rfl := Option.some.inj hi'
      exact h0
    · obtain ⟨hil, hv⟩ := List.getElem?_eq_some_iff.mp hi'
      obtain ⟨h0l, hv0⟩ := List.getElem?_eq_some_iff.mp g2
      have := List.pairwise_iff_getElem.mp g4 0 i h0l hil hp
      rw [hv, hv0] at this
      linarith) hwv h4 hfl hne hr
  have hgood := calc_good h hn hA
  obtain ⟨_, hx0, hx1, hx2⟩ := calc_grid h hn hA
  refine ⟨w', { Fitter.mk' cls R T lo hi n ab with Amatrix := some A }, ?_, ?_⟩
  · have hu : (Fitter.mk' cls R T lo hi n ab).redshifts = redshiftGrid lo hi n := rfl
    have hv : (Fitter.mk' cls R T lo hi n ab).responses = R := rfl
    unfold Fitter.setAmatrix
    rw [hu, hv, hA]
    rfl
  · intro z hz1 hz2 c hc
    obtain ⟨M, hM⟩ := (at_ok_iff hx0).mpr (show InRange A.x z from ⟨hx1.trans_le hz1, hz2.trans_eq hx2.symm⟩)
    have e := recon_scalar { Fitter.mk' cls R T lo hi n ab with Amatrix := some A } A z c 0 hc
    have hz : shiftOf (f32 z) 0 = z := by simp [shiftOf]
    rw [hz, hM] at e
    refine ⟨_, e, ?_⟩
    have hs := at_shaped hgood hM
    simp [NDA.flat, reconRow, hs.1, hrow]

/-- such a fitter -/
example (T : Tpl ℝ) : ∃ w' F, (Fitter.mk' .base [['x']] T 0 2 10 false).setAmatrix demoLib demoDisk demoShared = (w', .ok F) := by
  obtain ⟨w', F, h, _⟩ := C93_fitter demoLib demoDisk .base [['x']] T 0 2 10 false demoShared (by norm_num) (by norm_num) (by norm_num)
    (by simp [demoShared]; norm_num) (by simp [demoShared]) (by simp [demoShared]) (by simp [demoShared])
    (by
      intro n hn
      simp only [List.mem_singleton] at hn
      subst hn
      exact Or.inr ⟨rfl, demo_file⟩)
  exact ⟨w', F, h⟩

end KC
