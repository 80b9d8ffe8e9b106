import Verif.Props.Moved
import Verif.Props.Sed

/-!
# C125: what a build gives does not depend on where the templates were
-/

namespace KC
variable {α : Type} [Arith α]
open Spec

/-- `set_redshift` has the same outcome on objects that differ only in their current redshift, and when it returns they are equal afterwards. -/
theorem SameRest.step {s t : Sed α} (h : SameRest s t) (z : α) :
    (s.setRedshift z).2 = (t.setRedshift z).2 ∧ ((t.setRedshift z).2 = .ok () → s.setRedshift z = t.setRedshift z) := by
  cases s with
  | mk rw1 rf w f r ip itp bi =>
    cases t with
    | mk rw2 rf2 w2 f2 r2 ip2 itp2 bi2 =>
      obtain ⟨h1, h2, h3, h4, h5⟩ := h
      simp only at h1 h2 h3 h4 h5
      subst h1 h2 h3 h4
      unfold Sed.setRedshift Sed.setInterp
      cases ip2 with
      | false => simp [h5 rfl]
      | true =>
        simp only [if_true]
        cases mkInterp (rw2.map (fun w => w * (lit 1 + z))) (rf2.map (List.map (fun f => f / (lit 1 + z)))) <;> simp

theorem SameRest.nsed {s t : Sed α} (h : SameRest s t) : t.nsed = s.nsed := by rw [Sed.nsed, Sed.nsed, h.flux]

theorem gridLoop_same (lib : Lib α) (g : Reg α) (rs : List Name) (zs : List α) {s t : Sed α} (h : SameRest s t) :
    (gridLoop lib g rs zs s).2 = (gridLoop lib g rs zs t).2 ∧ SameRest (gridLoop lib g rs zs s).1 (gridLoop lib g rs zs t).1 := by
  refine ⟨?_, ?_⟩
  · cases zs with
    | nil => rfl
    | cons z zs =>
      obtain ⟨h1, h2⟩ := h.step z
      unfold gridLoop
      cases ht : t.setRedshift z with
      | mk t1 r =>
        cases r with
        | ok u => rw [h2 (by rw [ht]), ht]
        | error e =>
          rw [ht] at h1
          cases hs : s.setRedshift z with
          | mk s1 r =>
            rw [hs] at h1
            simp only at h1
            subst h1
            rfl
  · have hs := gridLoop_rest lib g rs zs s
    have ht := gridLoop_rest lib g rs zs t
    exact ⟨ht.wave.trans (h.wave.trans hs.wave.symm), ht.flux.trans (h.flux.trans hs.flux.symm), ht.ip.trans (h.ip.trans hs.ip.symm),
      ht.bi.trans (h.bi.trans hs.bi.symm), fun h0 => by
        have h0' : s.interpolate = false := hs.ip.symm.trans h0
        rw [ht.off (h.ip.trans h0'), h.off h0', hs.off h0']⟩

/-- `_calc_Amatrix` from two states of the templates that differ only in redshift: the same matrix or the same exception, the same response dictionary. -/
theorem calcAmatrix_same (lib : Lib α) (disk : Disk α) (zs : List α) (rs : List Name) (g : Reg α) {s t : Sed α} (h : SameRest s t) :
    (calcAmatrix lib disk zs rs ⟨g, s⟩).2 = (calcAmatrix lib disk zs rs ⟨g, t⟩).2 ∧
    (calcAmatrix lib disk zs rs ⟨g, s⟩).1.reg = (calcAmatrix lib disk zs rs ⟨g, t⟩).1.reg ∧
    SameRest (calcAmatrix lib disk zs rs ⟨g, s⟩).1.sed (calcAmatrix lib disk zs rs ⟨g, t⟩).1.sed ∧
    (∀ A, (calcAmatrix lib disk zs rs ⟨g, t⟩).2 = .ok A → (calcAmatrix lib disk zs rs ⟨g, s⟩).1 = (calcAmatrix lib disk zs rs ⟨g, t⟩).1) := by
  unfold calcAmatrix
  cases loadMissing lib disk rs g with
  | mk g' r =>
    cases r with
    | error e => exact ⟨rfl, rfl, h, fun A hA => by cases hA⟩
    | ok u =>
      simp only
      obtain ⟨h1, h2⟩ := gridLoop_same lib g' rs zs h
      cases hs : gridLoop lib g' rs zs s with
      | mk s1 r1 =>
        cases ht : gridLoop lib g' rs zs t with
        | mk t1 r2 =>
          rw [hs, ht] at h1 h2
          simp only at h1 h2
          subst h1
          cases r1 with
          | error e => exact ⟨rfl, rfl, h2, fun A hA => by cases hA⟩
          | ok ms =>
            simp only [h.nsed]
            cases mkAMat zs ms rs.length s.nsed with
            | error e => exact ⟨rfl, rfl, h2, fun A hA => by cases hA⟩
            | ok A =>
              simp only
              obtain ⟨h3, h4⟩ := h2.step (lit 0)
              have h5 := sameRest_setRedshift s1 (lit 0)
              have h6 := sameRest_setRedshift t1 (lit 0)
              cases ht0 : t1.setRedshift (lit 0) with
              | mk t2 r =>
                rw [ht0] at h3 h4 h6
                cases r with
                | ok u =>
                  rw [h4 rfl]
                  exact ⟨rfl, rfl, SameRest.refl _, fun A _ => rfl⟩
                | error e =>
                  cases hs0 : s1.setRedshift (lit 0) with
                  | mk s2 r =>
                    rw [hs0] at h3 h5
                    simp only at h3
                    subst h3
                    refine ⟨rfl, rfl, ?_, fun A hA => by cases hA⟩
                    exact ⟨h6.wave.trans (h2.wave.trans h5.wave.symm), h6.flux.trans (h2.flux.trans h5.flux.symm),
                      h6.ip.trans (h2.ip.trans h5.ip.symm), h6.bi.trans (h2.bi.trans h5.bi.symm), fun h0 => by
                        have h0' : s1.interpolate = false := h5.ip.symm.trans h0
                        rw [h6.off (h2.ip.trans h0'), h2.off h0', h5.off h0']⟩

/-- What can happen to a template object before it is used: calls of `set_redshift`, and builds; either may raise. -/
inductive Use (α : Type) where
  | setRedshift (z : α)
  | build (disk : Disk α) (reg : Reg α) (zs : List α) (rs : List Name)

/-- the object afterwards -/
def Use.run (lib : Lib α) (s : Sed α) : Use α → Sed α
  | .setRedshift z => (s.setRedshift z).1
  | .build disk reg zs rs => (calcAmatrix lib disk zs rs ⟨reg, s⟩).1.sed

theorem uses_same (lib : Lib α) (l : List (Use α)) : ∀ s : Sed α, SameRest s (l.foldl (Use.run lib) s) := by
  induction l with
  | nil => intro s; exact SameRest.refl s
  | cons o l ih =>
    intro s
    have h1 : SameRest s (o.run lib s) := by
      cases o with
      | setRedshift z => exact sameRest_setRedshift s z
      | build disk reg zs rs => exact calcAmatrix_rest lib disk zs rs ⟨reg, s⟩
    exact h1.trans (ih _)

/-- C125: whatever has been done before with the template object (redshifts set, fitters built, also with exceptions on the way), a new object built from it
is the one that is built from the fresh templates, or the same exception is raised. -/
theorem C125_build_fresh (lib : Lib α) (l : List (Use α)) (s : Sed α) (disk : Disk α) (cls : Cls) (R : List Name) (T : Tpl α) (out rmap : Option (List Name))
    (lo hi : α) (n : Nat) (ab : Bool) (dm : α → α) (g : Reg α) :
    (Kc.init lib disk cls R T out rmap lo hi n ab dm ⟨g, l.foldl (Use.run lib) s⟩).2 = (Kc.init lib disk cls R T out rmap lo hi n ab dm ⟨g, s⟩).2 := by
  have hst := uses_same lib l s
  set t := l.foldl (Use.run lib) s
  obtain ⟨h1, h2, h3, h4⟩ := calcAmatrix_same lib disk (Fitter.mk' cls R T lo hi n ab).redshifts (Fitter.mk' cls R T lo hi n ab).responses g hst
  unfold Kc.init Fitter.setAmatrix
  cases hs : calcAmatrix lib disk (Fitter.mk' cls R T lo hi n ab).redshifts (Fitter.mk' cls R T lo hi n ab).responses ⟨g, s⟩ with
  | mk w1 r1 =>
    cases ht : calcAmatrix lib disk (Fitter.mk' cls R T lo hi n ab).redshifts (Fitter.mk' cls R T lo hi n ab).responses ⟨g, t⟩ with
    | mk w2 r2 =>
      rw [hs, ht] at h1 h4
      simp only at h1 h4
      subst h1
      cases r1 with
      | error e => rfl
      | ok A =>
        rw [h4 A rfl]

/-- C125 for a `Fitter`, and for the templates and the dictionary afterwards. -/
theorem C125_fitter (lib : Lib α) (l : List (Use α)) (s : Sed α) (disk : Disk α) (F : Fitter α) (g : Reg α) :
    (F.setAmatrix lib disk ⟨g, l.foldl (Use.run lib) s⟩).2 = (F.setAmatrix lib disk ⟨g, s⟩).2 ∧
    ((∃ F', (F.setAmatrix lib disk ⟨g, s⟩).2 = .ok F') →
      (F.setAmatrix lib disk ⟨g, l.foldl (Use.run lib) s⟩).1 = (F.setAmatrix lib disk ⟨g, s⟩).1) := by
  obtain ⟨h1, h2, h3, h4⟩ := calcAmatrix_same lib disk F.redshifts F.responses g (uses_same lib l s)
  unfold Fitter.setAmatrix
  set t := l.foldl (Use.run lib) s
  cases hs : calcAmatrix lib disk F.redshifts F.responses ⟨g, s⟩ with
  | mk w1 r1 =>
    cases ht : calcAmatrix lib disk F.redshifts F.responses ⟨g, t⟩ with
    | mk w2 r2 =>
      rw [hs, ht] at h1 h4
      simp only at h1 h4
      subst h1
      cases r1 with
      | error e => exact ⟨rfl, fun ⟨F', h⟩ => by cases h⟩
      | ok A => exact ⟨rfl, fun _ => (h4 A rfl).symm⟩

/-- Not vacuous: templates that a failing `set_redshift(-1)` has left at zero wavelengths differ from the fresh ones. -/
example (wave : List ℝ) (flux : NDA ℝ) (s : Sed ℝ) (hs : Sed.mk' wave flux true = .ok s) (lib : Lib ℝ) :
    ([Use.setRedshift (-1)].foldl (Use.run lib) s).wave ≠ s.wave :=
  (C39_false wave flux s hs).2.2.2.1

end KC
