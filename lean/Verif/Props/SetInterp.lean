import Verif.Props.Sed

/-!
# C166: `set_interp` switches interpolation on
-/

namespace KC
open Spec

variable {α : Type} [Arith α]

namespace Spec

/-- A call of a method of an `SED`: `set_interp()` or `set_redshift(z)`. -/
inductive SedCall (α : Type) where
  | setInterp
  | setRedshift (z : α)

/-- What the call does. -/
def SedCall.run (s : Sed α) : SedCall α → Sed α × Py Unit
  | .setInterp => s.setInterp
  | .setRedshift z => s.setRedshift z

/-- `t` is what `s` has become after the calls, none of which raised. -/
inductive AfterCalls (s : Sed α) : List (SedCall α) → Sed α → Prop where
  | nil : AfterCalls s [] s
  | snoc {l : List (SedCall α)} {t u : Sed α} (c : SedCall α) : AfterCalls s l t → c.run t = (u, .ok ()) → AfterCalls s (l ++ [c]) u

/-- The interpolator is that of the current wavelengths and fluxes. -/
def InterpCurrent (s : Sed α) : Prop := ∃ i, s.interp = some i ∧ mkInterp s.wave s.flux = .ok i

end Spec

theorem setInterp_current {s t : Sed α} (h : s.setInterp = (t, .ok ())) :
    InterpCurrent t ∧ t.interpolate = true ∧ t.wave = s.wave ∧ t.flux = s.flux ∧ t.restWave = s.restWave ∧
      t.restFlux = s.restFlux ∧ t.redshift = s.redshift := by
  unfold Sed.setInterp at h
  split at h
  · rename_i i hi
    simp only [Prod.mk.injEq, and_true] at h
    subst h
    exact ⟨⟨i, rfl, hi⟩, rfl, rfl, rfl, rfl, rfl, rfl⟩
  · cases h

/-- C166.  After a `set_interp()` that returns, whether interpolation was on before or not, and after any further calls of `set_interp` and
`set_redshift` that return, interpolation is on and the interpolator is the one of the current wavelengths and fluxes, which are those of the
last redshift. -/
theorem C166_set_interp (s t u : Sed α) (l : List (SedCall α)) (h : s.setInterp = (t, .ok ())) (hl : AfterCalls t l u) :
    InterpCurrent u ∧ u.interpolate = true ∧
    ((∀ z, .setRedshift z ∉ l) → u.wave = s.wave ∧ u.flux = s.flux ∧ u.redshift = s.redshift) ∧
    (∀ l1 z l2, l = l1 ++ .setRedshift z :: l2 → (∀ z', .setRedshift z' ∉ l2) →
      u.wave = s.restWave.map (fun w => w * (lit 1 + z)) ∧ u.flux = s.restFlux.map (List.map (fun f => f / (lit 1 + z))) ∧
      u.redshift = z) := by
  have h0 := setInterp_current h
  have key : InterpCurrent u ∧ u.interpolate = true ∧ u.restWave = s.restWave ∧ u.restFlux = s.restFlux ∧
      ((∀ z, .setRedshift z ∉ l) → u.wave = s.wave ∧ u.flux = s.flux ∧ u.redshift = s.redshift) ∧
      (∀ l1 z l2, l = l1 ++ .setRedshift z :: l2 → (∀ z', .setRedshift z' ∉ l2) →
        u.wave = s.restWave.map (fun w => w * (lit 1 + z)) ∧ u.flux = s.restFlux.map (List.map (fun f => f / (lit 1 + z))) ∧
        u.redshift = z) := by
    induction hl with
    | nil =>
      refine ⟨h0.1, h0.2.1, h0.2.2.2.2.1, h0.2.2.2.2.2.1, fun _ => ⟨h0.2.2.1, h0.2.2.2.1, h0.2.2.2.2.2.2⟩, ?_⟩
      intro l1 z l2 hl
      simp at hl
    | @snoc l t' u c _ hc ih =>
      obtain ⟨_, i2, i3, i4, i5, i6⟩ := ih
      cases c with
      | setInterp =>
        obtain ⟨j1, j2, j3, j4, j5, j6, j7⟩ := setInterp_current hc
        refine ⟨j1, j2, j5.trans i3, j6.trans i4, fun hn => ?_, fun l1 z l2 hl hn => ?_⟩
        · obtain ⟨k1, k2, k3⟩ := i5 (fun z hz => hn z (by simp [hz]))
          exact ⟨j3.trans k1, j4.trans k2, j7.trans k3⟩
        · rcases List.eq_nil_or_concat l2 with rfl | ⟨l2', x, rfl⟩
          · have := congrArg List.getLast? hl
            simp at this
          · rw [List.concat_eq_append, ← List.cons_append, ← List.append_assoc] at hl
            obtain ⟨hl, _⟩ := List.append_inj' hl rfl
            obtain ⟨k1, k2, k3⟩ := i6 l1 z l2' hl (fun z' hz' => hn z' (by simp [hz']))
            exact ⟨j3.trans k1, j4.trans k2, j7.trans k3⟩
      | setRedshift z =>
        simp only [SedCall.run, Sed.setRedshift, i2, if_true] at hc
        obtain ⟨j1, j2, j3, j4, j5, j6, j7⟩ := setInterp_current hc
        refine ⟨j1, j2, j5.trans i3, j6.trans i4, fun hn => absurd (by simp) (hn z), fun l1 z' l2 hl hn => ?_⟩
        rcases List.eq_nil_or_concat l2 with rfl | ⟨l2', x, rfl⟩
        · obtain ⟨_, hz⟩ := List.append_inj' hl rfl
          simp only [List.cons.injEq, SedCall.setRedshift.injEq, and_true] at hz
          subst hz
          exact ⟨by rw [j3, i3], by rw [j4, i4], j7⟩
        · rw [List.concat_eq_append, ← List.cons_append, ← List.append_assoc] at hl
          obtain ⟨_, hz⟩ := List.append_inj' hl rfl
          simp only [List.cons.injEq, and_true] at hz
          exact absurd (by simp [hz]) (hn z)
  exact ⟨key.1, key.2.1, key.2.2.2.2.1, key.2.2.2.2.2⟩

/-- Not vacuous: an SED made without interpolator, then `set_interp`, two redshifts, `set_interp` again. -/
example : ∃ s t u : Sed ℝ, Sed.mk' ([1, 2, 3, 4] : List ℝ) (.vec [1, 5, 2, 1]) false = .ok s ∧ s.interp = none ∧ s.setInterp = (t, .ok ()) ∧
    AfterCalls t [.setRedshift 2, .setRedshift 1, .setInterp] u := by
  have hs := setup_of_rows (wave := ([1, 2, 3, 4] : List ℝ)) (flux := .vec [1, 5, 2, 1]) (Or.inl (by rfl)) false
  have ok : ∀ s : Sed ℝ, (∃ i, mkInterp s.wave s.flux = .ok i) →
      ∃ t, s.setInterp = (t, .ok ()) ∧ t.restWave = s.restWave ∧ t.restFlux = s.restFlux ∧ t.wave = s.wave ∧ t.flux = s.flux ∧ t.interpolate = true := by
    rintro s ⟨i, hi⟩
    exact ⟨{ s with interp := some i, interpolate := true }, by unfold Sed.setInterp; rw [hi], rfl, rfl, rfl, rfl, rfl⟩
  have shift : ∀ (s : Sed ℝ) (z : ℝ), s.restWave = [1, 2, 3, 4] → s.restFlux = [[1, 5, 2, 1]] → s.interpolate = true → 0 < 1 + z →
      ∃ t, s.setRedshift z = (t, .ok ()) ∧ t.restWave = s.restWave ∧ t.restFlux = s.restFlux ∧ t.interpolate = true ∧
        ∃ i, mkInterp t.wave t.flux = .ok i := by
    intro s z h1 h2 h3 hz
    have hi : ∃ i, mkInterp (s.restWave.map (fun w => w * (lit 1 + z))) (s.restFlux.map (List.map (fun f => f / (lit 1 + z)))) = .ok i := by
      refine (mkInterp_iff _ _).mpr ⟨?_, by simp [h1], by simp [h1, h2]⟩
      rw [h1]
      refine List.Nodup.map (fun a b hab => mul_right_cancel₀ (b := (lit 1 + z : ℝ)) (by simpa using hz.ne') hab) (by norm_num)
    obtain ⟨t, ht, k1, k2, k3, k4, k5⟩ := ok { s with wave := s.restWave.map (fun w => w * (lit 1 + z)), flux := s.restFlux.map (List.map (fun f => f / (lit 1 + z))), redshift := z } hi
    exact ⟨t, by unfold Sed.setRedshift; simp only [h3, if_true]; rw [h3] at ht; exact ht, k1, k2, k5, by rw [k3, k4]; exact hi⟩
  obtain ⟨t, ht, h1, h2, h3, h4, h5⟩ := ok ⟨[1, 2, 3, 4], [[1, 5, 2, 1]], [1, 2, 3, 4], [[1, 5, 2, 1]], lit 0, false, none, false⟩
    ((mkInterp_iff ([1, 2, 3, 4] : List ℝ) [[1, 5, 2, 1]]).mpr ⟨by norm_num, by simp, by simp⟩)
  obtain ⟨t1, ht1, a1, a2, a3, _⟩ := shift t 2 h1 h2 h5 (by norm_num)
  obtain ⟨t2, ht2, b1, b2, b3, b4⟩ := shift t1 1 (a1.trans h1) (a2.trans h2) a3 (by norm_num)
  obtain ⟨u, hu, _⟩ := ok t2 b4
  exact ⟨_, t, u, hs, rfl, ht, (((AfterCalls.nil.snoc (.setRedshift 2) ht1).snoc (.setRedshift 1) ht2).snoc .setInterp hu)⟩

end KC
