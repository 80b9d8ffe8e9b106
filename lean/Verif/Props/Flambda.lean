import Verif.Lemmas.Registry
import Verif.Lemmas.Project
import Verif.Lemmas.Utils
import Verif.Props.Registry

/-!
# C14: `maggies2flambda`
-/

namespace KC
open Spec

section generic
variable {α : Type} [Arith α]

theorem bcast_rows {β γ δ : Type} (f : β → γ → δ) (xs : List β) (rows : List (List γ)) (h : ∀ row ∈ rows, row.length = xs.length) :
    rows.mapM (bcast f xs) = .ok (rows.map (fun row => List.zipWith f xs row)) := by
  rw [← mapM_pure]
  apply mapM_congr
  intro row hr
  simp [bcast, h row hr]

/-- `maggies2flambda` on arrays of the right shape, after the effective wavelengths are known. -/
theorem flambdaOf_ok (wave : List α) (lead : List Nat) (hl : lead.length ≤ 1) (rows : List (List α)) (ivar : Option (NDA α))
    (hrow : ∀ row ∈ rows, row.length = wave.length)
    (hiv : ∀ v, ivar = some v → v.WF ∧ v.shape = lead ++ [wave.length]) :
    ∃ out, flambdaOf wave (.arr lead wave.length rows) ivar = .ok out ∧ out.wave = wave ∧
      out.flux = .arr lead wave.length (rows.map (fun row => List.zipWith (fun c m => c * m) (wave.map sedAbAt) row)) ∧
      (ivar = none → out.ivar = none) ∧
      ∀ v, ivar = some v → ∃ vrows, v = .arr lead wave.length vrows ∧ (∀ row ∈ vrows, row.length = wave.length) ∧
        out.ivar = some (.arr lead wave.length (vrows.map (fun row => List.zipWith
          (fun c iv => if lead = [] then iv / (c * c) else lit 1 / (c * c) * iv) (wave.map sedAbAt) row))) := by
  have hbc : ∀ k, bcols k k = k := by intro k; unfold bcols; split <;> omega
  have hok : ∀ k, BcOK k k := fun k => Or.inl rfl
  have hr1 := bcast_rows (fun (c m : α) => c * m) (wave.map sedAbAt) rows (by simpa using hrow)
  match lead, hl with
  | [], _ =>
    cases ivar with
    | none =>
      refine ⟨⟨wave, .arr [] wave.length (rows.map (fun row => List.zipWith (fun c m => c * m) (wave.map sedAbAt) row)), none⟩,
        ?_, rfl, rfl, fun _ => rfl, by simp⟩
      simp only [flambdaOf, hr1, ok_bind, pure_py, List.length_map, hbc]
    | some v =>
      obtain ⟨hw, hs⟩ := hiv v rfl
      obtain ⟨vrows, rfl, h1, h2⟩ := shape_arr hw hs
      have hr2 := bcast_rows (fun (c iv : α) => iv / (c * c)) (wave.map sedAbAt) vrows (by simpa using h2)
      refine ⟨⟨wave, .arr [] wave.length (rows.map (fun row => List.zipWith (fun c m => c * m) (wave.map sedAbAt) row)),
        some (.arr [] wave.length (vrows.map (fun row => List.zipWith (fun c iv => iv / (c * c)) (wave.map sedAbAt) row)))⟩,
        ?_, rfl, rfl, by simp, ?_⟩
      · simp only [flambdaOf, hr1, hr2, ok_bind, pure_py, List.length_map, hbc]
      · intro v hv
        cases hv
        exact ⟨vrows, rfl, h2, by simp⟩
  | [n], _ =>
    cases ivar with
    | none =>
      refine ⟨⟨wave, .arr [n] wave.length (rows.map (fun row => List.zipWith (fun c m => c * m) (wave.map sedAbAt) row)), none⟩,
        ?_, rfl, rfl, fun _ => rfl, by simp⟩
      simp only [flambdaOf, hr1, ok_bind, pure_py, List.length_map, hbc, require_true, hok]
    | some v =>
      obtain ⟨hw, hs⟩ := hiv v rfl
      obtain ⟨vrows, rfl, h1, h2⟩ := shape_arr hw hs
      have hr2 := bcast_rows (fun (c iv : α) => lit 1 / (c * c) * iv) (wave.map sedAbAt) vrows (by simpa using h2)
      refine ⟨⟨wave, .arr [n] wave.length (rows.map (fun row => List.zipWith (fun c m => c * m) (wave.map sedAbAt) row)),
        some (.arr [n] wave.length (vrows.map (fun row => List.zipWith (fun c iv => lit 1 / (c * c) * iv) (wave.map sedAbAt) row)))⟩,
        ?_, rfl, rfl, by simp, ?_⟩
      · simp only [flambdaOf, hr1, hr2, ok_bind, pure_py, List.length_map, hbc, require_true, hok]
      · intro v hv
        cases hv
        exact ⟨vrows, rfl, h2, by simp⟩

theorem loadMissing_spec (lib : Lib α) (disk : Disk α) : ∀ (l : List Name) (g : Reg α),
    (∀ n ∈ l, (∃ o, g n = some o ∧ Complete lib o) ∨ (g n = none ∧ ∃ R, FileGives lib disk n R)) →
    ∃ g', loadMissing lib disk l g = (g', .ok ()) ∧ (∀ n o, g n = some o → g' n = some o) ∧
      ∀ n ∈ l, ∃ o, g' n = some o ∧ Complete lib o := by
  intro l
  induction l with
  | nil => intro g _; exact ⟨g, rfl, fun _ _ h => h, by simp⟩
  | cons a t ih =>
    intro g hg
    have hload : ∃ g1, loadResponse lib disk a false g = (g1, .ok ()) ∧ ∃ o, g1 a = some o ∧ Complete lib o := by
      rcases hg a (List.mem_cons_self) with ⟨o, ho, hc⟩ | ⟨hn, R, hR⟩
      · exact ⟨g, loadResponse_cached _ _ _ _ (by rw [ho]; rfl), o, ho, hc⟩
      · obtain ⟨w, r, h1, h2⟩ := hR
        exact ⟨Reg.insert g a (RespObj.full R), (C29_load_contents lib disk a false g _ (Or.inl hn)).mpr
          ⟨R, ⟨w, r, h1, h2⟩, by simp [Reg.insert], fun m hm => by simp [Reg.insert, hm]⟩, RespObj.full R,
          by simp [Reg.insert], w, r, R, h2, rfl⟩
    obtain ⟨g1, hl, o, ho, hc⟩ := hload
    have hk : ∀ m v, g m = some v → g1 m = some v := by
      intro m v hm
      have := loadResponse_keeps lib disk a m g (by rw [hm]; rfl)
      rw [hl] at this; exact this.trans hm
    have hother : ∀ m, m ≠ a → g1 m = g m := by
      intro m hm
      have := loadResponse_other lib disk a m false g hm
      rw [hl] at this; exact this
    obtain ⟨g', h1, h2, h3⟩ := ih g1 (by
      intro n hn
      by_cases e : n = a
      · exact Or.inl ⟨o, e ▸ ho, hc⟩
      · rw [hother n e]; exact hg n (List.mem_cons_of_mem _ hn))
    refine ⟨g', ?_, fun n v hv => h2 n v (hk n v hv), ?_⟩
    · simp only [loadMissing, hl]; exact h1
    · intro n hn
      rw [List.mem_cons] at hn
      rcases hn with rfl | hn
      · exact ⟨o, h2 _ _ ho, hc⟩
      · exact h3 n hn

end generic

/-- A complete response has a positive effective wavelength. -/
theorem complete_lambda {lib : Lib ℝ} {o : RespObj ℝ} (h : Complete lib o) : ∃ l, o.lambdaEff = some l ∧ 0 < l := by
  obtain ⟨w, r, R, hR, rfl⟩ := h
  refine ⟨R.lambdaEff, rfl, ?_⟩
  obtain ⟨_, _, _, h4⟩ := mkResponse_ok hR
  obtain ⟨lo, hi, _, _, _, _, e⟩ := respSetup_parts h4
  rw [e]
  simp only [lambdaEffOf, real_exp]
  exact Real.exp_pos _

/-- C14.  For responses that are in the dictionary or can be loaded, `maggies` of rank 1 or 2 with one column per response and `ivar` absent or of
the same shape, `maggies2flambda` returns, and the result has the shape of the input; for every band `i`: the wavelength is the
effective wavelength `l` of the band in the dictionary, every entry `m` of the column becomes `m` times the AB flux at
`l`, every inverse variance is divided by its square, so that signal-to-noise is preserved; and there is no inverse
variance in the result if none was given. -/
theorem C14_maggies2flambda (lib : Lib ℝ) (disk : Disk ℝ) (responses : List Name) (maggies : NDA ℝ) (ivar : Option (NDA ℝ)) (g : Reg ℝ)
    (hg : ∀ n ∈ responses, (∃ o, g n = some o ∧ Complete lib o) ∨ (g n = none ∧ ∃ R, FileGives lib disk n R))
    (hm : maggies.WF) (hrank : maggies.ndim = 1 ∨ maggies.ndim = 2) (hlast : lastAxis maggies responses.length)
    (hiv : ∀ v, ivar = some v → v.WF ∧ v.shape = maggies.shape) :
    ∃ g' out, maggies2flambda lib disk maggies ivar responses g = (g', .ok out) ∧
      (∀ n o, g n = some o → g' n = some o) ∧ out.flux.shape = maggies.shape ∧ (ivar = none → out.ivar = none) ∧
      ∀ (i : Nat) (n : Name), responses[i]? = some n →
        ∃ o l, g' n = some o ∧ Complete lib o ∧ o.lambdaEff = some l ∧ out.wave[i]? = some l ∧
          ∀ (r : Nat) (m : ℝ), entry maggies r i = some m → entry out.flux r i = some (m * abFlux l) ∧
            ∀ v, ivar = some v → ∃ ov, out.ivar = some ov ∧ ov.shape = maggies.shape ∧
              ∀ iv, entry v r i = some iv → ∃ fiv, entry ov r i = some fiv ∧ fiv = iv / abFlux l ^ 2 ∧
                m * abFlux l * Real.sqrt fiv = m * Real.sqrt iv := by
  obtain ⟨g', hl, hkeep, hcomp⟩ := loadMissing_spec lib disk responses g hg
  have hlam : ∃ ls, responses.mapM (lambdaEffIn g') = .ok ls := by
    cases hq : responses.mapM (lambdaEffIn g') with
    | ok ls => exact ⟨ls, rfl⟩
    | error e =>
      exfalso
      have : ∃ ls, List.Forall₂ (fun a b => lambdaEffIn g' a = .ok b) responses ls := by
        clear hq hg hl hlast hm hrank hiv
        induction responses with
        | nil => exact ⟨[], .nil⟩
        | cons a t ih =>
          obtain ⟨ls, h⟩ := ih (fun n hn => hcomp n (List.mem_cons_of_mem _ hn))
          obtain ⟨o, ho, hc⟩ := hcomp a (List.mem_cons_self)
          obtain ⟨l, hl, _⟩ := complete_lambda hc
          exact ⟨l :: ls, .cons (by simp [lambdaEffIn, ho, hl]) h⟩
      obtain ⟨ls, h⟩ := this
      rw [mapM_ok h] at hq; cases hq
  obtain ⟨ls, hls⟩ := hlam
  have hfor := mapM_ok_iff.mp hls
  have hlen : ls.length = responses.length := hfor.length_eq.symm
  have hid : ls.map (f32 : ℝ → ℝ) = ls := by
    conv_rhs => rw [← List.map_id ls]
    exact List.map_congr_left (fun x _ => by simp)
  cases maggies with
  | scalar x => simp [NDA.ndim] at hrank
  | arr lead k rows =>
    have hk : k = ls.length := by
      simp only [lastAxis, NDA.shape] at hlast
      rw [List.getLast?_concat] at hlast
      cases hlast; exact hlen.symm
    subst hk
    simp only [NDA.ndim] at hrank
    obtain ⟨out, h1, h2, h3, h4, h5⟩ := flambdaOf_ok ls lead (by omega) rows ivar hm.2 (fun v hv => hiv v hv)
    refine ⟨g', out, ?_, hkeep, by rw [h3]; rfl, h4, ?_⟩
    · unfold maggies2flambda
      simp only [hl, hls, ok_bind, hid, h1]
    · intro i n hi
      obtain ⟨hi', hn⟩ := List.getElem?_eq_some_iff.mp hi
      have hf := (List.forall₂_iff_get.mp hfor).2 i hi' (by omega)
      simp only [List.get_eq_getElem, hn] at hf
      obtain ⟨o, ho, hc⟩ := hcomp n (List.mem_of_getElem? hi)
      obtain ⟨l, hol, hpos⟩ := complete_lambda hc
      have hlsi : ls[i]? = some l := by
        rw [List.getElem?_eq_getElem (by omega)]
        simp only [lambdaEffIn, ho, hol, Except.ok.injEq] at hf
        rw [hf]
      refine ⟨o, l, ho, hc, hol, by rw [h2]; exact hlsi, ?_⟩
      intro r m hm'
      have habs : 0 < abFlux l := by unfold abFlux; positivity
      have hent : ∀ (vr : List (List ℝ)) (f : ℝ → ℝ → ℝ) (x : ℝ),
          (vr[r]?).bind (fun row => row[i]?) = some x →
          ((vr.map (fun row => List.zipWith f (ls.map sedAbAt) row))[r]?).bind (fun row => row[i]?)
            = some (f (abFlux l) x) := by
        intro vr f x hx
        rw [List.getElem?_map]
        rcases hv : vr[r]? with _ | row
        · rw [hv] at hx; cases hx
        · rw [hv] at hx
          simp only [Option.bind_some] at hx
          simp only [Option.map_some, Option.bind_some, List.getElem?_zipWith, List.getElem?_map, hlsi, hx,
            Option.map_some, sedAbAt_real]
      simp only [entry] at hm'
      refine ⟨?_, ?_⟩
      · rw [h3]
        simp only [entry]
        rw [hent rows _ m hm', mul_comm]
      · intro v hv
        obtain ⟨vrows, rfl, _, hov⟩ := h5 v hv
        refine ⟨_, hov, rfl, ?_⟩
        intro iv hiv'
        simp only [entry] at hiv' ⊢
        refine ⟨_, hent vrows _ iv hiv', ?_, ?_⟩
        · split
          · rw [pow_two]
          · simp only [real_lit]
            field_simp
            norm_num
        · have : (if lead = [] then iv / (abFlux l * abFlux l) else lit 1 / (abFlux l * abFlux l) * iv) = iv / abFlux l ^ 2 := by
            split
            · rw [pow_two]
            · simp only [real_lit]
              field_simp
              norm_num
          rw [this, Real.sqrt_div' _ (by positivity), Real.sqrt_sq habs.le]
          field_simp

/-- Not vacuous: two objects in the one band `x`, which is not in the dictionary yet, with inverse variances. -/
example : (∀ n ∈ [['x']], (∃ o, (fun _ => none : Reg ℝ) n = some o ∧ Complete demoLib o) ∨
      ((fun _ => none : Reg ℝ) n = none ∧ ∃ R, FileGives demoLib demoDisk n R)) ∧
    (NDA.arr [2] 1 [[1], [2]] : NDA ℝ).WF ∧ lastAxis (NDA.arr [2] 1 [[(1 : ℝ)], [2]]) 1 ∧
    entry (NDA.arr [2] 1 [[(1 : ℝ)], [2]]) 1 0 = some 2 := by
  refine ⟨?_, by simp [NDA.WF], by simp [lastAxis, NDA.shape], rfl⟩
  intro n hn
  simp only [List.mem_singleton] at hn
  subst hn
  exact Or.inr ⟨rfl, demo_file⟩

end KC
