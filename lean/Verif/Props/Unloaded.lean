import Verif.Props.Flambda

/-!
# C165: `maggies2flambda` and responses that cannot be loaded
-/

namespace KC
open Spec

section generic
variable {α : Type} [Arith α]

/-- A load of a name that is not in the dictionary and whose file gives no response raises. -/
theorem load_raises (lib : Lib α) (disk : Disk α) (n : Name) (g : Reg α) (hn : g n = none) (hf : ¬ ∃ R, FileGives lib disk n R) :
    ∃ e, (loadResponse lib disk n false g).2 = .error e := by
  cases h : (loadResponse lib disk n false g).2 with
  | error e => exact ⟨e, rfl⟩
  | ok u =>
    obtain ⟨R, hR, _⟩ := (C29_load_contents lib disk n false g (loadResponse lib disk n false g).1 (Or.inl hn)).mp
      (Prod.ext rfl h)
    exact absurd ⟨R, hR⟩ hf

theorem loadMissing_raises (lib : Lib α) (disk : Disk α) (n : Name) (hf : ¬ ∃ R, FileGives lib disk n R) :
    ∀ (l : List Name) (g : Reg α), n ∈ l → g n = none → ∃ g' e, loadMissing lib disk l g = (g', .error e)
  | a :: t, g, hl, hg => by
    by_cases e : n = a
    · subst e
      obtain ⟨e, he⟩ := load_raises lib disk n g hg hf
      rw [loadMissing]
      generalize loadResponse lib disk n false g = r at he ⊢
      obtain ⟨g', u⟩ := r
      simp only at he
      subst he
      exact ⟨g', e, rfl⟩
    · have ht : n ∈ t := by simpa [e] using hl
      have ho := loadResponse_other lib disk a n false g e
      rw [loadMissing]
      generalize loadResponse lib disk a false g = r at ho ⊢
      obtain ⟨g', u⟩ := r
      cases u with
      | error e => exact ⟨g', e, rfl⟩
      | ok u => exact loadMissing_raises lib disk n hf t g' ht (ho.trans hg)

/-- C165, the part that holds: the first call raises.  If one of the responses is not in the dictionary and its file is missing or does not
give a response, `maggies2flambda` raises, whatever the other arguments.  Missing: that later calls raise too (`C165_false`). -/
theorem C165_first_partial (lib : Lib α) (disk : Disk α) (maggies : NDA α) (ivar : Option (NDA α)) (responses : List Name) (g : Reg α)
    (n : Name) (hn : n ∈ responses) (hg : g n = none) (hf : ¬ ∃ R, FileGives lib disk n R) :
    ∃ g' e, maggies2flambda lib disk maggies ivar responses g = (g', .error e) := by
  obtain ⟨g', e, h⟩ := loadMissing_raises lib disk n hf responses g hn hg
  exact ⟨g', e, by unfold maggies2flambda; rw [h]⟩

/-- Names that are all in the dictionary need no loading. -/
theorem loadMissing_cached (lib : Lib α) (disk : Disk α) (g : Reg α) : ∀ (l : List Name), (∀ n ∈ l, (g n).isSome) →
    loadMissing lib disk l g = (g, .ok ())
  | [], _ => rfl
  | a :: t, h => by
    rw [loadMissing, loadResponse_cached _ _ _ _ (h a List.mem_cons_self)]
    exact loadMissing_cached lib disk g t (fun n hn => h n (List.mem_cons_of_mem _ hn))

end generic

theorem xr_nan : (lit 0 / lit 0 : XR) = XR.nan := by
  show XR.div (XR.fin _) (XR.fin _) = _
  simp [XR.div, XR.infMul]

@[simp] theorem xr_mul_nan (x : XR) : (x * XR.nan : XR) = XR.nan := by
  show XR.mul x XR.nan = _
  cases x <;> rfl

@[simp] theorem xr_nan_mul (x : XR) : (XR.nan * x : XR) = XR.nan := by
  show XR.mul XR.nan x = _
  cases x <;> rfl

@[simp] theorem xr_div_nan (x : XR) : (x / XR.nan : XR) = XR.nan := by
  show XR.div x XR.nan = _
  cases x <;> rfl

theorem xr_sedAb_nan : sedAbAt XR.nan = XR.nan := by
  unfold sedAbAt
  rw [xr_mul_nan, xr_div_nan, xr_nan_mul]

/-- What happens instead.  When all responses are in the dictionary, however they came there, the call returns (for arrays of the right
shape), and in the column of a response whose loading failed (it has no effective wavelength) the wavelength, all fluxes and all inverse
variances are NaN, whatever the maggies and whatever is on disk now. -/
theorem C165_nan (lib : Lib XR) (disk : Disk XR) (responses : List Name) (maggies : NDA XR) (ivar : Option (NDA XR)) (g : Reg XR)
    (hg : ∀ n ∈ responses, (g n).isSome)
    (hm : maggies.WF) (hrank : maggies.ndim = 1 ∨ maggies.ndim = 2) (hlast : lastAxis maggies responses.length)
    (hiv : ∀ v, ivar = some v → v.WF ∧ v.shape = maggies.shape) :
    ∃ out, maggies2flambda lib disk maggies ivar responses g = (g, .ok out) ∧ out.flux.shape = maggies.shape ∧
      ∀ (i : Nat) (n : Name) (o : RespObj XR), responses[i]? = some n → g n = some o → o.lambdaEff = none →
        out.wave[i]? = some XR.nan ∧
        ∀ (r : Nat) (m : XR), entry maggies r i = some m → entry out.flux r i = some XR.nan ∧
          ∀ v iv, ivar = some v → entry v r i = some iv → ∃ ov, out.ivar = some ov ∧ entry ov r i = some XR.nan := by
  have hl := loadMissing_cached lib disk g responses hg
  have hlam : ∃ ls, responses.mapM (lambdaEffIn g) = .ok ls := by
    have : ∃ ls, List.Forall₂ (fun a b => lambdaEffIn g a = .ok b) responses ls := by
      clear hl hlast
      induction responses with
      | nil => exact ⟨[], .nil⟩
      | cons a t ih =>
        obtain ⟨ls, h⟩ := ih (fun n hn => hg n (List.mem_cons_of_mem _ hn))
        obtain ⟨o, ho⟩ := Option.isSome_iff_exists.mp (hg a List.mem_cons_self)
        rcases hq : o.lambdaEff with _ | l
        · exact ⟨_ :: ls, .cons (by simp only [lambdaEffIn, ho, hq]; rfl) h⟩
        · exact ⟨l :: ls, .cons (by simp only [lambdaEffIn, ho, hq]) h⟩
    obtain ⟨ls, h⟩ := this
    exact ⟨ls, mapM_ok h⟩
  obtain ⟨ls, hls⟩ := hlam
  have hfor := mapM_ok_iff.mp hls
  have hlen : ls.length = responses.length := hfor.length_eq.symm
  have hid : ls.map (f32 : XR → XR) = ls := by
    conv_rhs => rw [← List.map_id ls]
    exact List.map_congr_left (fun x _ => rfl)
  cases maggies with
  | scalar x => simp [NDA.ndim] at hrank
  | arr lead k rows =>
    have hk : k = ls.length := by
      simp only [lastAxis, NDA.shape] at hlast
      rw [List.getLast?_concat] at hlast
      cases hlast; exact hlen.symm
    subst hk
    simp only [NDA.ndim] at hrank
    obtain ⟨out, h1, h2, h3, h4, h5⟩ := flambdaOf_ok ls lead (by omega) rows ivar hm.2 (fun v hv => hiv v hv)
    refine ⟨out, ?_, by rw [h3]; rfl, ?_⟩
    · unfold maggies2flambda
      simp only [hl, hls, ok_bind, hid, h1]
    · intro i n o hi ho hno
      obtain ⟨hi', hn⟩ := List.getElem?_eq_some_iff.mp hi
      have hf := (List.forall₂_iff_get.mp hfor).2 i hi' (by omega)
      simp only [List.get_eq_getElem, hn] at hf
      have hlsi : ls[i]? = some XR.nan := by
        rw [List.getElem?_eq_getElem (by omega)]
        simp only [lambdaEffIn, ho, hno, Except.ok.injEq] at hf
        rw [← hf, xr_nan]
      refine ⟨by rw [h2]; exact hlsi, ?_⟩
      have hent : ∀ (r : Nat) (vr : List (List XR)) (f : XR → XR → XR) (x : XR),
          (vr[r]?).bind (fun row => row[i]?) = some x →
          ((vr.map (fun row => List.zipWith f (ls.map sedAbAt) row))[r]?).bind (fun row => row[i]?)
            = some (f XR.nan x) := by
        intro r vr f x hx
        rw [List.getElem?_map]
        rcases hv : vr[r]? with _ | row
        · rw [hv] at hx; cases hx
        · rw [hv] at hx
          simp only [Option.bind_some] at hx
          simp only [Option.map_some, Option.bind_some, List.getElem?_zipWith, List.getElem?_map, hlsi, hx,
            Option.map_some, xr_sedAb_nan]
      intro r m hm'
      refine ⟨?_, ?_⟩
      · rw [h3]
        simp only [entry] at hm' ⊢
        rw [hent r rows _ m hm', xr_nan_mul]
      · intro v iv hv hiv'
        obtain ⟨vrows, rfl, _, hov⟩ := h5 v hv
        refine ⟨_, hov, ?_⟩
        simp only [entry] at hiv' ⊢
        rw [hent r vrows _ iv hiv']
        split <;> simp

/-- C165 is false of the code.  For every library and every file system without the file of `n`, starting from the empty dictionary: the call for
the one response `n` raises, and the same call repeated returns, with NaN wavelength and flux, even if the file is there by
then. -/
theorem C165_false (lib : Lib XR) (disk disk' : Disk XR) (n : Name) (e : PyErr) (hd : disk (datName n) = .error e) (m : XR) :
    ∃ g, maggies2flambda lib disk (.vec [m]) none [n] (fun _ => none) = (g, .error e) ∧
      maggies2flambda lib disk' (.vec [m]) none [n] g = (g, .ok ⟨[XR.nan], .vec [XR.nan], none⟩) := by
  have hload : loadResponse lib disk n false (fun _ => none) = (Reg.insert (fun _ => none) n RespObj.empty, .error e) := by
    simp [loadResponse, fromdat, hd]
  refine ⟨Reg.insert (fun _ => none) n RespObj.empty, ?_, ?_⟩
  · simp only [maggies2flambda, loadMissing, hload]
  · have hin : (Reg.insert (fun _ => none) n (RespObj.empty : RespObj XR)) n = some RespObj.empty := by simp [Reg.insert]
    have hls : [n].mapM (lambdaEffIn (Reg.insert (fun _ => none) n (RespObj.empty : RespObj XR))) = .ok [XR.nan] := by
      have h1 : lambdaEffIn (Reg.insert (fun _ => none) n (RespObj.empty : RespObj XR)) n = .ok XR.nan := by
        unfold lambdaEffIn; rw [hin, ← xr_nan]; rfl
      simp only [List.mapM_cons, List.mapM_nil, h1, ok_bind, pure_py]
    unfold maggies2flambda
    rw [loadMissing_cached lib disk' _ [n] (by simp [hin])]
    simp only [hls, ok_bind]
    have hid : [XR.nan].map (f32 : XR → XR) = [XR.nan] := rfl
    rw [hid]
    simp [flambdaOf, NDA.vec, bcast, bcols, xr_sedAb_nan]

/-- Not vacuous: two objects in the bands `a` (never loaded successfully) and `b` (loaded). -/
example : ∃ g : Reg XR, (∀ n ∈ [['a'], ['b']], (g n).isSome) ∧ g ['a'] = some RespObj.empty ∧
    (RespObj.empty : RespObj XR).lambdaEff = none ∧
    (NDA.arr [2] 2 [[.fin 1, .fin 2], [.fin 3, .nan]] : NDA XR).WF ∧
    lastAxis (NDA.arr [2] 2 [[XR.fin 1, .fin 2], [.fin 3, .nan]]) 2 ∧
    entry (NDA.arr [2] 2 [[XR.fin 1, .fin 2], [.fin 3, .nan]]) 1 0 = some (XR.fin 3) :=
  ⟨fun n => if n = ['a'] then some RespObj.empty else if n = ['b'] then some { RespObj.empty with lambdaEff := some (.fin 5000) } else none,
    by simp, by simp, rfl, by simp [NDA.WF], by simp [lastAxis, NDA.shape], rfl⟩

end KC
