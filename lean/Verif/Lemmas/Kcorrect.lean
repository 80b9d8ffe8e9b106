import Verif.Model.Kcorrect
import Verif.Props.Inputs

/-! K-corrections of one object and of a batch, in terms of the two matrices. -/

namespace KC
open Spec
variable {α : Type} [Arith α]

theorem at_error {A : AMat α} (hne : A.x ≠ []) {q : α} {e : PyErr} (h : A.at q = .error e) : e = .valueError := by
  unfold AMat.at at h
  rw [if_neg (by simpa using hne)] at h
  split at h
  · cases h; rfl
  · cases h

theorem at_error_cases {A : AMat α} {q : α} {e : PyErr} (h : A.at q = .error e) : e = .valueError ∨ A.x = [] := by
  by_cases hne : A.x = []
  · exact Or.inr hne
  · exact Or.inl (at_error hne h)

/-- K-correction of one object: `z` and `c` are the arguments after conversion to single precision. -/
def kOne (imap : List Nat) (A Ao : AMat α) (round : α → α) (bs z : α) (c : List α) : Py (List α) := do
  let M ← A.at (shiftOf (f32 z) (lit 0))
  let Mo ← Ao.at (shiftOf (f32 (lit 0 * z)) bs)
  return kRow imap round c (reconRow (lit 0) M (c.map f32)) (reconRow bs Mo (c.map f32))

theorem vec_eq {xs : List α} {n : Nat} (h : xs.length = n) : NDA.arr [] n [xs] = NDA.vec xs := by subst h; rfl

/-- `_process_inputs` of one object without photometry. -/
theorem process_scalar (F : Fitter α) (z : α) (c : List α) (hc : c.length = F.templates.nsed) :
    processInputs F (some (.scalar z)) none none (some (.vec c)) = .ok ⟨false, [f32 z], none, none, some [c.map f32]⟩ := by
  unfold processInputs
  simp only [Option.map_some, NDA.map, ok_bind, checkTable]
  rw [if_pos (by simp [NDA.vec, NDA.shape, hc]), ok_bind]
  cases F.abcorrect <;> simp [NDA.vec, NDA.rows]

/-- `_process_inputs` of a batch without photometry. -/
theorem process_array (F : Fitter α) (zs : List α) (cs : List (List α)) :
    processInputs F (some (.vec zs)) none none (some (.arr [zs.length] F.templates.nsed cs)) =
      .ok ⟨true, zs.map f32, none, none, some (cs.map (List.map f32))⟩ := by
  unfold processInputs
  simp only [Option.map_some, NDA.map, NDA.vec, ok_bind, checkTable, List.map_cons, List.map_nil, List.flatten_cons,
    List.flatten_nil, List.append_nil, List.length_map]
  rw [if_pos (by simp [NDA.shape]), ok_bind]
  cases F.abcorrect <;> simp [NDA.rows]

theorem kI_scalar {K : Kc α} {A Ao : AMat α} (hA : K.Amatrix = some A) (hAo : K.AmatrixOut = some Ao) (z : α) (c : List α)
    (m iv : Option (List (List α))) (hc : c.length = K.templates.nsed) (bs : α) :
    K.kcorrectI ⟨false, [z], m, iv, some [c]⟩ bs =
      (kOne K.imap A Ao id bs z c).map (fun r => .arr [] Ao.nrow [r]) := by
  unfold Kc.kcorrectI
  simp only [Option.map_some, Inp.tbl, Inp.zArr, List.headD_cons, Bool.false_eq_true, if_false, vec_eq hc, NDA.map]
  unfold Fitter.reconstruct Kc.reconstructOut
  rw [hA, hAo, recon_scalar _ _ _ _ _ hc, recon_scalar _ _ _ _ _ hc]
  unfold kOne
  cases A.at (shiftOf (f32 z) (lit 0)) with
  | error e => rfl
  | ok M =>
    cases Ao.at (shiftOf (f32 (lit 0 * z)) bs) with
    | error e => rfl
    | ok Mo => rfl

theorem kcorrect_scalar {K : Kc α} {A Ao : AMat α} (hA : K.Amatrix = some A) (hAo : K.AmatrixOut = some Ao) (z : α) (c : List α)
    (hc : c.length = K.templates.nsed) (bs : α) :
    K.kcorrect (some (.scalar z)) (some (.vec c)) bs =
      (kOne K.imap A Ao id bs (f32 z) (c.map f32)).map (fun r => .arr [] Ao.nrow [r]) := by
  unfold Kc.kcorrect
  rw [process_scalar _ z c hc, ok_bind, kI_scalar hA hAo _ _ _ _ (by simpa using hc)]

/-- Batch and object by object, in terms of the matrices. -/
theorem kI_array {K : Kc α} {A Ao : AMat α} (hA : K.Amatrix = some A) (hAo : K.AmatrixOut = some Ao) (zs : List α)
    (m iv : Option (List (List α))) (cs : List (List α)) (hcs : cs.length = zs.length) (bs : α) :
    (∀ out, K.kcorrectI ⟨true, zs, m, iv, some cs⟩ bs = .ok out ↔
      ∃ rows, List.Forall₂ (fun p r => kOne K.imap A Ao f32 bs p.1 p.2 = .ok r) (List.zip zs cs) rows ∧
        out = .arr [zs.length] Ao.nrow rows) ∧
    (∀ e, K.kcorrectI ⟨true, zs, m, iv, some cs⟩ bs = .error e → e = .valueError ∨ A.x = [] ∨ Ao.x = []) := by
  unfold Kc.kcorrectI
  simp only [Option.map_some, Inp.tbl, Inp.zArr, if_true, NDA.map, List.map_cons, List.map_nil]
  unfold Fitter.reconstruct Kc.reconstructOut
  have e1 : (NDA.arr [] zs.length [zs.map (fun z => lit 0 * z)]) = NDA.vec (zs.map (fun z => lit 0 * z)) := vec_eq (by simp)
  have e2 : (NDA.arr [] zs.length [zs]) = NDA.vec zs := rfl
  have h2 := recon_array K.toFitter Ao (zs.map (fun z => lit 0 * z)) cs bs
  simp only [List.length_map, List.map_map, Function.comp_def] at h2
  rw [hA, hAo, e1, e2, recon_array, h2]
  cases hM : A.atAll (zs.map (fun z => shiftOf (f32 z) (lit 0))) with
  | error e =>
    have herr := mapM_error_iff hM
    refine ⟨fun out => ⟨fun h => (by cases h), ?_⟩, ?_⟩
    · rintro ⟨rows, hf, _⟩
      exfalso
      have hall : ∃ Ms, A.atAll (zs.map (fun z => shiftOf (f32 z) (lit 0))) = .ok Ms := by
        apply mapM_exists
        intro q hq
        obtain ⟨z, hz, rfl⟩ := List.mem_map.mp hq
        obtain ⟨i, hi, rfl⟩ := List.mem_iff_getElem.mp hz
        have hi2 : i < (List.zip zs cs).length := by simp [hcs, hi]
        have hi3 : i < rows.length := by rw [← hf.length_eq]; exact hi2
        have := (List.forall₂_iff_get.mp hf).2 i hi2 hi3
        simp only [List.get_eq_getElem, List.getElem_zip] at this
        unfold kOne at this
        cases hq : A.at (shiftOf (f32 zs[i]) (lit 0)) with
        | ok M => exact ⟨M, rfl⟩
        | error e => rw [hq] at this; cases this
      obtain ⟨Ms, hMs⟩ := hall
      rw [hM] at hMs; cases hMs
    · intro e' he'
      cases he'
      obtain ⟨a, _, ha⟩ := herr
      rcases at_error_cases ha with h | h
      · exact Or.inl h
      · exact Or.inr (Or.inl h)
  | ok Ms =>
    have hfM := mapM_ok_iff.mp hM
    rw [List.forall₂_map_left_iff] at hfM
    cases hMo : Ao.atAll (zs.map (fun z => shiftOf (f32 (lit 0 * z)) bs)) with
    | error e =>
      have herr := mapM_error_iff hMo
      refine ⟨fun out => ⟨fun h => (by cases h), ?_⟩, ?_⟩
      · rintro ⟨rows, hf, _⟩
        exfalso
        have hall : ∃ Ms, Ao.atAll (zs.map (fun z => shiftOf (f32 (lit 0 * z)) bs)) = .ok Ms := by
          apply mapM_exists
          intro q hq
          obtain ⟨z, hz, rfl⟩ := List.mem_map.mp hq
          obtain ⟨i, hi, rfl⟩ := List.mem_iff_getElem.mp hz
          have hi2 : i < (List.zip zs cs).length := by simp [hcs, hi]
          have hi3 : i < rows.length := by rw [← hf.length_eq]; exact hi2
          have := (List.forall₂_iff_get.mp hf).2 i hi2 hi3
          simp only [List.get_eq_getElem, List.getElem_zip] at this
          unfold kOne at this
          cases hq : A.at (shiftOf (f32 zs[i]) (lit 0)) with
          | error e => rw [hq] at this; cases this
          | ok M =>
            rw [hq, ok_bind] at this
            cases hq2 : Ao.at (shiftOf (f32 (lit 0 * zs[i])) bs) with
            | ok M => exact ⟨M, rfl⟩
            | error e => rw [hq2] at this; cases this
        obtain ⟨Ms, hMs⟩ := hall
        rw [hMo] at hMs; cases hMs
      · intro e' he'
        cases he'
        obtain ⟨a, _, ha⟩ := herr
        rcases at_error_cases ha with h | h
        · exact Or.inl h
        · exact Or.inr (Or.inr h)
    | ok Mos =>
      have hfO := mapM_ok_iff.mp hMo
      rw [List.forall₂_map_left_iff] at hfO
      have l1 : Ms.length = zs.length := hfM.length_eq.symm
      have l2 : Mos.length = zs.length := hfO.length_eq.symm
      have key : List.Forall₂ (fun p r => kOne K.imap A Ao f32 bs p.1 p.2 = .ok r) (List.zip zs cs)
          (zip3 (kRow K.imap f32) cs (List.zipWith (reconRow (lit 0)) Ms (cs.map (List.map f32)))
            (List.zipWith (reconRow bs) Mos (cs.map (List.map f32)))) := by
        rw [List.forall₂_iff_get]
        refine ⟨by simp [zip3, l1, l2, hcs], ?_⟩
        intro i h1 h2
        have hz : i < zs.length := by simp at h1; omega
        have g1 := (List.forall₂_iff_get.mp hfM).2 i hz (by omega)
        have g2 := (List.forall₂_iff_get.mp hfO).2 i hz (by omega)
        simp only [List.get_eq_getElem] at g1 g2
        simp only [List.get_eq_getElem, List.getElem_zip, zip3, List.getElem_zipWith, List.getElem_map]
        unfold kOne
        rw [g1, g2]; rfl
      refine ⟨fun out => ⟨fun h => ?_, ?_⟩, ?_⟩
      · cases h
        exact ⟨_, key, rfl⟩
      · rintro ⟨rows, hf, rfl⟩
        have : rows = zip3 (kRow K.imap f32) cs (List.zipWith (reconRow (lit 0)) Ms (cs.map (List.map f32)))
            (List.zipWith (reconRow bs) Mos (cs.map (List.map f32))) := by
          apply List.ext_getElem
          · rw [← hf.length_eq, ← key.length_eq]
          · intro i h1 h2
            have h3 : i < (List.zip zs cs).length := by rw [hf.length_eq]; exact h1
            have a1 := (List.forall₂_iff_get.mp hf).2 i h3 h1
            have a2 := (List.forall₂_iff_get.mp key).2 i h3 h2
            rw [a1] at a2
            simpa using a2
        rw [this]; rfl
      · intro e h; cases h

theorem kcorrect_array {K : Kc α} {A Ao : AMat α} (hA : K.Amatrix = some A) (hAo : K.AmatrixOut = some Ao) (zs : List α)
    (cs : List (List α)) (hcs : cs.length = zs.length) (bs : α) :
    (∀ out, K.kcorrect (some (.vec zs)) (some (.arr [zs.length] K.templates.nsed cs)) bs = .ok out ↔
      ∃ rows, List.Forall₂ (fun p r => kOne K.imap A Ao f32 bs (f32 p.1) (p.2.map f32) = .ok r) (List.zip zs cs) rows ∧
        out = .arr [zs.length] Ao.nrow rows) ∧
    (∀ e, K.kcorrect (some (.vec zs)) (some (.arr [zs.length] K.templates.nsed cs)) bs = .error e →
      e = .valueError ∨ A.x = [] ∨ Ao.x = []) := by
  unfold Kc.kcorrect
  rw [process_array, ok_bind]
  have := kI_array hA hAo (zs.map f32) none none (cs.map (List.map f32)) (by simpa using hcs) bs
  simp only [List.length_map] at this
  refine ⟨fun out => ?_, this.2⟩
  rw [this.1 out, List.zip_map]
  simp only [List.forall₂_map_left_iff, Prod.map]

end KC
