import Verif.Lemmas.Inputs
import Verif.Lemmas.Build

/-! `fit_coeffs` reduced to the fit of one object. -/

namespace KC
open Spec
variable {α : Type} [Arith α]

/-- Weighted matrix of line 198. -/
def weighted (inverr : List α) (M : List (List α)) : List (List α) :=
  List.zipWith (fun e row => row.map (fun a => e * a)) inverr M

/-- Right-hand side of line 206. -/
def rhs (m inverr : List α) : List α := List.zipWith (fun x e => x * e) m inverr

/-- `_fit_coeffs` on one object, unpacked as its callers do. -/
def fitU (nnls : Nnls α) (F : Fitter α) (z : α) (m iv : List α) (mc : Nat) (noise : Nat → Nat → α) :
    Py (List α × List (List α) × List (List α)) := do
  unpack (← fit1 nnls F z (some m) iv false mc noise)

theorem weighAt_error {Am : AMat α} {z : α} {e : PyErr} (hz : Am.at z = .error e) (iv : List α) : weighAt Am iv z = .error e := by
  unfold weighAt; rw [hz]; rfl

theorem weighAt_ok {Am : AMat α} {z : α} {M : List (List α)} (hz : Am.at z = .ok M) {iv : List α} (hl : iv.length = M.length) :
    weighAt Am iv z = .ok (weighted (iv.map Arith.sqrt) M) := by
  unfold weighAt weigh weighted; rw [hz, ok_bind, if_pos (by simpa using hl)]

theorem weighted_length {iv : List α} {M : List (List α)} (hl : iv.length = M.length) : (weighted (iv.map Arith.sqrt) M).length = iv.length := by
  simp [weighted, hl]

/-- the only exceptions of line 198 -/
theorem weighAt_error_iff {Am : AMat α} {z : α} {iv : List α} {e : PyErr} (h : weighAt Am iv z = .error e) :
    Am.at z = .error e ∨ e = .valueError ∧ ∃ M, Am.at z = .ok M ∧ iv.length ≠ M.length ∧ M.length ≠ 1 ∧ iv.length ≠ 1 := by
  unfold weighAt at h
  cases hM : Am.at z with
  | error e' => rw [hM, error_bind] at h; cases h; exact Or.inl rfl
  | ok M =>
    rw [hM, ok_bind] at h
    unfold weigh at h
    simp only [List.length_map] at h
    refine Or.inr ?_
    split at h
    · cases h
    · split at h
      · cases h
      · split at h
        · cases h
        · cases h; exact ⟨rfl, M, rfl, by assumption, by assumption, by assumption⟩

theorem weighAt_one {Am : AMat α} {z : α} {M : List (List α)} (hz : Am.at z = .ok M) {iv : List α} (hl : iv.length = 1) :
    ∃ A, weighAt Am iv z = .ok A := by
  cases h : weighAt Am iv z with
  | ok A => exact ⟨A, rfl⟩
  | error e =>
    rcases weighAt_error_iff h with h | ⟨-, M', -, -, -, h⟩
    · rw [hz] at h; cases h
    · exact absurd hl h

theorem fit1_out' {nnls : Nnls α} {F : Fitter α} {Am : AMat α} (hA : F.Amatrix = some Am) {z : α} {iv : List α}
    (hz : weighAt Am iv z = .error .valueError) (m : Option (List α)) (zeroD : Bool) (mc : Nat) (noise : Nat → Nat → α) :
    fit1 nnls F z m iv zeroD mc noise = .ok (if mc = 0 then .one (zeros F.templates.nsed)
      else .two (zeros F.templates.nsed) (fromCols F.templates.nsed (List.replicate mc (zeros F.templates.nsed)))) := by
  unfold fit1
  simp only [hA, hz]
  split <;> rfl

theorem fit1_out {nnls : Nnls α} {F : Fitter α} {Am : AMat α} (hA : F.Amatrix = some Am) {z : α}
    (hz : Am.at z = .error .valueError) (m : Option (List α)) (iv : List α) (zeroD : Bool) (mc : Nat) (noise : Nat → Nat → α) :
    fit1 nnls F z m iv zeroD mc noise = .ok (if mc = 0 then .one (zeros F.templates.nsed)
      else .two (zeros F.templates.nsed) (fromCols F.templates.nsed (List.replicate mc (zeros F.templates.nsed)))) :=
  fit1_out' hA (weighAt_error hz iv) m zeroD mc noise

theorem fit1_error {nnls : Nnls α} {F : Fitter α} {Am : AMat α} (hA : F.Amatrix = some Am) {z : α} {iv : List α} {e : PyErr}
    (hz : weighAt Am iv z = .error e) (he : e ≠ .valueError) (m : Option (List α)) (zeroD : Bool) (mc : Nat) (noise : Nat → Nat → α) :
    fit1 nnls F z m iv zeroD mc noise = .error e := by
  unfold fit1
  simp only [hA, hz]
  cases e <;> first | rfl | exact absurd rfl he

theorem fit1_in' {nnls : Nnls α} {F : Fitter α} {Am : AMat α} (hA : F.Amatrix = some Am) {z : α} {A : List (List α)} {iv : List α}
    (hz : weighAt Am iv z = .ok A) (hl : A.length = iv.length) (m : List α) (mc : Nat) (noise : Nat → Nat → α) :
    fit1 nnls F z (some m) iv false mc noise = (do
      let c ← solve nnls F.templates.nsed A (rhs m (iv.map Arith.sqrt))
      if mc = 0 then return .one c
      else
        let mm := (List.range mc).map (fun k => mcMaggies (noise k) m (iv.map Arith.sqrt))
        let cs ← mm.mapM (fun mk => do
          storeRow F.templates.nsed (.vec (← solve nnls F.templates.nsed A (rhs mk (iv.map Arith.sqrt)))))
        return .three c (fromCols F.templates.nsed cs) (fromCols m.length mm)) := by
  unfold fit1
  simp only [hA, hz]
  have : (A.length != iv.length) = false := by simpa using hl
  simp only [this, Bool.or_false, Bool.false_eq_true, if_false]
  rfl

theorem fit1_rows {nnls : Nnls α} {F : Fitter α} {Am : AMat α} (hA : F.Amatrix = some Am) {z : α} {A : List (List α)} {iv : List α}
    (hz : weighAt Am iv z = .ok A) (hl : A.length ≠ iv.length) (m : List α) (mc : Nat) (noise : Nat → Nat → α) :
    fit1 nnls F z (some m) iv false mc noise = .error .valueError := by
  unfold fit1
  simp only [hA, hz]
  have : (A.length != iv.length) = true := by simpa using hl
  simp only [this, Bool.or_true, if_true]
  rfl

theorem fit1_in {nnls : Nnls α} {F : Fitter α} {Am : AMat α} (hA : F.Amatrix = some Am) {z : α} {M : List (List α)}
    (hz : Am.at z = .ok M) (m : List α) {iv : List α} (hl : iv.length = M.length) (mc : Nat) (noise : Nat → Nat → α) :
    fit1 nnls F z (some m) iv false mc noise = (do
      let c ← solve nnls F.templates.nsed (weighted (iv.map Arith.sqrt) M) (rhs m (iv.map Arith.sqrt))
      if mc = 0 then return .one c
      else
        let mm := (List.range mc).map (fun k => mcMaggies (noise k) m (iv.map Arith.sqrt))
        let cs ← mm.mapM (fun mk => do
          storeRow F.templates.nsed (.vec (← solve nnls F.templates.nsed (weighted (iv.map Arith.sqrt) M) (rhs mk (iv.map Arith.sqrt)))))
        return .three c (fromCols F.templates.nsed cs) (fromCols m.length mm)) :=
  fit1_in' hA (weighAt_ok hz hl) (weighted_length hl) m mc noise

theorem fit1_zeroD {nnls : Nnls α} {F : Fitter α} {Am : AMat α} (hA : F.Amatrix = some Am) {z : α} {M : List (List α)}
    (hz : Am.at z = .ok M) (m : List α) {iv : List α} (hl : iv.length = 1) (mc : Nat) (noise : Nat → Nat → α) :
    fit1 nnls F z (some m) iv true mc noise = .error .valueError := by
  obtain ⟨A, hw⟩ := weighAt_one hz hl
  unfold fit1
  simp only [hA, hw]
  rfl

theorem fitU_in0 {nnls : Nnls α} {F : Fitter α} {Am : AMat α} (hA : F.Amatrix = some Am) {z : α} {M : List (List α)}
    (hz : Am.at z = .ok M) (m : List α) {iv : List α} (hl : iv.length = M.length) (noise : Nat → Nat → α) :
    fitU nnls F z m iv 0 noise = (solve nnls F.templates.nsed (weighted (iv.map Arith.sqrt) M) (rhs m (iv.map Arith.sqrt))).map
      (fun c => (c, [], [])) := by
  unfold fitU
  rw [fit1_in hA hz m hl]
  cases solve nnls F.templates.nsed (weighted (iv.map Arith.sqrt) M) (rhs m (iv.map Arith.sqrt)) <;> rfl

/-- without Monte Carlo the fluxes matter only through the right-hand side -/
theorem fitU_congr (nnls : Nnls α) (F : Fitter α) (z : α) {m m' iv : List α} (h : rhs m (iv.map Arith.sqrt) = rhs m' (iv.map Arith.sqrt))
    (noise : Nat → Nat → α) : fitU nnls F z m iv 0 noise = fitU nnls F z m' iv 0 noise := by
  unfold fitU
  cases hA : F.Amatrix with
  | none => simp [fit1, hA]
  | some Am =>
    cases hz : weighAt Am iv z with
    | error e =>
      by_cases he : e = .valueError
      · subst he; rw [fit1_out' hA hz, fit1_out' hA hz]
      · rw [fit1_error hA hz he, fit1_error hA hz he]
    | ok A =>
      by_cases hl : A.length = iv.length
      · rw [fit1_in' hA hz hl, fit1_in' hA hz hl, h]
        simp only [if_true]
      · rw [fit1_rows hA hz hl, fit1_rows hA hz hl]

theorem fitU_in0' {nnls : Nnls α} {F : Fitter α} {Am : AMat α} (hA : F.Amatrix = some Am) {z : α} {A : List (List α)} {iv : List α}
    (hz : weighAt Am iv z = .ok A) (hl : A.length = iv.length) (m : List α) (noise : Nat → Nat → α) :
    fitU nnls F z m iv 0 noise = (solve nnls F.templates.nsed A (rhs m (iv.map Arith.sqrt))).map (fun c => (c, [], [])) := by
  unfold fitU
  rw [fit1_in' hA hz hl m]
  cases solve nnls F.templates.nsed A (rhs m (iv.map Arith.sqrt)) <;> rfl

theorem fitU_out0 {nnls : Nnls α} {F : Fitter α} {Am : AMat α} (hA : F.Amatrix = some Am) {z : α}
    (hz : Am.at z = .error .valueError) (m iv : List α) (noise : Nat → Nat → α) :
    fitU nnls F z m iv 0 noise = .ok (zeros F.templates.nsed, [], []) := by
  unfold fitU
  rw [fit1_out hA hz]; rfl

theorem fitU_outmc {nnls : Nnls α} {F : Fitter α} {Am : AMat α} (hA : F.Amatrix = some Am) {z : α}
    (hz : Am.at z = .error .valueError) (m iv : List α) {mc : Nat} (hmc : 0 < mc) (noise : Nat → Nat → α) :
    fitU nnls F z m iv mc noise = .error .valueError := by
  unfold fitU
  rw [fit1_out hA hz, if_neg (by omega)]; rfl

/-- The packed result for a scalar redshift. -/
def outOne (F : Fitter α) (mc : Nat) (r : List α × List (List α) × List (List α)) : FitOut α :=
  if mc = 0 then ⟨.vec r.1, none⟩ else ⟨.vec r.1, some (.arr [F.templates.nsed] mc r.2.1, .arr [F.responses.length] mc r.2.2)⟩

theorem fit_scalar (nnls : Nnls α) {F : Fitter α} (hF : NoAb F) (hnb : F.responses.length ≠ 1) (z : α) (m iv : List α)
    (hm : m.length = F.responses.length) (hiv : iv.length = F.responses.length) (mc : Nat) (noise : Nat → Nat → Nat → α) :
    F.fitCoeffs nnls (some (.scalar z)) (some (.vec m)) (some (.vec iv)) mc noise =
      (fitU nnls F (f32 z) (m.map f32) (iv.map f32) mc (noise 0)).map (outOne F mc) := by
  unfold Fitter.fitCoeffs Fitter.fitCoeffsI
  rw [processInputs_scalar hF z _ _ _ (by simp [NDA.vec, NDA.shape, hm]) (by simp [NDA.vec, NDA.shape, hiv]) (by simp)]
  simp only [ok_bind, Option.map_some, rowsF_vec, Option.map_none, List.length_singleton, if_true, Option.isNone_some]
  unfold fitOne fitU
  have hb : (F.responses.length == 1) = false := by simpa using hnb
  simp only [hb, Option.map_some, List.headD_cons]
  simp only [Bool.false_eq_true, if_false]
  cases fit1 nnls F (f32 z) (some (m.map f32)) (iv.map f32) false mc (noise 0) with
  | error e => rfl
  | ok r =>
    simp only [ok_bind]
    cases unpack r with
    | error e => rfl
    | ok t =>
      simp only [ok_bind, Except.map, outOne]
      split <;> rfl

/-- one pass of the batch loop on an object -/
def passU (nnls : Nnls α) (F : Fitter α) (mc : Nat) (noise : Nat → Nat → α) (o : α × List α × List α) :
    Py (List α × List (List α) × List (List α)) := do
  let r ← fitU nnls F (f32 o.1) (o.2.1.map f32) (o.2.2.map f32) mc noise
  let c ← storeRow F.templates.nsed (.vec r.1)
  return (c, r.2.1, r.2.2)

theorem fitPass_eq (nnls : Nnls α) (F : Fitter α) (zs : List α) (ms ivs : List (List α)) (hm : ms.length = zs.length)
    (hiv : ivs.length = zs.length) (mc : Nat) (noise : Nat → Nat → Nat → α) (k : Nat) (hk : k < zs.length) :
    fitPass nnls F ⟨true, zs.map f32, some (ms.map (List.map f32)), some (ivs.map (List.map f32)), none⟩ mc noise k =
      passU nnls F mc (noise k) (zs[k], ms[k]'(by omega), ivs[k]'(by omega)) := by
  unfold fitPass passU fitU
  have h1 : k < ms.length := by omega
  have h2 : k < ivs.length := by omega
  simp only [rowOpt, List.getD, List.getElem?_map, List.getElem?_eq_getElem h1, List.getElem?_eq_getElem h2,
    Option.map_some, Option.getD_some, ok_bind, ent, List.getElem?_eq_getElem hk]
  cases fit1 nnls F (f32 zs[k]) (some (List.map f32 ms[k])) (List.map f32 ivs[k]) false mc (noise k) <;> rfl

/-- The packed result for a batch. -/
def outMany (F : Fitter α) (mc n : Nat) (rs : List (List α × List (List α) × List (List α))) : FitOut α :=
  if mc = 0 then ⟨.arr [n] F.templates.nsed (rs.map (fun r => r.1)), none⟩
  else ⟨.arr [n] F.templates.nsed (rs.map (fun r => r.1)),
    some (.arr [n, F.templates.nsed] mc (rs.map (fun r => r.2.1)).flatten,
      .arr [n, F.responses.length] mc (rs.map (fun r => r.2.2)).flatten)⟩

theorem fit_array (nnls : Nnls α) {F : Fitter α} (hF : NoAb F) (zs : List α) (ms ivs : List (List α)) (hn : zs.length ≠ 1)
    (hm : ms.length = zs.length) (hiv : ivs.length = zs.length) (mc : Nat) (noise : Nat → Nat → Nat → α) :
    F.fitCoeffs nnls (some (.vec zs)) (some (.arr [zs.length] F.responses.length ms))
      (some (.arr [zs.length] F.responses.length ivs)) mc noise =
      ((List.range zs.length).mapM (fun k => passU nnls F mc (noise k) (ent zs k, ms.getD k [], ivs.getD k []))).map
        (outMany F mc zs.length) := by
  unfold Fitter.fitCoeffs Fitter.fitCoeffsI
  rw [processInputs_array hF zs _ _ _ (by simp [NDA.shape]) (by simp [NDA.shape]) (by simp)]
  simp only [ok_bind, Option.map_some, rowsF_mat, Option.map_none, List.length_map, if_neg hn, Option.isNone_some]
  have : (List.range zs.length).mapM (fitPass nnls F ⟨true, zs.map f32, some (ms.map (List.map f32)), some (ivs.map (List.map f32)), none⟩
      mc noise) = (List.range zs.length).mapM (fun k => passU nnls F mc (noise k) (ent zs k, ms.getD k [], ivs.getD k [])) := by
    apply mapM_congr
    intro k hk
    have hk' := List.mem_range.mp hk
    rw [fitPass_eq nnls F zs ms ivs hm hiv mc noise k hk']
    have h1 : k < ms.length := by omega
    have h2 : k < ivs.length := by omega
    simp [ent, List.getD, hk', h1, h2]
  simp only [Bool.false_eq_true, if_false]
  rw [this]
  cases (List.range zs.length).mapM (fun k => passU nnls F mc (noise k) (ent zs k, ms.getD k [], ivs.getD k [])) with
  | error e => rfl
  | ok rs =>
    simp only [ok_bind, Except.map, outMany]
    split <;> rfl

/-- A one-element array without Monte Carlo. -/
theorem fit_array1 (nnls : Nnls α) {F : Fitter α} (hF : NoAb F) (hnb : F.responses.length ≠ 1) (z : α) (m iv : List α)
    (noise : Nat → Nat → Nat → α) :
    F.fitCoeffs nnls (some (.vec [z])) (some (.arr [1] F.responses.length [m])) (some (.arr [1] F.responses.length [iv])) 0 noise =
      (fitU nnls F (f32 z) (m.map f32) (iv.map f32) 0 (noise 0)).map (fun r => ⟨.arr [1] r.1.length [r.1], none⟩) := by
  unfold Fitter.fitCoeffs Fitter.fitCoeffsI
  rw [processInputs_array hF [z] _ _ _ (by simp [NDA.shape]) (by simp [NDA.shape]) (by simp)]
  simp only [ok_bind, Option.map_some, rowsF_mat, Option.map_none, List.length_map, List.length_singleton, if_true, Option.isNone_some]
  unfold fitOne fitU
  have hb : (F.responses.length == 1) = false := by simpa using hnb
  simp only [hb, Option.map_some, List.headD_cons, List.map_cons, List.map_nil]
  simp only [Bool.false_eq_true, if_false, if_true]
  cases fit1 nnls F (f32 z) (some (m.map f32)) (iv.map f32) false 0 (noise 0) with
  | error e => rfl
  | ok r =>
    simp only [ok_bind]
    cases unpack r with
    | error e => rfl
    | ok t => rfl

end KC
