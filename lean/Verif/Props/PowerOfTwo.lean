import Verif.Props.FloatMag
import Verif.Props.FloatUtils

/-!
# Property C180: a power of two passes through the rounding
-/

namespace KC
open Spec

/-- `x` times `2^k`, exactly, in the dtype of `x` -/
noncomputable def Fl.shift (k : ℤ) (a : Fl) : Fl := ⟨2 ^ k * a.val, a.dt⟩

/-- rounding commutes with multiplication by a power of two -/
theorem rd_shift (p : Nat) (k : ℤ) (x : ℝ) : rd p (2 ^ k * x) = 2 ^ k * rd p x := by
  by_cases hx : x = 0
  · subst hx; simp
  have hk : (0 : ℝ) < 2 ^ k := by positivity
  have hl : Int.log 2 |2 ^ k * x| = Int.log 2 |x| + k := by
    obtain ⟨h1, h2⟩ := log_bounds hx
    refine log_eq ?_ ?_
    · rw [abs_mul, abs_of_pos hk, zpow_add₀ (by norm_num), mul_comm]
      exact mul_le_mul_of_nonneg_left h1 hk.le
    · rw [abs_mul, abs_of_pos hk, show Int.log 2 |x| + k + 1 = k + (Int.log 2 |x| + 1) by ring, zpow_add₀ (by norm_num)]
      exact mul_lt_mul_of_pos_left h2 hk
  have he : ulpExp p (2 ^ k * x) = ulpExp p x + k := by unfold ulpExp; rw [hl]; ring
  unfold rd
  rw [he, zpow_add₀ (by norm_num)]
  have hu : (0 : ℝ) < 2 ^ ulpExp p x := by positivity
  have e : 2 ^ k * x / (2 ^ ulpExp p x * 2 ^ k) = x / 2 ^ ulpExp p x := by field_simp
  rw [e]; ring

namespace Fl

theorem shift_lit0 (k : ℤ) : shift k (lit 0) = lit 0 := by
  have h0 : (lit 0 : Fl) = ⟨0, .weak⟩ := by simpa using lit_nat (n := 0) (by norm_num)
  rw [h0, shift]; simp

theorem shift_f32 (k : ℤ) (a : Fl) : f32 (shift k a) = shift k (f32 a) := by
  rw [fl_f32, fl_f32]
  simp only [shift, rd_shift]

theorem shift_add (k : ℤ) (a b : Fl) : shift k a + shift k b = shift k (a + b) := by
  simp only [fl_add, op2, shift, rd_shift, ← mul_add]

theorem shift_mul (k : ℤ) (a b : Fl) : shift k a * b = shift k (a * b) := by
  simp only [fl_mul, op2, shift, rd_shift, mul_assoc]

theorem mul_shift (k : ℤ) (a b : Fl) : a * shift k b = shift k (a * b) := by
  simp only [fl_mul, op2, shift, rd_shift, mul_left_comm]

theorem shift_div (k : ℤ) (a b : Fl) : shift k a / b = shift k (a / b) := by
  simp only [fl_div, op2, shift, rd_shift, mul_div_assoc]

theorem shift_div_shift (k : ℤ) (a b : Fl) : shift k a / shift k b = a / b := by
  have hk : (2 : ℝ) ^ k ≠ 0 := by positivity
  simp only [fl_div, op2, shift, rd_shift]
  rw [mul_div_mul_left _ _ hk]

theorem shift_gtb0 (k : ℤ) (a : Fl) : gtb (shift k a) (lit 0) = gtb a (lit 0) := by
  have hk : (0 : ℝ) < 2 ^ k := by positivity
  have h0 : (lit 0 : Fl) = ⟨0, .weak⟩ := by simpa using lit_nat (n := 0) (by norm_num)
  rw [h0]
  show decide (0 < 2 ^ k * a.val) = decide (0 < a.val)
  rw [decide_eq_decide]
  exact mul_pos_iff_of_pos_left hk

end Fl

open Fl

theorem sumL_shift (k : ℤ) : ∀ c : List Fl, sumL (c.map (shift k)) = shift k (sumL c)
  | [] => (shift_lit0 k).symm
  | a :: c => by
    show shift k a + sumL (c.map (shift k)) = shift k (a + sumL c)
    rw [sumL_shift k c, shift_add]

theorem dot_shift (k : ℤ) (row c : List Fl) : dot row (c.map (shift k)) = shift k (dot row c) := by
  unfold dot
  rw [← sumL_shift, List.zipWith_map_right, List.map_zipWith]
  simp only [mul_shift]

theorem dot_shift_left (k : ℤ) (c t : List Fl) : dot (c.map (shift k)) t = shift k (dot c t) := by
  unfold dot
  rw [← sumL_shift, List.zipWith_map_left, List.map_zipWith]
  simp only [shift_mul]

/-- the processed inputs with the coefficients multiplied by `2^k` -/
noncomputable def Inp.shift (k : ℤ) (i : Inp Fl) : Inp Fl := { i with coeffs := i.coeffs.map (List.map (List.map (Fl.shift k))) }

theorem nda_map_f32 (k : ℤ) (a : NDA Fl) : (a.map (Fl.shift k)).map f32 = (a.map f32).map (Fl.shift k) := by
  cases a with
  | scalar x => simp [NDA.map, shift_f32]
  | arr l n rows => simp [NDA.map, shift_f32]

theorem checkTable_shift (k : ℤ) (arr : Bool) (n w : Nat) (co : Option (NDA Fl)) :
    checkTable arr n w (co.map (NDA.map (Fl.shift k))) = (checkTable arr n w co).map (Option.map (NDA.map (Fl.shift k))) := by
  cases co with
  | none => rfl
  | some a =>
    simp only [Option.map_some, checkTable, nda_map_f32, map_shape]
    by_cases h : a.shape = (if arr = true then [n, w] else [w])
    · simp only [if_pos h]; rfl
    · simp only [if_neg h]; rfl

theorem proc_shift (k : ℤ) (F : Fitter Fl) (z co : Option (NDA Fl)) :
    processInputs F z none none (co.map (NDA.map (Fl.shift k))) = (processInputs F z none none co).map (Inp.shift k) := by
  unfold processInputs
  have key : ∀ (arr : Bool) (zz : List Fl), (do
        let coeffs ← checkTable arr zz.length F.templates.nsed (co.map (NDA.map (Fl.shift k)))
        return (⟨arr, zz, none, none, coeffs.map NDA.rows⟩ : Inp Fl) : Py (Inp Fl)) =
      (do
        let coeffs ← checkTable arr zz.length F.templates.nsed co
        return (⟨arr, zz, none, none, coeffs.map NDA.rows⟩ : Inp Fl) : Py (Inp Fl)).map (Inp.shift k) := by
    intro arr zz
    rw [checkTable_shift]
    cases checkTable arr zz.length F.templates.nsed co with
    | error e => rfl
    | ok c =>
      cases c with
      | none => rfl
      | some a => cases a <;> rfl
  cases z with
  | none => rfl
  | some z =>
    cases z with
    | scalar x => simpa [NDA.map, checkTable, ok_bind] using key false [f32 x]
    | arr l n rows =>
      cases l with
      | nil => simpa [NDA.map, checkTable, ok_bind] using key true (rows.map (List.map f32)).flatten
      | cons a l => rfl

theorem reconRow_shift (k : ℤ) (bs : Fl) (M : List (List Fl)) (c : List Fl) :
    reconRow bs M (c.map (Fl.shift k)) = (reconRow bs M c).map (Fl.shift k) := by
  unfold reconRow
  rw [List.map_map]
  apply List.map_congr_left
  intro row _
  simp only [Function.comp_apply, dot_shift, shift_div]

theorem reconI_shift (k : ℤ) (A : Option (AMat Fl)) (i : Inp Fl) (bs : Fl) :
    reconI A (i.shift k) bs = (reconI A i bs).map (NDA.map (Fl.shift k)) := by
  unfold reconI
  cases A with
  | none => rfl
  | some A =>
    simp only [Inp.shift]
    generalize A.atAll (i.z.map fun z => shiftOf z bs) = r
    cases r with
    | error e => rfl
    | ok Ms =>
      cases hc : i.coeffs with
      | none => simp only [Option.map_none, ok_bind]; rfl
      | some cs =>
        have e : List.zipWith (reconRow bs) Ms (cs.map (List.map (Fl.shift k))) = (List.zipWith (reconRow bs) Ms cs).map (List.map (Fl.shift k)) := by
          rw [List.zipWith_map_right, List.map_zipWith]
          simp only [reconRow_shift]
        simp only [Option.map_some, ok_bind, e, Inp.tbl]
        cases i.array <;> rfl

/-- **C180, model maggies.** Coefficients multiplied by a power of two give the model maggies multiplied by it, to the last bit. -/
theorem C180_reconstruct (F : Fitter Fl) (k : ℤ) (z co : Option (NDA Fl)) (bs : Fl) :
    F.reconstruct z (co.map (NDA.map (Fl.shift k))) bs = (F.reconstruct z co bs).map (NDA.map (Fl.shift k)) := by
  unfold Fitter.reconstruct reconstructWith
  rw [proc_shift]
  cases processInputs F z none none co with
  | error e => rfl
  | ok i => exact reconI_shift k _ i bs

theorem kRow_shift (k : ℤ) (imap : List Nat) (round : Fl → Fl) (c a b : List Fl) :
    kRow imap round (c.map (Fl.shift k)) (a.map (Fl.shift k)) (b.map (Fl.shift k)) = kRow imap round c a b := by
  have hg : gather (a.map (Fl.shift k)) imap = (gather a imap).map (Fl.shift k) := by
    unfold gather
    rw [List.map_map]
    apply List.map_congr_left
    intro j _
    simp only [Function.comp_apply, List.getD_eq_getElem?_getD, List.getElem?_map]
    cases a[j]? with
    | none => simp [shift_lit0]
    | some x => simp
  unfold kRow
  rw [sumL_shift, shift_gtb0, hg, List.length_map, List.zipWith_map]
  simp only [shift_div_shift]

theorem zip3_shift (k : ℤ) {f : List Fl → List Fl → List Fl → List Fl} (hf : ∀ c a b, f (c.map (Fl.shift k)) (a.map (Fl.shift k)) (b.map (Fl.shift k)) = f c a b)
    (cs as bs : List (List Fl)) : zip3 f (cs.map (List.map (Fl.shift k))) (as.map (List.map (Fl.shift k))) (bs.map (List.map (Fl.shift k))) = zip3 f cs as bs := by
  unfold zip3
  rw [List.zip_map, List.zipWith_map]
  simp only [Prod.map_fst, Prod.map_snd, hf]

theorem reconI_arr {A : Option (AMat Fl)} {i : Inp Fl} {bs : Fl} {a : NDA Fl} (h : reconI A i bs = .ok a) : ∃ l n rows, a = .arr l n rows := by
  unfold reconI at h
  cases A with
  | none => cases h
  | some A =>
    simp only at h
    obtain ⟨Ms, _, h2⟩ := bind_ok_iff.mp h
    cases hc : i.coeffs with
    | none => rw [hc] at h2; cases h2
    | some cs =>
      rw [hc] at h2
      simp only [pure_py, Except.ok.injEq, Inp.tbl] at h2
      split at h2 <;> exact ⟨_, _, _, h2.symm⟩

/-- **C180, K-corrections.** Coefficients multiplied by a power of two give the same K-corrections, to the last bit. -/
theorem C180_kcorrect (K : Kc Fl) (k : ℤ) (z co : Option (NDA Fl)) (bs : Fl) :
    K.kcorrect z (co.map (NDA.map (Fl.shift k))) bs = K.kcorrect z co bs := by
  unfold Kc.kcorrect
  rw [proc_shift]
  cases processInputs K.toFitter z none none co with
  | error e => rfl
  | ok i =>
    show K.kcorrectI (i.shift k) bs = K.kcorrectI i bs
    unfold Kc.kcorrectI
    have hco : (i.shift k).coeffs.map ((i.shift k).tbl K.templates.nsed) = (i.coeffs.map (i.tbl K.templates.nsed)).map (NDA.map (Fl.shift k)) := by
      cases hc : i.coeffs with
      | none => simp [Inp.shift, hc]
      | some cs =>
        simp only [Inp.shift, hc, Option.map_some, Inp.tbl]
        cases i.array <;> rfl
    have hz : (i.shift k).zArr = i.zArr := rfl
    have hb : ∀ zz, K.reconstructOut zz ((i.coeffs.map (i.tbl K.templates.nsed)).map (NDA.map (Fl.shift k))) bs =
        (K.reconstructOut zz (i.coeffs.map (i.tbl K.templates.nsed)) bs).map (NDA.map (Fl.shift k)) := by
      intro zz
      unfold Kc.reconstructOut reconstructWith
      rw [proc_shift]
      cases processInputs K.toFitter zz none none (i.coeffs.map (i.tbl K.templates.nsed)) with
      | error e => rfl
      | ok i => exact reconI_shift k _ i bs
    have hB : ∀ b, K.reconstructOut (some (i.zArr.map fun z => lit 0 * z)) (i.coeffs.map (i.tbl K.templates.nsed)) bs = .ok b → ∃ l n rows, b = .arr l n rows := by
      intro b h
      unfold Kc.reconstructOut reconstructWith at h
      obtain ⟨j, _, h2⟩ := bind_ok_iff.mp h
      exact reconI_arr h2
    simp only [hco, C180_reconstruct, hb, hz]
    generalize K.reconstruct (some i.zArr) (i.coeffs.map (i.tbl K.templates.nsed)) (lit 0) = ra
    generalize K.reconstructOut (some (i.zArr.map fun z => lit 0 * z)) (i.coeffs.map (i.tbl K.templates.nsed)) bs = rb at hB
    cases ra with
    | error e => rfl
    | ok a =>
      cases rb with
      | error e => rfl
      | ok b =>
        obtain ⟨l, n, rows, rfl⟩ := hB b rfl
        simp only [Inp.shift]
        cases hc : i.coeffs with
        | none => rfl
        | some cs =>
          have ha : (a.map (Fl.shift k)).rows = a.rows.map (List.map (Fl.shift k)) := by cases a <;> rfl
          simp only [Except.map, ok_bind, Option.map_some, ha]
          simp only [NDA.map, NDA.rows, NDA.withRows]
          rw [zip3_shift k (fun c a b => kRow_shift k _ _ c a b)]
          rfl

/-! ### derived quantities -/

/-- the masses multiplied by `2^k`, everything else unchanged -/
noncomputable def Derived.shift (k : ℤ) (d : Derived Fl) : Derived Fl :=
  { d with mremain := d.mremain.map (Fl.shift k), intsfh := d.intsfh.map (Fl.shift k) }

theorem dotPy_shift (k : ℤ) (cs : List (List Fl)) (n : Nat) (t : List Fl) :
    dotPy (cs.map (List.map (Fl.shift k))) n t = (dotPy cs n t).map (List.map (Fl.shift k)) := by
  unfold dotPy
  split
  · simp only [Except.map, List.map_map]
    congr 1
    apply List.map_congr_left
    intro c _
    simp only [Function.comp_apply, dot_shift_left]
  · rfl

theorem ratio_shift (k : ℤ) (round : Fl → Fl) (m a b : Fl) : ratio round (Fl.shift k m) (Fl.shift k a) (Fl.shift k b) = ratio round m a b := by
  unfold ratio
  rw [shift_gtb0, shift_div_shift]

theorem zip3_ratio_shift (k : ℤ) (round : Fl → Fl) (ms as bs : List Fl) :
    zip3 (ratio round) (ms.map (Fl.shift k)) (as.map (Fl.shift k)) (bs.map (Fl.shift k)) = zip3 (ratio round) ms as bs := by
  unfold zip3
  rw [List.zip_map, List.zipWith_map]
  simp only [Prod.map_fst, Prod.map_snd, ratio_shift]

theorem zipMul_shift (k : ℤ) (xs ys : List Fl) :
    List.zipWith (fun x y => x * y) (xs.map (Fl.shift k)) ys = (List.zipWith (fun x y => x * y) xs ys).map (Fl.shift k) := by
  rw [List.zipWith_map_left, List.map_zipWith]
  congr 1
  funext a b
  rw [shift_mul]

theorem mtolEntry_shift (k : ℤ) (m r : Fl) : mtolEntry (Fl.shift k m) (Fl.shift k r) = mtolEntry m r := by
  unfold mtolEntry
  rw [shift_gtb0, shift_div_shift]

theorem vecArr_shift (k : ℤ) (i : Inp Fl) (xs : List Fl) : i.vecArr (xs.map (Fl.shift k)) = (i.vecArr xs).map (Fl.shift k) := by
  unfold Inp.vecArr
  split
  · simp [NDA.vec, NDA.map]
  · cases xs with
    | nil => simp [NDA.map, shift_lit0]
    | cons a l => simp [NDA.map]

/-- `Kc.derivedI` after the distances have been turned into factors -/
def Kc.derivedTail [Arith α] (K : Kc α) (g : Reg α) (i : Inp α) (bs : α) (p : Option (List α) × List α) : Py (Derived α) :=
  match i.coeffs with
  | none => throw .attributeError
  | some cs => do
    let t ← K.templates.mass
    let nsed := K.templates.nsed
    let scaled (v : List α) : Py (List α) := do return List.zipWith (fun x y => x * y) (← dotPy cs nsed v) p.2
    let intsfh ← scaled t.intsfh
    let mremain ← scaled t.mremain
    require (t.mremain.length = t.mets.length) .valueError
    let metals ← scaled (List.zipWith (fun x y => x * y) t.mremain t.mets)
    let m50 ← scaled t.m50
    let m300 ← scaled t.m300
    let m1000 ← scaled t.m1000
    let round : α → α := if i.array then f32 else id
    let metallicity := zip3 (ratio round) mremain metals mremain
    let b50 := zip3 (ratio round) mremain m50 intsfh
    let b300 := zip3 (ratio round) mremain m300 intsfh
    let b1000 := zip3 (ratio round) mremain m1000 intsfh
    let rm ← K.reconstructOut (some (i.vecArr (zeros i.z.length))) (i.coeffs.map (i.tbl K.templates.nsed)) bs
    let solar ← K.responsesOut.mapM (solarOf g p.1)
    let rows := rm.rows.mapIdx (fun k row => row.mapIdx (fun j v =>
      match solar[j]? with
      | some s => f32 (v / ent s k)
      | none => v))
    require (i.array = true → K.responses.length = K.responsesOut.length) .indexError
    let mass := if i.array then mremain.map (fun x => x * lit 1) else mremain
    let mtol := rm.withRows (List.zipWith (fun x row => row.map (mtolEntry x)) mass rows)
    return ⟨i.vecArr mremain, i.vecArr intsfh, mtol, i.vecArr b50, i.vecArr b300, i.vecArr b1000, i.vecArr metallicity⟩

theorem derivedI_tail [Arith α] (K : Kc α) (g : Reg α) (i : Inp α) (bs : α) (distance : Option (NDA α)) :
    K.derivedI g i bs distance = (match distance with
      | some d => (processInputs K.toFitter (some d) none none (i.coeffs.map (i.tbl K.templates.nsed))).bind
          fun j => K.derivedTail g i bs (none, j.z.map dfactorOf)
      | none => K.derivedTail g i bs (some (i.z.map K.distmod), (i.z.map K.distmod).map (fun d => pow10 (lit (2 / 5) * d)))) := by
  unfold Kc.derivedI Kc.derivedTail
  cases distance with
  | none => simp only [ok_bind, pure_py]; cases i.coeffs <;> rfl
  | some d =>
    cases processInputs K.toFitter (some d) none none (i.coeffs.map (i.tbl K.templates.nsed)) with
    | error e => rfl
    | ok j => simp only [ok_bind, pure_py, Except.bind]; cases i.coeffs <;> rfl

theorem tbl_shift (K : Kc Fl) (k : ℤ) (i : Inp Fl) :
    (i.shift k).coeffs.map ((i.shift k).tbl K.templates.nsed) = (i.coeffs.map (i.tbl K.templates.nsed)).map (NDA.map (Fl.shift k)) := by
  cases hc : i.coeffs with
  | none => simp [Inp.shift, hc]
  | some cs =>
    simp only [Inp.shift, hc, Option.map_some, Inp.tbl]
    cases i.array <;> rfl

theorem mtol_rows_shift (k : ℤ) (f : Nat → Nat → Fl → Fl) (hf : ∀ r j v, f r j (Fl.shift k v) = Fl.shift k (f r j v)) (rows : List (List Fl)) (mass : List Fl) :
    List.zipWith (fun x (row : List Fl) => row.map (mtolEntry x)) (mass.map (Fl.shift k))
      ((rows.map (List.map (Fl.shift k))).mapIdx (fun r row => row.mapIdx (f r))) =
    List.zipWith (fun x (row : List Fl) => row.map (mtolEntry x)) mass (rows.mapIdx (fun r row => row.mapIdx (f r))) := by
  have e : (rows.map (List.map (Fl.shift k))).mapIdx (fun r row => row.mapIdx (f r)) =
      (rows.mapIdx (fun r row => row.mapIdx (f r))).map (List.map (Fl.shift k)) := by
    apply List.ext_getElem (by simp)
    intro n h1 h2
    simp only [List.getElem_mapIdx, List.getElem_map]
    apply List.ext_getElem (by simp)
    intro m h3 h4
    simp only [List.getElem_mapIdx, List.getElem_map, hf]
  rw [e, List.zipWith_map]
  congr 1
  funext x row
  rw [List.map_map]
  apply List.map_congr_left
  intro v _
  simp only [Function.comp_apply, mtolEntry_shift]

theorem derivedTail_shift (K : Kc Fl) (g : Reg Fl) (k : ℤ) (i : Inp Fl) (bs : Fl) (p : Option (List Fl) × List Fl) :
    K.derivedTail g (i.shift k) bs p = (K.derivedTail g i bs p).map (Derived.shift k) := by
  unfold Kc.derivedTail
  have hb : ∀ zz, K.reconstructOut zz ((i.coeffs.map (i.tbl K.templates.nsed)).map (NDA.map (Fl.shift k))) bs =
      (K.reconstructOut zz (i.coeffs.map (i.tbl K.templates.nsed)) bs).map (NDA.map (Fl.shift k)) := by
    intro zz
    unfold Kc.reconstructOut reconstructWith
    rw [proc_shift]
    cases processInputs K.toFitter zz none none (i.coeffs.map (i.tbl K.templates.nsed)) with
    | error e => rfl
    | ok i => exact reconI_shift k _ i bs
  have hB : ∀ b, K.reconstructOut (some (i.vecArr (zeros i.z.length))) (i.coeffs.map (i.tbl K.templates.nsed)) bs = .ok b → ∃ l n rows, b = .arr l n rows := by
    intro b h
    unfold Kc.reconstructOut reconstructWith at h
    obtain ⟨j, _, h2⟩ := bind_ok_iff.mp h
    exact reconI_arr h2
  have hv : ∀ xs, (i.shift k).vecArr xs = i.vecArr xs := fun _ => rfl
  have hz : (i.shift k).z = i.z := rfl
  have hA : (i.shift k).array = i.array := rfl
  have hcs : (i.shift k).coeffs = i.coeffs.map (List.map (List.map (Fl.shift k))) := rfl
  simp only [tbl_shift, hb, hz, hv, hA]
  rw [hcs]
  generalize K.reconstructOut (some (i.vecArr (zeros i.z.length))) (i.coeffs.map (i.tbl K.templates.nsed)) bs = rb at hB ⊢
  cases hc : i.coeffs with
  | none => rfl
  | some cs =>
    simp only [Option.map_some]
    cases K.templates.mass with
    | error e => rfl
    | ok t =>
      simp only [ok_bind, dotPy_shift]
      generalize dotPy cs K.templates.nsed t.intsfh = d1
      generalize dotPy cs K.templates.nsed t.mremain = d2
      generalize dotPy cs K.templates.nsed (List.zipWith (fun x y => x * y) t.mremain t.mets) = d3
      generalize dotPy cs K.templates.nsed t.m50 = d4
      generalize dotPy cs K.templates.nsed t.m300 = d5
      generalize dotPy cs K.templates.nsed t.m1000 = d6
      generalize K.responsesOut.mapM (solarOf g p.1) = so
      generalize require (t.mremain.length = t.mets.length) PyErr.valueError = r1
      generalize require (i.array = true → K.responses.length = K.responsesOut.length) PyErr.indexError = r2
      generalize (if i.array = true then f32 else id : Fl → Fl) = rnd
      rcases d1 with _ | d1; · rfl
      rcases d2 with _ | d2; · rfl
      rcases r1 with _ | r1; · rfl
      rcases d3 with _ | d3; · rfl
      rcases d4 with _ | d4; · rfl
      rcases d5 with _ | d5; · rfl
      rcases d6 with _ | d6; · rfl
      rcases rb with _ | rb; · rfl
      rcases so with _ | so; · rfl
      rcases r2 with _ | r2; · rfl
      obtain ⟨l, n, rows, rfl⟩ := hB rb rfl
      simp only [Except.map, ok_bind, pure_py, zipMul_shift, zip3_ratio_shift, vecArr_shift]
      congr 1
      unfold Derived.shift
      congr 1
      have hm : (if i.array = true then ((List.zipWith (fun x y => x * y) d2 p.2).map (Fl.shift k)).map (fun x => x * lit 1)
            else (List.zipWith (fun x y => x * y) d2 p.2).map (Fl.shift k)) =
          (if i.array = true then (List.zipWith (fun x y => x * y) d2 p.2).map (fun x => x * lit 1)
            else List.zipWith (fun x y => x * y) d2 p.2).map (Fl.shift k) := by
        split
        · rw [List.map_map, List.map_map]
          apply List.map_congr_left
          intro x _
          simp only [Function.comp_apply, Fl.shift_mul]
        · rfl
      rw [hm]
      show NDA.arr l n _ = NDA.arr l n _
      congr 1
      refine mtol_rows_shift k _ ?_ rows _
      intro r j v
      cases so[j]? with
      | none => rfl
      | some s => simp only [Fl.shift_div, Fl.shift_f32]

/-- **C180, derived quantities.** Coefficients multiplied by a power of two give masses multiplied by it, and the same ratios, to the last bit. -/
theorem C180_derived (K : Kc Fl) (g : Reg Fl) (k : ℤ) (z co : Option (NDA Fl)) (bs : Fl) (distance : Option (NDA Fl)) :
    K.derived g z (co.map (NDA.map (Fl.shift k))) bs distance = (K.derived g z co bs distance).map (Derived.shift k) := by
  unfold Kc.derived
  rw [proc_shift]
  cases processInputs K.toFitter z none none co with
  | error e => rfl
  | ok i =>
    show K.derivedI g (i.shift k) bs distance = (K.derivedI g i bs distance).map (Derived.shift k)
    rw [derivedI_tail, derivedI_tail]
    cases distance with
    | none => exact derivedTail_shift K g k i bs _
    | some d =>
      simp only [tbl_shift, proc_shift]
      cases processInputs K.toFitter (some d) none none (i.coeffs.map (i.tbl K.templates.nsed)) with
      | error e => rfl
      | ok j => exact derivedTail_shift K g k i bs _

/-! ### error_floor and sdss_ab_correct -/

namespace Fl

theorem shift_abs (k : ℤ) (a : Fl) : Arith.abs (shift k a) = shift k (Arith.abs a) := by
  have hk : (0 : ℝ) < 2 ^ k := by positivity
  show (⟨|2 ^ k * a.val|, a.dt⟩ : Fl) = ⟨2 ^ k * |a.val|, a.dt⟩
  rw [abs_mul, abs_of_pos hk]

/-- the square root halves the exponent -/
theorem shift_sqrt (k : ℤ) (a : Fl) : Arith.sqrt (shift (2 * k) a) = shift k (Arith.sqrt a) := by
  have hk : (0 : ℝ) ≤ 2 ^ k := by positivity
  have e : Real.sqrt (2 ^ (2 * k) * a.val) = 2 ^ k * Real.sqrt a.val := by
    rw [Real.sqrt_mul (by positivity), two_mul, zpow_add₀ (by norm_num), Real.sqrt_mul_self hk]
  show (⟨rd a.dt.prec (Real.sqrt (2 ^ (2 * k) * a.val)), a.dt.np⟩ : Fl) = ⟨2 ^ k * rd a.dt.prec (Real.sqrt a.val), a.dt.np⟩
  rw [e, rd_shift]

theorem shift_shift (j k : ℤ) (a : Fl) : shift j (shift k a) = shift (j + k) a := by
  simp only [shift, zpow_add₀ (two_ne_zero' ℝ), mul_assoc]

theorem shift_zero (a : Fl) : shift 0 a = a := by simp [shift]

theorem shift_div_right (k : ℤ) (a b : Fl) : a / shift k b = shift (-k) (a / b) := by
  have h := shift_div_shift k (shift (-k) a) b
  rw [shift_shift, add_neg_cancel, shift_zero] at h
  rw [h, shift_div]

theorem shift_cast (d : DT) (k : ℤ) (a : Fl) : cast d (shift k a) = shift k (cast d a) := by
  simp only [cast, shift, rd_shift]

end Fl

theorem floorEntry_shift (d : DT) (k : ℤ) (fl m iv : Fl) :
    floorEntry (Fl.cast d) fl (shift k m) (shift (2 * -k) iv) = shift (2 * -k) (floorEntry (Fl.cast d) fl m iv) := by
  unfold floorEntry
  have e1 : Arith.abs (shift k m) * Arith.sqrt (shift (2 * -k) iv) = Arith.abs m * Arith.sqrt iv := by
    rw [shift_abs, shift_sqrt, shift_mul, mul_shift, shift_shift, add_neg_cancel, shift_zero]
  have e2 : lit 1 / ((Arith.abs (shift k m) * fl) * (Arith.abs (shift k m) * fl)) =
      shift (2 * -k) (lit 1 / ((Arith.abs m * fl) * (Arith.abs m * fl))) := by
    rw [shift_abs, shift_mul, shift_mul, mul_shift, shift_shift, shift_div_right]
    congr 1; ring
  rw [shift_gtb0, e1, e2, shift_cast]
  split
  · split <;> rfl
  · rfl

/-- **C180, `error_floor`.** Fluxes multiplied by `2^k` with inverse variances multiplied by `2^(-2k)` give the same result times `2^(-2k)`, to the last bit. -/
theorem C180_error_floor (d : DT) (k : ℤ) (floor : List Fl) (m iv : NDA Fl) (hm : m.WF) (hv : iv.WF) (hs : m.shape = iv.shape)
    (hl : lastAxis m floor.length) (hr : m.ndim ≤ 2) :
    ∃ out out', errorFloor (Fl.cast d) floor m iv = .ok out ∧
      errorFloor (Fl.cast d) floor (m.map (Fl.shift k)) (iv.map (Fl.shift (-2 * k))) = .ok out' ∧ out'.shape = out.shape ∧
      ∀ r j, entry out' r j = (entry out r j).map (Fl.shift (-2 * k)) := by
  have e2 : (-2 * k : ℤ) = 2 * -k := by ring
  rw [e2]
  obtain ⟨out, h1, h2, _, h4⟩ := errorFloor_entry (Fl.cast d) floor m iv hm hv hs hl hr
  obtain ⟨out', g1, g2, _, g4⟩ := errorFloor_entry (Fl.cast d) floor (m.map (Fl.shift k)) (iv.map (Fl.shift (2 * -k))) (map_WF _ _ hm) (map_WF _ _ hv)
    (by rw [map_shape, map_shape, hs]) (by unfold lastAxis; rw [map_shape]; exact hl) (by cases m <;> exact hr)
  refine ⟨out, out', h1, g1, by rw [g2, h2, map_shape], ?_⟩
  intro r j
  rw [g4, h4, entry_map, entry_map]
  cases entry m r j with
  | none => rfl
  | some x =>
    cases entry iv r j with
    | none => rfl
    | some v =>
      cases floor[j]? with
      | none => rfl
      | some fl => exact congrArg some (floorEntry_shift d k fl x v)

theorem rowLoop_shift (k : ℤ) (g : Nat → List Fl → Fl) (hg : ∀ i s, g i (s.map (shift k)) = shift k (g i s)) (s : List Fl) : ∀ (n : Nat) (out : List Fl),
    rowLoop n (fun i s _ => g i s) (s.map (shift k)) (out.map (shift k)) = (rowLoop n (fun i s _ => g i s) s out).map (shift k)
  | 0, _ => rfl
  | n + 1, out => by
    have ih := rowLoop_shift k g hg s n out
    simp only [rowLoop, List.range_succ, List.foldl_append, List.foldl_cons, List.foldl_nil] at ih ⊢
    rw [ih, hg, List.map_set]

theorem zeroRows_shift (k : ℤ) (n c : Nat) : (zeroRows n c : List (List Fl)).map (List.map (shift k)) = zeroRows n c := by
  simp [zeroRows, zeros, shift_lit0]

theorem colLoop_shift (k : ℤ) (n c : Nat) (g : Nat → List Fl → Fl) (hg : ∀ i s, g i (s.map (shift k)) = shift k (g i s)) (src : List (List Fl)) :
    colLoop n (fun i s _ => g i s) (src.map (List.map (shift k))) (zeroRows (src.map (List.map (shift k))).length c) =
      (colLoop n (fun i s _ => g i s) src (zeroRows src.length c)).map (List.map (shift k)) := by
  rw [colLoop_eq _ _ _ _ (by simp [zeroRows]), colLoop_eq _ _ _ _ (by simp [zeroRows]), List.length_map, List.map_zipWith]
  conv_lhs => rw [← zeroRows_shift k, List.zipWith_map]
  congr 1
  funext s o
  exact rowLoop_shift k g hg s n o

theorem ent_shift (k : ℤ) (s : List Fl) (i : Nat) : ent (s.map (shift k)) i = shift k (ent s i) := by
  unfold ent
  rw [List.getD_eq_getElem?_getD, List.getD_eq_getElem?_getD, List.getElem?_map]
  cases s[i]? with
  | none => exact (shift_lit0 k).symm
  | some a => rfl

/-- the fluxes multiplied by `2^k` and the inverse variances by `2^j` -/
noncomputable def AbOut.shift (k j : ℤ) (o : AbOut Fl) : AbOut Fl := ⟨o.maggies.map (Fl.shift k), o.ivar.map (NDA.map (Fl.shift j))⟩

theorem abApply_shift (k j : ℤ) (m : NDA Fl) (iv : Option (NDA Fl)) (fac : List Fl) :
    abApply (m.map (Fl.shift k)) (iv.map (NDA.map (Fl.shift j))) fac = (abApply m iv fac).map (AbOut.shift k j) := by
  have e1 : ∀ (k : ℤ) (r : List Fl), List.zipWith (fun x c => x * c) (r.map (shift k)) fac = (List.zipWith (fun x c => x * c) r fac).map (shift k) :=
    fun k r => zipMul_shift k r _
  have e2 : ∀ (k : ℤ) (r : List Fl), List.zipWith (fun x c => x / (c * c)) (r.map (shift k)) fac =
      (List.zipWith (fun x c => x / (c * c)) r fac).map (shift k) := by
    intro k r
    rw [List.zipWith_map_left, List.map_zipWith]
    congr 1
    funext a b
    rw [shift_div]
  have c1 := fun (k : ℤ) (n : Nat) (rows : List (List Fl)) => colLoop_shift k 5 n (fun i s => f32 (ent s i * ent fac i))
    (by intro i s; rw [ent_shift, shift_mul, shift_f32]) rows
  have c2 := fun (k : ℤ) (n : Nat) (rows : List (List Fl)) => colLoop_shift k 5 n (fun i s => f32 (ent s i / (ent fac i * ent fac i)))
    (by intro i s; rw [ent_shift, shift_div, shift_f32]) rows
  cases m with
  | scalar x => rfl
  | arr lead n rows =>
    cases lead with
    | nil =>
      simp only [NDA.map, abApply]
      split
      · rfl
      · rcases iv with _ | (x | ⟨l', n', rows'⟩)
        · simp [Except.map, AbOut.shift, NDA.map, e1]
        · simp [Except.map, AbOut.shift, NDA.map, e1]
        · simp [Except.map, AbOut.shift, NDA.map, e1, e2]
    | cons a l =>
      simp only [NDA.map, abApply]
      split
      · rfl
      · rcases iv with _ | (x | ⟨l', n', rows'⟩)
        · simp only [Except.map, AbOut.shift, NDA.map, c1, Option.map_none]
        · simp only [Except.map, AbOut.shift, NDA.map, c1, Option.map_some, Option.map_none]
        · simp only [Except.map, AbOut.shift, NDA.map, c1, c2, Option.map_some]

/-- **C180, `sdss_ab_correct`.** Fluxes multiplied by `2^k` and inverse variances by `2^j` come back multiplied by the same powers, to the last bit;
refused inputs are refused alike. -/
theorem C180_ab (k j : ℤ) (m : NDA Fl) (iv : Option (NDA Fl)) (f : List Fl) :
    sdssAbCorrect (m.map (Fl.shift k)) (iv.map (NDA.map (Fl.shift j))) f = (sdssAbCorrect m iv f).map (AbOut.shift k j) := by
  unfold sdssAbCorrect
  have h1 : (iv.map (NDA.map (Fl.shift j))).map (NDA.map f32) = (iv.map (NDA.map f32)).map (NDA.map (Fl.shift j)) := by
    cases iv with
    | none => rfl
    | some a => simp [nda_map_f32]
  have h2 : (∀ v ∈ (iv.map (NDA.map f32)).map (NDA.map (Fl.shift j)), (NDA.map (Fl.shift k) (m.map f32)).shape = v.shape) ↔
      ∀ v ∈ iv.map (NDA.map f32), (m.map f32).shape = v.shape := by
    cases iv with
    | none => simp
    | some a => simp [map_shape]
  simp only [nda_map_f32, h1, h2]
  by_cases c1 : ∀ v ∈ iv.map (NDA.map f32), (m.map f32).shape = v.shape
  · by_cases c2 : f.length = 5
    · simp only [require, if_pos c1, if_pos c2]
      exact abApply_shift k j _ _ _
    · simp only [require, if_pos c1, if_neg c2]
      rfl
  · simp only [require, if_neg c1]
    rfl

/-- float32 fluxes of a star, with float64 floors; the flux `3` times four is `12` -/
example : let m : NDA Fl := NDA.vec [⟨3, .f32⟩, ⟨-2, .f32⟩]
    let iv : NDA Fl := NDA.vec [⟨4, .f32⟩, ⟨0, .f32⟩]
    m.WF ∧ iv.WF ∧ m.shape = iv.shape ∧ lastAxis m [(⟨0.5, .f64⟩ : Fl), ⟨0.25, .f64⟩].length ∧ m.ndim ≤ 2 ∧
      entry (m.map (Fl.shift 2)) 0 0 = some ⟨12, .f32⟩ := by
  refine ⟨by simp [NDA.vec, NDA.WF], by simp [NDA.vec, NDA.WF], rfl, by simp [NDA.vec, lastAxis, NDA.shape], by simp [NDA.vec, NDA.ndim], ?_⟩
  simp [NDA.vec, NDA.map, entry, Fl.shift]
  norm_num

end KC
