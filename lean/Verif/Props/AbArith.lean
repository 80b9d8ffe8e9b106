import Verif.Props.AbClasses
import Verif.Props.FloatMag
import Verif.Props.Ieee2
import Verif.Props.Fittable
import Verif.Props.NoFlux

/-!
# The AB correction of the classes in every arithmetic

An object of a class that corrects its photometry does what an object of the plain class does with the photometry that `to_ab` returns.  Shown
here for all arithmetics of the model, so that what is proved with special values (C146, C147) and in floating point (C139, C145) for plain objects
holds for every class.
-/

namespace KC
open Spec

section generic
variable {α : Type} [Arith α]

/-- What the rounding to float32 has to satisfy: it changes no float32 number, and products and quotients of float32 numbers with the factors of the
correction are float32 numbers. -/
structure F32Laws (α : Type) [Arith α] : Prop where
  idem : ∀ x : α, f32 (f32 x) = f32 x
  mul : ∀ (x : α), ∀ c ∈ abFac (abfixDefault (α := α)), f32 (f32 x * c) = f32 x * c
  div : ∀ (x : α), ∀ c ∈ abFac (abfixDefault (α := α)), f32 (f32 x / (c * c)) = f32 x / (c * c)

/-- fluxes u g r i z after the correction -/
def ugrizM (r : List α) : List α := List.zipWith (fun x c => f32 x * c) r (abFac abfixDefault)

/-- inverse variances u g r i z after the correction -/
def ugrizV (r : List α) : List α := List.zipWith (fun x c => f32 x / (c * c)) r (abFac abfixDefault)

/-- the fluxes of one object after the correction of its class -/
def abRow : Cls → List α → List α
  | .base, r => r
  | .sdss, r => ugrizM r
  | .gst, r => put27 r (ugrizM ((r.drop 2).take 5))

/-- its inverse variances -/
def abVRow : Cls → List α → List α
  | .base, r => r
  | .sdss, r => ugrizV r
  | .gst, r => put27 r (ugrizV ((r.drop 2).take 5))

theorem len5 {r : List α} (h : r.length = 5) : ∃ a b c d e, r = [a, b, c, d, e] := by
  match r, h with
  | [a, b, c, d, e], _ => exact ⟨a, b, c, d, e, rfl⟩

theorem len7 {r : List α} (h : 7 ≤ r.length) : ∃ a b c d e f g t, r = a :: b :: c :: d :: e :: f :: g :: t := by
  match r, h with
  | a :: b :: c :: d :: e :: f :: g :: t, _ => exact ⟨a, b, c, d, e, f, g, t, rfl⟩

theorem abFac_five : ∃ a b c d e : α, abFac (abfixDefault (α := α)) = [a, b, c, d, e] := len5 rfl

theorem ugriz_length {r : List α} (h : r.length = 5) : (ugrizM r).length = 5 ∧ (ugrizV r).length = 5 := by
  simp [ugrizM, ugrizV, h, abFac, abfixDefault]

theorem abRow_length (cls : Cls) {r : List α} {w : Nat} (h : r.length = w) (hr : AbReady cls w) : (abRow cls r).length = w ∧ (abVRow cls r).length = w := by
  cases cls with
  | base => exact ⟨h, h⟩
  | sdss => obtain rfl : w = 5 := hr; exact ugriz_length h
  | gst =>
    have h7 : 7 ≤ w := hr
    have := ugriz_length (r := (r.drop 2).take 5) (by simp; omega)
    simp only [abRow, abVRow, put27, List.length_append, List.length_take, List.length_drop, this.1, this.2]
    omega

/-- the corrected rows are float32 -/
theorem ugriz_f32 (L : F32Laws α) (r : List α) : (ugrizM r).map f32 = ugrizM (r.map f32) ∧ (ugrizV r).map f32 = ugrizV (r.map f32) := by
  constructor
  · unfold ugrizM
    rw [List.map_zipWith, List.zipWith_map_left]
    apply List.ext_getElem?
    intro j
    rw [List.getElem?_zipWith, List.getElem?_zipWith]
    cases h1 : r[j]? with
    | none => rfl
    | some x =>
      cases h2 : (abFac (abfixDefault (α := α)))[j]? with
      | none => rfl
      | some c => exact congrArg some (by rw [L.mul x c (List.mem_of_getElem? h2), L.idem])
  · unfold ugrizV
    rw [List.map_zipWith, List.zipWith_map_left]
    apply List.ext_getElem?
    intro j
    rw [List.getElem?_zipWith, List.getElem?_zipWith]
    cases h1 : r[j]? with
    | none => rfl
    | some x =>
      cases h2 : (abFac (abfixDefault (α := α)))[j]? with
      | none => rfl
      | some c => exact congrArg some (by rw [L.div x c (List.mem_of_getElem? h2), L.idem])

theorem abRow_f32 (L : F32Laws α) (cls : Cls) (r : List α) : (abRow cls r).map f32 = abRow cls (r.map f32) ∧ (abVRow cls r).map f32 = abVRow cls (r.map f32) := by
  cases cls with
  | base => exact ⟨rfl, rfl⟩
  | sdss => exact ugriz_f32 L r
  | gst =>
    have := ugriz_f32 L ((r.drop 2).take 5)
    simp only [abRow, abVRow, put27, List.map_append, List.map_take, List.map_drop, this.1, this.2, and_self]

/-- `sdss_ab_correct` on arrays of any rank -/
theorem abCorrect_rows (L : F32Laws α) (lead : List Nat) (rows irows : List (List α)) (h : ∀ r ∈ rows, r.length = 5) (hi : ∀ r ∈ irows, r.length = 5) :
    sdssAbCorrect (.arr lead 5 rows) (some (.arr lead 5 irows)) abfixDefault =
      .ok ⟨.arr lead 5 (rows.map ugrizM), some (.arr lead 5 (irows.map ugrizV))⟩ := by
  have q1 : require (∀ iv ∈ (some (NDA.arr lead 5 irows)).map (NDA.map (f32 (α := α))), (NDA.map f32 (NDA.arr lead 5 rows)).shape = iv.shape) .typeError = .ok () := by
    rw [require_ok_iff]
    intro iv hiv; cases hiv; rfl
  have q2 : require ((abfixDefault (α := α)).length = 5) .typeError = .ok () := rfl
  unfold sdssAbCorrect
  dsimp only
  rw [q1, ok_bind, q2, ok_bind]
  cases lead with
  | nil =>
    simp only [abApply, NDA.map, Option.map_some, ne_eq, not_true_eq_false, if_false, List.map_map]
    congr 3
    · apply List.map_congr_left
      intro r _
      simp only [Function.comp, ugrizM, List.zipWith_map_left]
    · refine congrArg (NDA.arr [] 5) (List.map_congr_left ?_)
      intro r _
      simp only [Function.comp, ugrizV, List.zipWith_map_left]
  | cons a l =>
    obtain ⟨c0, c1, c2, c3, c4, hc⟩ := abFac_five (α := α)
    have row : ∀ (g : α → α → α) (r : List α), (∀ x, ∀ c ∈ abFac (abfixDefault (α := α)), f32 (g (f32 x) c) = g (f32 x) c) → r.length = 5 →
        rowLoop 5 (fun i s _ => f32 (g (ent s i) (ent (abFac abfixDefault) i))) (r.map f32) (zeros 5) = List.zipWith (fun x c => g (f32 x) c) r (abFac abfixDefault) := by
      intro g r hg hr
      obtain ⟨x0, x1, x2, x3, x4, rfl⟩ := len5 hr
      rw [hc] at hg ⊢
      simp only [List.mem_cons, List.not_mem_nil, or_false, forall_eq_or_imp, forall_eq] at hg
      simp [rowLoop, List.range_succ, zeros, List.replicate, ent, hg]
    have tab : ∀ (g : α → α → α) (rs : List (List α)), (∀ x, ∀ c ∈ abFac (abfixDefault (α := α)), f32 (g (f32 x) c) = g (f32 x) c) → (∀ r ∈ rs, r.length = 5) →
        colLoop 5 (fun i s _ => f32 (g (ent s i) (ent (abFac abfixDefault) i))) (rs.map (List.map f32)) (zeroRows (rs.map (List.map f32)).length 5) =
          rs.map (fun r => List.zipWith (fun x c => g (f32 x) c) r (abFac abfixDefault)) := by
      intro g rs hg hr
      rw [colLoop_eq _ _ _ _ (by simp [zeroRows])]
      apply List.ext_getElem?
      intro j
      rw [List.getElem?_zipWith, List.getElem?_map, List.getElem?_map, zeroRows]
      cases hj : rs[j]? with
      | none => rfl
      | some r =>
        have hlt := (List.getElem?_eq_some_iff.mp hj).1
        rw [List.getElem?_replicate, if_pos (by simpa using hlt)]
        exact congrArg some (row g r hg (hr r (List.mem_of_getElem? hj)))
    simp only [abApply, NDA.map, Option.map_some, Nat.lt_irrefl, if_false]
    rw [tab (fun x c => x * c) rows L.mul h, tab (fun x c => x / (c * c)) irows L.div hi]
    rfl

/-- `to_ab` on arrays of any rank, in every class -/
theorem toAb_rows (L : F32Laws α) (cls : Cls) (lead : List Nat) (w : Nat) (rows irows : List (List α)) (hr : AbReady cls w) (h : ∀ r ∈ rows, r.length = w)
    (hi : ∀ r ∈ irows, r.length = w) :
    toAb cls (.arr lead w rows) (some (.arr lead w irows)) = .ok ⟨.arr lead w (rows.map (abRow cls)), some (.arr lead w (irows.map (abVRow cls)))⟩ := by
  cases cls with
  | base =>
    have e1 : abRow (α := α) .base = id := rfl
    have e2 : abVRow (α := α) .base = id := rfl
    rw [e1, e2, List.map_id, List.map_id]; rfl
  | sdss =>
    obtain rfl : w = 5 := hr
    exact abCorrect_rows L lead rows irows h hi
  | gst =>
    have h7 : 7 ≤ w := hr
    have hw : min 7 w - min 2 w = 5 := by omega
    have := abCorrect_rows L lead (rows.map (fun r => (r.drop 2).take 5)) (irows.map (fun r => (r.drop 2).take 5))
      (by intro r hr; obtain ⟨q, hq, rfl⟩ := List.mem_map.mp hr; have := h q hq; simp; omega)
      (by intro r hr; obtain ⟨q, hq, rfl⟩ := List.mem_map.mp hr; have := hi q hq; simp; omega)
    have put : ∀ (rs : List (List α)) (u : List α → List α), List.zipWith put27 rs ((rs.map (fun r => (r.drop 2).take 5)).map u) =
        rs.map (fun r => put27 r (u ((r.drop 2).take 5))) := by
      intro rs u
      apply List.ext_getElem?
      intro j
      rw [List.getElem?_zipWith, List.map_map, List.getElem?_map, List.getElem?_map]
      cases rs[j]? <;> rfl
    simp only [toAb, slice27, ok_bind, hw, this, putSlice27, NDA.rows, put, pure_py]
    rfl

/-- What the checks hand on, in every class and arithmetic. -/
theorem process_rows (L : F32Laws α) (F : Fitter α) (hr : AbReady F.abCls F.responses.length) (z : Option (NDA α)) (lead : List Nat) (rows irows : List (List α))
    (c : Option (NDA α)) (h : ∀ r ∈ rows, r.length = F.responses.length) (hi : ∀ r ∈ irows, r.length = F.responses.length) :
    processInputs F z (some (.arr lead F.responses.length rows)) (some (.arr lead F.responses.length irows)) c =
      processInputs F.plain z (some (.arr lead F.responses.length (rows.map (abRow F.abCls)))) (some (.arr lead F.responses.length (irows.map (abVRow F.abCls)))) c := by
  cases hab : F.abcorrect with
  | false =>
    have e : F.abCls = .base := by unfold Fitter.abCls; rw [hab]; rfl
    rw [e, process_off F hab, show abRow (α := α) .base = id from rfl, show abVRow (α := α) .base = id from rfl, List.map_id, List.map_id]
  | true =>
    have e : F.abCls = F.cls := by unfold Fitter.abCls; rw [hab]; rfl
    rw [e] at hr ⊢
    have hto := toAb_rows L F.cls lead F.responses.length (rows.map (List.map f32)) (irows.map (List.map f32)) hr
      (by intro r hr; obtain ⟨q, hq, rfl⟩ := List.mem_map.mp hr; simpa using h q hq)
      (by intro r hr; obtain ⟨q, hq, rfl⟩ := List.mem_map.mp hr; simpa using hi q hq)
    have m1 : (rows.map (List.map f32)).map (abRow F.cls) = (rows.map (abRow F.cls)).map (List.map f32) := by
      rw [List.map_map, List.map_map]
      apply List.map_congr_left
      intro r _
      exact (abRow_f32 L F.cls r).1.symm
    have m2 : (irows.map (List.map f32)).map (abVRow F.cls) = (irows.map (abVRow F.cls)).map (List.map f32) := by
      rw [List.map_map, List.map_map]
      apply List.map_congr_left
      intro r _
      exact (abRow_f32 L F.cls r).2.symm
    rw [m1, m2] at hto
    have hp : F.plain.abcorrect = false := rfl
    have hpr : F.plain.responses = F.responses := rfl
    have hpt : F.plain.templates = F.templates := rfl
    have ck : ∀ (array : Bool) (n : Nat) (rs : List (List α)), checkTable array n F.responses.length (some (.arr lead F.responses.length rs)) =
        if lead ++ [F.responses.length] = (if array then [n, F.responses.length] else [F.responses.length])
        then .ok (some (.arr lead F.responses.length (rs.map (List.map f32)))) else .error .valueError := fun _ _ _ => rfl
    have main : ∀ (array : Bool) (zz : List α),
        (do
          let maggies ← checkTable array zz.length F.responses.length (some (.arr lead F.responses.length rows))
          let ivar ← checkTable array zz.length F.responses.length (some (.arr lead F.responses.length irows))
          let coeffs ← checkTable array zz.length F.templates.nsed c
          match true, maggies with
          | true, some m =>
            let r ← toAb F.cls m ivar
            return (⟨array, zz, some r.maggies.rows, r.ivar.map NDA.rows, coeffs.map NDA.rows⟩ : Inp α)
          | _, _ => return ⟨array, zz, maggies.map NDA.rows, ivar.map NDA.rows, coeffs.map NDA.rows⟩ : Py (Inp α)) =
        (do
          let maggies ← checkTable array zz.length F.responses.length (some (.arr lead F.responses.length (rows.map (abRow F.cls))))
          let ivar ← checkTable array zz.length F.responses.length (some (.arr lead F.responses.length (irows.map (abVRow F.cls))))
          let coeffs ← checkTable array zz.length F.templates.nsed c
          match false, maggies with
          | true, some m =>
            let r ← toAb F.cls m ivar
            return (⟨array, zz, some r.maggies.rows, r.ivar.map NDA.rows, coeffs.map NDA.rows⟩ : Inp α)
          | _, _ => return ⟨array, zz, maggies.map NDA.rows, ivar.map NDA.rows, coeffs.map NDA.rows⟩) := by
      intro array zz
      rw [ck, ck, ck, ck]
      by_cases hsh : lead ++ [F.responses.length] = (if array = true then [zz.length, F.responses.length] else [F.responses.length])
      · simp only [if_pos hsh, ok_bind]
        cases checkTable array zz.length F.templates.nsed c with
        | error e => rfl
        | ok cc =>
          simp only [ok_bind, hto, Option.map_some]
      · simp only [if_neg hsh, error_bind]
    unfold processInputs
    rw [hab, hp, hpr, hpt]
    cases z with
    | none => rfl
    | some a =>
      cases a with
      | scalar x => exact main false [f32 x]
      | arr l k rs =>
        cases l with
        | nil => exact main true _
        | cons => rfl

/-- Fit of one object. -/
theorem fit_one_ab (L : F32Laws α) (nnls : Nnls α) (F : Fitter α) (hr : AbReady F.abCls F.responses.length) (z : α) (m iv : List α)
    (hm : m.length = F.responses.length) (hiv : iv.length = F.responses.length) (mc : Nat) (noise : Nat → Nat → Nat → α) :
    F.fitCoeffs nnls (some (.scalar z)) (some (.vec m)) (some (.vec iv)) mc noise =
      F.plain.fitCoeffs nnls (some (.scalar z)) (some (.vec (abRow F.abCls m))) (some (.vec (abVRow F.abCls iv))) mc noise := by
  have l1 := (abRow_length F.abCls hm hr).1
  have l2 := (abRow_length F.abCls hiv hr).2
  have e := process_rows L F hr (some (.scalar z)) [] [m] [iv] none (by simpa using hm) (by simpa using hiv)
  unfold Fitter.fitCoeffs Fitter.fitCoeffsI NDA.vec
  rw [hm, hiv, l1, l2, e, fitOne_plain, fitPass_plain]
  rfl

/-- Fit of a table. -/
theorem fit_table_ab (L : F32Laws α) (nnls : Nnls α) (F : Fitter α) (hr : AbReady F.abCls F.responses.length) (zs : NDA α) (lead : List Nat) (ms ivs : List (List α))
    (hm : ∀ r ∈ ms, r.length = F.responses.length) (hiv : ∀ r ∈ ivs, r.length = F.responses.length) (mc : Nat)
    (noise : Nat → Nat → Nat → α) :
    F.fitCoeffs nnls (some zs) (some (.arr lead F.responses.length ms)) (some (.arr lead F.responses.length ivs)) mc noise =
      F.plain.fitCoeffs nnls (some zs) (some (.arr lead F.responses.length (ms.map (abRow F.abCls))))
        (some (.arr lead F.responses.length (ivs.map (abVRow F.abCls)))) mc noise := by
  have e := process_rows L F hr (some zs) lead ms ivs none hm hiv
  unfold Fitter.fitCoeffs Fitter.fitCoeffsI
  rw [e, fitOne_plain, fitPass_plain]
  rfl

/-- Absolute magnitudes of one object. -/
theorem absmag_one_ab (L : F32Laws α) (K : Kc α) (hr : AbReady K.abCls K.responses.length) (z : α) (m iv : List α) (c : Option (NDA α))
    (hm : m.length = K.responses.length) (hiv : iv.length = K.responses.length) (bs : α) (d : Option (NDA α)) (x y w : Bool) :
    K.absmag (some (.vec m)) (some (.vec iv)) (some (.scalar z)) c bs d x y w =
      K.plain.absmag (some (.vec (abRow K.abCls m))) (some (.vec (abVRow K.abCls iv))) (some (.scalar z)) c bs d x y w := by
  have l1 := (abRow_length K.abCls hm hr).1
  have l2 := (abRow_length K.abCls hiv hr).2
  have e := process_rows L K.toFitter hr (some (.scalar z)) [] [m] [iv] c (by simpa using hm) (by simpa using hiv)
  unfold Kc.absmag NDA.vec
  rw [hm, hiv, l1, l2, e, absmagI_plain]
  rfl

/-- Absolute magnitudes of a table. -/
theorem absmag_table_ab (L : F32Laws α) (K : Kc α) (hr : AbReady K.abCls K.responses.length) (zs : NDA α) (lead : List Nat) (ms ivs : List (List α))
    (c : Option (NDA α)) (hm : ∀ r ∈ ms, r.length = K.responses.length) (hiv : ∀ r ∈ ivs, r.length = K.responses.length)
    (bs : α) (d : Option (NDA α)) (x y w : Bool) :
    K.absmag (some (.arr lead K.responses.length ms)) (some (.arr lead K.responses.length ivs)) (some zs) c bs d x y w =
      K.plain.absmag (some (.arr lead K.responses.length (ms.map (abRow K.abCls)))) (some (.arr lead K.responses.length (ivs.map (abVRow K.abCls)))) (some zs)
        c bs d x y w := by
  have e := process_rows L K.toFitter hr (some zs) lead ms ivs c hm hiv
  unfold Kc.absmag
  rw [e, absmagI_plain]
  rfl

end generic

/-! ### The arithmetics -/

theorem f32Laws_real : F32Laws ℝ := ⟨fun _ => rfl, fun _ _ _ => rfl, fun _ _ _ => rfl⟩

theorem f32Laws_xr : F32Laws XR := ⟨fun _ => rfl, fun _ _ _ => rfl, fun _ _ _ => rfl⟩

theorem f32Laws_fl : F32Laws Fl := by
  have hdt : ∀ c ∈ abFac (abfixDefault (α := Fl)), c.dt = .f32 := by
    intro c hc
    obtain ⟨f, _, rfl⟩ := List.mem_map.mp hc
    rfl
  have hop : ∀ (f : ℝ → ℝ → ℝ) (a b : Fl), a.dt = .f32 → b.dt = .f32 → f32 (Fl.op2 f a b) = Fl.op2 f a b := by
    intro f a b ha hb
    show Fl.mk _ _ = _
    simp only [Fl.op2, ha, hb, DT.join, DT.prec]
    rw [rd_rd (by norm_num)]
  refine ⟨fun x => ?_, fun x c hc => hop _ _ _ rfl (hdt c hc), fun x c hc => hop _ _ _ rfl ?_⟩
  · show Fl.mk (rd 24 (rd 24 x.val)) _ = Fl.mk _ _
    rw [rd_rd (by norm_num)]
  · show DT.join c.dt c.dt = .f32
    rw [hdt c hc]; rfl

theorem f32Laws_ie : F32Laws Ie := by
  have hdt : ∀ c ∈ abFac (abfixDefault (α := Ie)), c.dt = .f32 := by
    intro c hc
    obtain ⟨f, _, rfl⟩ := List.mem_map.mp hc
    rfl
  have hop : ∀ (f : XR → XR → XR) (a b : Ie), a.dt = .f32 → b.dt = .f32 → f32 (Ie.op2 f a b) = Ie.op2 f a b := by
    intro f a b ha hb
    show Ie.mk _ _ = _
    simp only [Ie.op2, ha, hb, DT.join]
    rw [round_round]
  refine ⟨fun x => ?_, fun x c hc => hop _ _ _ rfl (hdt c hc), fun x c hc => hop _ _ _ rfl ?_⟩
  · show Ie.mk ((x.v.round .f32).round .f32) _ = Ie.mk _ _
    rw [round_round]
  · show DT.join c.dt c.dt = .f32
    rw [hdt c hc]; rfl

/-! ### Special values (C146, C147) -/

theorem xrFac (j : Nat) (hj : j < 5) : (abFac (abfixDefault (α := XR)))[j]? = some (.fin (abFactor .sdss j)) := by
  interval_cases j <;> refine congrArg some (congrArg XR.fin ?_) <;> simp [abFactor, abOffset, gstOffset] <;> norm_num

theorem gst_factor (j : Nat) : abFactor .gst j = if 2 ≤ j ∧ j < 7 then abFactor .sdss (j - 2) else 1 := by
  split
  · rename_i h; simp only [abFactor, abOffset, show j - 2 + 2 = j by omega]
  · rename_i h
    simp only [abFactor, abOffset, gstOffset]
    rw [if_neg (by omega), if_neg (by omega), if_neg (by omega), if_neg (by omega), if_neg (by omega), mul_zero, Real.rpow_zero]

theorem put27_get {α : Type} [Arith α] {r s : List α} (h7 : 7 ≤ r.length) (hs : s.length = 5) (j : Nat) :
    (put27 r s)[j]? = if 2 ≤ j ∧ j < 7 then s[j - 2]? else r[j]? := by
  obtain ⟨a, b, c, d, e, f, g, t, rfl⟩ := len7 h7
  obtain ⟨s0, s1, s2, s3, s4, rfl⟩ := len5 hs
  match j with
  | 0 | 1 | 2 | 3 | 4 | 5 | 6 => rfl
  | j + 7 => rw [if_neg (by omega)]; rfl

/-- a value times a positive number: infinities and NaN stay -/
def XR.times (k : ℝ) : XR → XR
  | .fin a => .fin (a * k)
  | y => y

theorem mul_times {k : ℝ} (hk : 0 < k) (x : XR) : (x * .fin k : XR) = x.times k := by
  show XR.mul x (.fin k) = _
  cases x with
  | fin a => rfl
  | pinf => simp [XR.mul, XR.infMul, XR.times, hk]
  | ninf => simp [XR.mul, XR.infMul, XR.times, hk, hk.le]
  | nan => rfl

theorem div_times {k : ℝ} (hk : 0 < k) (x : XR) : (x / (.fin k * .fin k) : XR) = x.times (k ^ 2)⁻¹ := by
  have hkk : 0 < k * k := mul_pos hk hk
  show XR.div x (.fin (k * k)) = _
  cases x with
  | fin a => simp only [XR.div, XR.times, if_neg hkk.ne']; congr 1; rw [pow_two]; rfl
  | pinf => simp only [XR.div, XR.infMul, XR.times, if_neg hkk.ne', if_pos hkk]
  | ninf => simp only [XR.div, XR.infMul, XR.times, if_neg hkk.ne', if_neg (show ¬ 0 < -(k * k) by linarith), if_pos (show -(k * k) < 0 by linarith)]
  | nan => rfl

/-- the corrected values of one object, entry by entry -/
theorem xrRow_get (cls : Cls) {m : List XR} {w : Nat} (h : m.length = w) (hr : AbReady cls w) (j : Nat) :
    (abRow cls m)[j]? = (m[j]?).map (XR.times (abFactor cls j)) ∧ (abVRow cls m)[j]? = (m[j]?).map (XR.times (abFactor cls j ^ 2)⁻¹) := by
  have h1 : ∀ x : XR, x.times 1 = x := by intro x; cases x <;> simp [XR.times]
  have five : ∀ (r : List XR), r.length = 5 → ∀ j, (ugrizM r)[j]? = (r[j]?).map (XR.times (abFactor .sdss j)) ∧
      (ugrizV r)[j]? = (r[j]?).map (XR.times (abFactor .sdss j ^ 2)⁻¹) := by
    intro r hr j
    unfold ugrizM ugrizV
    rw [List.getElem?_zipWith, List.getElem?_zipWith]
    by_cases hj : j < 5
    · have hf := abFactor_pos .sdss j
      rw [xrFac j hj, List.getElem?_eq_getElem (by omega)]
      exact ⟨congrArg some (mul_times hf _), congrArg some (div_times hf _)⟩
    · rw [List.getElem?_eq_none (by omega)]
      exact ⟨rfl, rfl⟩
  cases cls with
  | base =>
    have e : abFactor .base j = 1 := by simp [abFactor, abOffset]
    rw [e]
    simp only [abRow, abVRow, one_pow, inv_one]
    cases m[j]? <;> simp [h1]
  | sdss => obtain rfl : w = 5 := hr; exact five m h j
  | gst =>
    have h7 : 7 ≤ m.length := by rw [h]; exact hr
    have hl : ((m.drop 2).take 5).length = 5 := by simp; omega
    have hu := ugriz_length hl
    simp only [abRow, abVRow]
    rw [put27_get h7 hu.1, put27_get h7 hu.2, gst_factor]
    by_cases hj : 2 ≤ j ∧ j < 7
    · rw [if_pos hj, if_pos hj, if_pos hj, (five _ hl _).1, (five _ hl _).2]
      have : ((m.drop 2).take 5)[j - 2]? = m[j]? := by
        rw [List.getElem?_take, if_pos (by omega), List.getElem?_drop, show 2 + (j - 2) = j by omega]
      rw [this]
      exact ⟨rfl, rfl⟩
    · rw [if_neg hj, if_neg hj, if_neg hj]
      simp only [one_pow, inv_one]
      cases m[j]? <;> simp [h1]

theorem times_fin {k : ℝ} (x : XR) (a : ℝ) (h : x.times k = .fin a) : ∃ b, x = .fin b ∧ a = b * k := by
  cases x with
  | fin b => exact ⟨b, rfl, by simpa [XR.times, eq_comm] using h⟩
  | pinf => cases h
  | ninf => cases h
  | nan => cases h

/-- Photometry can be fitted after the correction exactly if it can before. -/
theorem goodPhot_ab (cls : Cls) {m iv : List XR} {w : Nat} (hm : m.length = w) (hiv : iv.length = w) (hr : AbReady cls w) :
    GoodPhot (abRow cls m) (abVRow cls iv) ↔ GoodPhot m iv := by
  have lm := (abRow_length cls hm hr).1
  have lv := (abRow_length cls hiv hr).2
  constructor
  · rintro ⟨h1, h2⟩
    refine ⟨fun v hv => ?_, fun v hv => ?_⟩
    · obtain ⟨j, hj⟩ := List.mem_iff_getElem?.mp hv
      have := (xrRow_get cls hm hr j).1
      rw [hj] at this
      obtain ⟨a, ha⟩ := h1 _ (List.mem_of_getElem? this)
      obtain ⟨b, hb, _⟩ := times_fin v a ha
      exact ⟨b, hb⟩
    · obtain ⟨j, hj⟩ := List.mem_iff_getElem?.mp hv
      have := (xrRow_get cls hiv hr j).2
      rw [hj] at this
      obtain ⟨a, ha, ha0⟩ := h2 _ (List.mem_of_getElem? this)
      obtain ⟨b, hb, hab⟩ := times_fin v a ha
      refine ⟨b, hb, ?_⟩
      have hf : 0 < (abFactor cls j ^ 2)⁻¹ := inv_pos.mpr (pow_pos (abFactor_pos cls j) 2)
      rw [hab] at ha0
      exact nonneg_of_mul_nonneg_left ha0 hf
  · rintro ⟨h1, h2⟩
    refine ⟨fun v hv => ?_, fun v hv => ?_⟩
    · obtain ⟨j, hj⟩ := List.mem_iff_getElem?.mp hv
      rw [(xrRow_get cls hm hr j).1] at hj
      obtain ⟨x, hx, rfl⟩ := Option.map_eq_some_iff.mp hj
      obtain ⟨a, rfl⟩ := h1 x (List.mem_of_getElem? hx)
      exact ⟨_, rfl⟩
    · obtain ⟨j, hj⟩ := List.mem_iff_getElem?.mp hv
      rw [(xrRow_get cls hiv hr j).2] at hj
      obtain ⟨x, hx, rfl⟩ := Option.map_eq_some_iff.mp hj
      obtain ⟨a, rfl, ha⟩ := h2 x (List.mem_of_getElem? hx)
      exact ⟨_, rfl, mul_nonneg ha (inv_nonneg.mpr (pow_pos (abFactor_pos cls j) 2).le)⟩

/-- C146 for one object, in every class with or without its AB correction. -/
theorem C146_ab (nnls : Nnls XR) (hs : ChecksFinite nnls) (F : Fitter XR) (hr : AbReady F.abCls F.responses.length) (A : AMat ℝ) (hA : F.Amatrix = some A.toXR)
    (hg : A.Good) (hnr : A.nrow = F.responses.length) (hnb : 2 ≤ F.responses.length) (hnc : 0 < A.ncol) (z : XR) (m iv : List XR)
    (hm : m.length = F.responses.length) (hiv : iv.length = F.responses.length) (mc : Nat) (noise : Nat → Nat → Nat → XR)
    (hn : ∀ i k p, (noise i k p).Finite) :
    ((∃ out, F.fitCoeffs nnls (some (.scalar z)) (some (.vec m)) (some (.vec iv)) mc noise = .ok out) ↔ CanFit mc A.x z m iv) ∧
    (¬ CanFit mc A.x z m iv → F.fitCoeffs nnls (some (.scalar z)) (some (.vec m)) (some (.vec iv)) mc noise = .error .valueError) := by
  rw [fit_one_ab f32Laws_xr nnls F hr z m iv hm hiv]
  have := C146_single nnls hs F.plain (Or.inl rfl) A hA hg hnr hnb hnc z _ _ (abRow_length F.abCls hm hr).1 (abRow_length F.abCls hiv hr).2 mc noise hn
  unfold CanFit at this ⊢
  rw [goodPhot_ab F.abCls hm hiv hr] at this
  exact this

/-- C146 for tables, in every class. -/
theorem C146_ab_batch (nnls : Nnls XR) (hs : ChecksFinite nnls) (F : Fitter XR) (hr : AbReady F.abCls F.responses.length) (A : AMat ℝ) (hA : F.Amatrix = some A.toXR)
    (hg : A.Good) (hnr : A.nrow = F.responses.length) (hnb : 0 < F.responses.length) (hnc : 0 < A.ncol) (zs : List XR) (ms ivs : List (List XR))
    (hz : zs.length ≠ 1) (hm : ms.length = zs.length) (hiv : ivs.length = zs.length) (hmr : ∀ r ∈ ms, r.length = F.responses.length)
    (hivr : ∀ r ∈ ivs, r.length = F.responses.length) (mc : Nat) (noise : Nat → Nat → Nat → XR) (hn : ∀ i k p, (noise i k p).Finite) :
    ((∃ out, F.fitCoeffs nnls (some (.vec zs)) (some (.arr [zs.length] F.responses.length ms)) (some (.arr [zs.length] F.responses.length ivs)) mc noise = .ok out) ↔
      ∀ (k : Nat) z m iv, zs[k]? = some z → ms[k]? = some m → ivs[k]? = some iv → CanFit mc A.x z m iv) ∧
    (∀ (k : Nat) z m iv, zs[k]? = some z → ms[k]? = some m → ivs[k]? = some iv → ¬ CanFit mc A.x z m iv →
      F.fitCoeffs nnls (some (.vec zs)) (some (.arr [zs.length] F.responses.length ms)) (some (.arr [zs.length] F.responses.length ivs)) mc noise =
        .error .valueError) := by
  have can : ∀ (k : Nat) z m iv, zs[k]? = some z → ms[k]? = some m → ivs[k]? = some iv →
      (CanFit mc A.x z (abRow F.abCls m) (abVRow F.abCls iv) ↔ CanFit mc A.x z m iv) := by
    intro k z m iv _ h2 h3
    unfold CanFit
    rw [goodPhot_ab F.abCls (hmr m (List.mem_of_getElem? h2)) (hivr iv (List.mem_of_getElem? h3)) hr]
  rw [fit_table_ab f32Laws_xr nnls F hr (.vec zs) [zs.length] ms ivs hmr hivr]
  obtain ⟨h1, h2⟩ := C146_batch nnls hs F.plain (Or.inl rfl) A hA hg hnr hnb hnc zs (ms.map (abRow F.abCls)) (ivs.map (abVRow F.abCls)) hz (by simpa using hm)
    (by simpa using hiv) (by intro r hr'; obtain ⟨q, hq, rfl⟩ := List.mem_map.mp hr'; exact (abRow_length F.abCls (hmr q hq) hr).1)
    (by intro r hr'; obtain ⟨q, hq, rfl⟩ := List.mem_map.mp hr'; exact (abRow_length F.abCls (hivr q hq) hr).2) mc noise hn
  refine ⟨h1.trans ⟨fun h k z m iv e1 e2 e3 => ?_, fun h k z m iv e1 e2 e3 => ?_⟩, fun k z m iv e1 e2 e3 hnot => ?_⟩
  · exact (can k z m iv e1 e2 e3).mp (h k z _ _ e1 (by rw [List.getElem?_map, e2]; rfl) (by rw [List.getElem?_map, e3]; rfl))
  · rw [List.getElem?_map] at e2 e3
    obtain ⟨m0, f2, rfl⟩ := Option.map_eq_some_iff.mp e2
    obtain ⟨v0, f3, rfl⟩ := Option.map_eq_some_iff.mp e3
    exact (can k z _ _ e1 f2 f3).mpr (h k z _ _ e1 f2 f3)
  · exact h2 k z _ _ e1 (by rw [List.getElem?_map, e2]; rfl) (by rw [List.getElem?_map, e3]; rfl) (fun hc => hnot ((can k z m iv e1 e2 e3).mp hc))

/-- C147, absolute magnitudes of one object in every class: `ABand` with the AB corrected flux and inverse variance. -/
theorem C147_absmag_ab_partial (K : Kc XR) (hab : AbReady K.abCls K.responses.length) (A Ao : AMat XR) (hA : K.Amatrix = some A) (hAo : K.AmatrixOut = some Ao)
    (z : ℝ) (bs : XR) (m iv c : List XR) (hm : m.length = K.responses.length) (hiv : iv.length = K.responses.length) (hc : c.length = K.templates.nsed) (d : ℝ)
    (hd : K.distmod (.fin z) = .fin d) (k : NDA XR) (ret : Ret XR)
    (hk : K.kcorrect (some (.scalar (.fin z))) (some (.vec c)) bs = .ok k)
    (hr : K.absmag (some (.vec m)) (some (.vec iv)) (some (.scalar (.fin z))) (some (.vec c)) bs none false false false = .ok ret) :
    ∃ a, ret = .one a ∧ a.shape = k.shape ∧ ∀ (j i : Nat) mv v kv, K.imap[j]? = some i → m[i]? = some (.fin mv) → iv[i]? = some (.fin v) → entry k 0 j = some kv →
      ∃ av, entry a 0 j = some av ∧ ABand (mv * abFactor K.abCls i) (v / abFactor K.abCls i ^ 2) d kv av := by
  rw [absmag_one_ab f32Laws_xr K hab (.fin z) m iv _ hm hiv] at hr
  obtain ⟨a, h1, h2, h3⟩ := C147_absmag_partial K.plain (Or.inl rfl) A Ao hA hAo z bs _ _ c (abRow_length K.abCls hm hab).1 (abRow_length K.abCls hiv hab).2 hc d hd k ret
    (by rw [kcorrect_plain]; exact hk) hr
  refine ⟨a, h1, h2, fun j i mv v kv e1 e2 e3 e4 => ?_⟩
  exact h3 j i _ _ kv e1 (by rw [(xrRow_get K.abCls hm hab i).1, e2]; rfl) (by rw [(xrRow_get K.abCls hiv hab i).2, e3]; rfl) e4

/-! ### Examples -/

/-- five SDSS bands, AB correction on, in extended reals -/
noncomputable def sdssXr : Kc XR :=
  ⟨{ Fitter.mk' .sdss [['u'], ['g'], ['r'], ['i'], ['z']] (.sed ⟨[], [[]], [], [[]], .fin 0, false, none, false⟩) (.fin 0) (.fin 1) 2 true with
      Amatrix := some demoAm5.toXR },
    [['u'], ['g'], ['r'], ['i'], ['z']], [['u'], ['g'], ['r'], ['i'], ['z']], some demoAm5.toXR, [0, 1, 2, 3, 4], fun z => z⟩

/-- The hypotheses of `C146_ab` are met by an object that corrects to AB, with photometry it can fit and photometry it cannot. -/
example : sdssXr.abCls = .sdss ∧ AbReady sdssXr.abCls sdssXr.responses.length ∧ sdssXr.Amatrix = some demoAm5.toXR ∧ demoAm5.Good ∧
    demoAm5.nrow = sdssXr.responses.length ∧ 2 ≤ sdssXr.responses.length ∧ 0 < demoAm5.ncol ∧
    CanFit 3 demoAm5.x (.fin 1) [.fin 3, .fin (-1), .fin 1, .fin 1, .fin 1] [.fin 4, .fin 0, .fin 1, .fin 1, .fin 1] ∧
    ¬ CanFit 3 demoAm5.x (.fin 1) [.fin 3, .fin (-1), .fin 1, .fin 1, .nan] [.fin 4, .fin 0, .fin 1, .fin 1, .fin 0] := by
  have hin : Inside demoAm5.x (.fin 1) := ⟨1, rfl, by norm_num [demoAm5], by norm_num [demoAm5]⟩
  refine ⟨rfl, rfl, rfl, demoAm5_good, rfl, by decide, by decide, Or.inr ⟨hin, ?_, ?_⟩, ?_⟩
  · intro v hv
    simp only [List.mem_cons, List.not_mem_nil, or_false] at hv
    rcases hv with rfl | rfl | rfl | rfl | rfl <;> exact ⟨_, rfl⟩
  · intro v hv
    simp only [List.mem_cons, List.not_mem_nil, or_false] at hv
    rcases hv with rfl | rfl | rfl | rfl | rfl
    · exact ⟨4, rfl, by norm_num⟩
    · exact ⟨0, rfl, le_rfl⟩
    all_goals exact ⟨1, rfl, by norm_num⟩
  · rintro (⟨h, -⟩ | ⟨-, h, -⟩)
    · cases h
    · obtain ⟨r, hr⟩ := h .nan (by simp)
      cases hr

/-- The hypotheses of `C147_absmag_ab_partial`: this object returns K-corrections and absolute magnitudes. -/
example : sdssXr.distmod (.fin 1) = .fin 1 ∧ ∃ k ret, sdssXr.kcorrect (some (.scalar (.fin 1))) (some (.vec ([3].map .fin))) (.fin 0) = .ok k ∧
    sdssXr.absmag (some (.vec (List.replicate 5 (.fin 1)))) (some (.vec (List.replicate 5 (.fin 1)))) (some (.scalar (.fin 1))) (some (.vec ([3].map .fin))) (.fin 0)
      none false false false = .ok ret := by
  obtain ⟨M, hM⟩ := (at_ok_iff (m := demoAm5) (by simp [demoAm5]) (q := 1)).mpr ⟨by norm_num [demoAm5], by norm_num [demoAm5]⟩
  obtain ⟨Mo, hMo⟩ := (at_ok_iff (m := demoAm5) (by simp [demoAm5]) (q := 0)).mpr ⟨by norm_num [demoAm5], by norm_num [demoAm5]⟩
  have hk := kOne_fin sdssXr.imap demoAm5_good demoAm5_good (by norm_num) hM hMo [3]
  refine ⟨rfl, ?_⟩
  rw [kcorrect_scalar (K := sdssXr) (A := demoAm5.toXR) (Ao := demoAm5.toXR) rfl rfl (.fin 1) ([3].map .fin) rfl (.fin 0), map_f32_xr, XR.f32_x, hk,
    absmag_one_ab f32Laws_xr sdssXr rfl (.fin 1) _ _ _ rfl rfl]
  have hl := abRow_length (α := XR) .sdss (w := 5) (r := List.replicate 5 (.fin 1)) rfl rfl
  have := absmag_scalar (K := sdssXr.plain) (A := demoAm5.toXR) (Ao := demoAm5.toXR) (Or.inl rfl) rfl rfl (.fin 1) (abRow sdssXr.abCls (List.replicate 5 (.fin 1)))
    (abVRow sdssXr.abCls (List.replicate 5 (.fin 1))) ([3].map .fin) hl.1 hl.2 rfl (.fin 0) none false false false
  simp only [map_f32_xr, XR.f32_x] at this
  unfold absOne at this
  simp only [map_f32_xr, XR.f32_x] at this
  rw [show kOne sdssXr.plain.imap demoAm5.toXR demoAm5.toXR id (.fin 0) (.fin 1) ([3].map .fin) = _ from hk] at this
  exact ⟨_, _, rfl, this⟩

end KC
