import Verif.Props.Inputs
import Verif.Props.Derived
import Verif.Props.Heap
import Verif.Props.Utils
import Verif.Model.Kcorrect

/-!
# C53 for the methods of `Kcorrect`
-/

namespace KC
open Spec
variable {α : Type} [Arith α]

/-- The methods refuse what the checks refuse: `kcorrect`. -/
theorem C53_kcorrect_refuses (K : Kc α) (redshift coeffs : Option (NDA α)) (bs : α) (hw : ∀ z ∈ redshift, z.WF)
    (h : ¬ ShapesMatch K.responses.length K.templates.nsed redshift none none coeffs) :
    K.kcorrect redshift coeffs bs = .error .valueError ∨ K.kcorrect redshift coeffs bs = .error .typeError := by
  rcases C53_mismatch_refused K.toFitter redshift none none coeffs hw h with h | h
  · exact .inl (by unfold Kc.kcorrect; rw [h]; rfl)
  · exact .inr (by unfold Kc.kcorrect; rw [h]; rfl)

/-- The methods refuse what the checks refuse: `absmag`, the distance included. -/
theorem C53_absmag_refuses (K : Kc α) (maggies ivar redshift coeffs : Option (NDA α)) (bs : α) (distance : Option (NDA α)) (r l k : Bool)
    (hw : ∀ z ∈ redshift, z.WF) (h : ¬ ShapesMatch K.responses.length K.templates.nsed redshift maggies ivar coeffs) :
    K.absmag maggies ivar redshift coeffs bs distance r l k = .error .valueError ∨
    K.absmag maggies ivar redshift coeffs bs distance r l k = .error .typeError := by
  rcases C53_mismatch_refused K.toFitter redshift maggies ivar coeffs hw h with h | h
  · exact .inl (by unfold Kc.absmag; rw [h]; rfl)
  · exact .inr (by unfold Kc.absmag; rw [h]; rfl)

/-- The methods refuse what the checks refuse: `derived`. -/
theorem C53_derived_refuses (K : Kc α) (g : Reg α) (redshift coeffs : Option (NDA α)) (bs : α) (distance : Option (NDA α))
    (hw : ∀ z ∈ redshift, z.WF) (h : ¬ ShapesMatch K.responses.length K.templates.nsed redshift none none coeffs) :
    K.derived g redshift coeffs bs distance = .error .valueError ∨ K.derived g redshift coeffs bs distance = .error .typeError := by
  rcases C53_mismatch_refused K.toFitter redshift none none coeffs hw h with h | h
  · exact .inl (by unfold Kc.derived; rw [h]; rfl)
  · exact .inr (by unfold Kc.derived; rw [h]; rfl)

/-- What `_process_inputs` keeps of the redshifts. -/
theorem processInputs_z {F : Fitter α} {z : NDA α} {maggies ivar coeffs : Option (NDA α)} {i : Inp α} (hw : z.WF)
    (h : processInputs F (some z) maggies ivar coeffs = .ok i) : z.shape = (if i.array then [i.z.length] else []) ∧ (i.coeffs = none → coeffs = none) := by
  have hc : ∀ (b : Bool) (n w : Nat) (a c : Option (NDA α)), checkTable b n w a = .ok c → (c.map NDA.rows = none → a = none) := by
    intro b n w a c h hn
    cases a with
    | none => rfl
    | some a =>
      simp only [checkTable] at h
      by_cases hs : (a.map f32).shape = (if b = true then [n, w] else [w])
      · rw [if_pos hs] at h
        cases h
        cases hn
      · rw [if_neg hs] at h
        cases h
  cases z with
  | scalar x =>
    simp only [processInputs, Option.map_some, NDA.map, ok_bind, bind_ok_iff] at h
    obtain ⟨m, -, v, -, c, hc1, h⟩ := h
    split at h
    · simp only [bind_ok_iff] at h
      obtain ⟨r, -, h⟩ := h
      cases h
      exact ⟨by simp [NDA.shape], hc _ _ _ _ _ hc1⟩
    · cases h
      exact ⟨by simp [NDA.shape], hc _ _ _ _ _ hc1⟩
  | arr lead n rows =>
    cases lead with
    | cons a t => simp [processInputs, NDA.map] at h
    | nil =>
      obtain ⟨row, rfl, hrow⟩ : ∃ row, rows = [row] ∧ row.length = n := by
        simp only [NDA.WF, List.prod_nil] at hw
        obtain ⟨row, rfl⟩ := List.length_eq_one_iff.1 hw.1
        exact ⟨row, rfl, hw.2 row (by simp)⟩
      simp only [processInputs, Option.map_some, NDA.map, ok_bind, bind_ok_iff] at h
      obtain ⟨m, -, v, -, c, hc1, h⟩ := h
      split at h
      · simp only [bind_ok_iff] at h
        obtain ⟨r, -, h⟩ := h
        cases h
        exact ⟨by simp [NDA.shape, hrow], hc _ _ _ _ _ hc1⟩
      · cases h
        exact ⟨by simp [NDA.shape, hrow], hc _ _ _ _ _ hc1⟩

/-- A distance is accepted only in the shape of the redshift: `absmag` with another one never returns. -/
theorem C53_absmag_distance (K : Kc α) (maggies ivar : Option (NDA α)) (z c d : NDA α) (bs : α) (r l k : Bool) (hz : z.WF) (hd : d.WF) (out : Ret α)
    (h : K.absmag maggies ivar (some z) (some c) bs (some d) r l k = .ok out) : d.shape = z.shape := by
  unfold Kc.absmag at h
  rw [bind_ok_iff] at h
  obtain ⟨i, hi, h⟩ := h
  obtain ⟨e1, e2⟩ := processInputs_z hz hi
  unfold Kc.absmagI at h
  rw [bind_ok_iff] at h
  obtain ⟨dm, hdm, -⟩ := h
  unfold Kc.dmOf at hdm
  simp only [bind_ok_iff] at hdm
  obtain ⟨j, hj, -⟩ := hdm
  obtain ⟨cs, hcs⟩ : ∃ cs, i.coeffs = some cs := by
    cases hh : i.coeffs with
    | none => exact absurd (e2 hh) (by simp)
    | some cs => exact ⟨cs, rfl⟩
  rw [hcs, Option.map_some] at hj
  have hs : ShapesMatch K.responses.length K.templates.nsed (some d) none none (some (i.tbl K.templates.nsed cs)) := by
    by_contra hc
    rcases C53_mismatch_refused K.toFitter (some d) none none _ (by simpa using hd) hc with e | e <;> rw [e] at hj <;> cases hj
  obtain ⟨d', hd', hs⟩ := hs
  cases hd'
  rw [e1]
  cases hb : i.array with
  | true =>
    simp only [Inp.tbl, hb, if_true] at hs ⊢
    rcases hs with ⟨-, -, -, h3⟩ | ⟨n, h0, -, -, h3⟩
    · simpa [NDA.shape] using h3 _ rfl
    · have := h3 _ rfl
      simp only [NDA.shape, List.cons_append, List.nil_append, List.cons.injEq] at this
      rw [h0, this.1]
  | false =>
    simp only [Inp.tbl, hb] at hs ⊢
    rcases hs with ⟨h0, -⟩ | ⟨n, -, -, -, h3⟩
    · simpa using h0
    · have := h3 _ rfl
      simp [NDA.shape] at this

/-- One coefficient too few for a single object, a table for a single redshift and a column vector of redshifts do not match; what is documented does. -/
example : ¬ ShapesMatch 5 3 (some (.scalar (0 : ℝ))) none none (some (.vec [1, 2])) ∧ ¬ ShapesMatch 2 3 (some (.scalar (0 : ℝ))) none none (some (.arr [1] 3 [[1, 2, 3]])) ∧
    ¬ ShapesMatch 2 3 (some (.arr [2] 1 [[(0 : ℝ)], [1]])) none none (some (.arr [2] 3 [[1, 2, 3], [1, 2, 3]])) ∧
    ShapesMatch 2 3 (some (.vec [(0 : ℝ), 1])) none none (some (.arr [2] 3 [[1, 2, 3], [1, 2, 3]])) := by
  refine ⟨?_, ?_, ?_, ?_⟩ <;> simp [ShapesMatch, NDA.shape, NDA.vec]

namespace Spec

/-- The photometry in `nb` bands that the AB correction of a class lets pass: five bands for `KcorrectSDSS`, more only in batches; inverse variances and at least
seven bands for `KcorrectGST`. -/
def AbAccepts (cls : Cls) (batch : Prop) (nb : Nat) (hasIvar : Prop) : Prop :=
  match cls with
  | .base => True
  | .sdss => nb = 5 ∨ batch ∧ 5 ≤ nb
  | .gst => hasIvar ∧ 7 ≤ nb

end Spec

theorem toAb_returns (cls : Cls) (m : NDA α) (iv : Option (NDA α)) (lead : List Nat) (nb : Nat) (hm : m.shape = lead ++ [nb]) (hiv : ∀ a ∈ iv, a.shape = m.shape) :
    (∃ r, toAb cls m iv = .ok r) ↔ AbAccepts cls (lead ≠ []) nb (iv ≠ none) := by
  have last : ∀ {a b : List Nat} {x y : Nat}, a ++ [x] = b ++ [y] → a = b ∧ x = y := fun h => by simpa using List.append_inj' h rfl
  cases cls with
  | base => exact ⟨fun _ => trivial, fun _ => ⟨_, rfl⟩⟩
  | sdss =>
    simp only [toAb, AbAccepts]
    rw [C05_returns_iff]
    constructor
    · rintro ⟨-, -, l', n', h1, h2⟩
      obtain ⟨rfl, rfl⟩ := last (hm.symm.trans h1)
      exact h2
    · exact fun h => ⟨by simp [abfixDefault], fun v hv => (hiv v hv).symm, lead, nb, hm, h⟩
  | gst =>
    cases m with
    | scalar x => simp [NDA.shape] at hm
    | arr ml mn mrows =>
      obtain ⟨rfl, rfl⟩ := last (show ml ++ [mn] = lead ++ [nb] from hm)
      cases iv with
      | none => exact ⟨fun ⟨r, h⟩ => by simp [toAb, slice27] at h, fun h => absurd rfl h.1⟩
      | some v =>
        cases v with
        | scalar x => have := hiv _ rfl; simp [NDA.shape] at this
        | arr vl vn vrows =>
          obtain ⟨rfl, rfl⟩ := last (show vl ++ [vn] = ml ++ [mn] from hiv _ rfl)
          simp only [toAb, slice27, ok_bind, AbAccepts, bind_ok_iff]
          have key := C05_returns_iff (NDA.arr vl (min 7 vn - min 2 vn) (mrows.map (fun r => (r.drop 2).take 5)))
            (some (.arr vl (min 7 vn - min 2 vn) (vrows.map (fun r => (r.drop 2).take 5)))) (abfixDefault (α := α))
          constructor
          · rintro ⟨out, r, hr, -⟩
            obtain ⟨-, -, l', n', h1, h2⟩ := key.1 ⟨r, hr⟩
            obtain ⟨-, rfl⟩ := last (show vl ++ [min 7 vn - min 2 vn] = l' ++ [n'] from h1)
            exact ⟨by simp, by omega⟩
          · rintro ⟨-, h7⟩
            obtain ⟨r, hr⟩ := key.2 ⟨by simp [abfixDefault], fun v hv => by cases hv; rfl, vl, _, rfl, .inl (by omega)⟩
            have hsh := (sdssAb_shape hr).2
            cases hri : r.ivar with
            | none => rw [hri] at hsh; cases hsh
            | some riv => exact ⟨_, r, hr, by simp only [hri]; rfl⟩

/-- C53 in every class with the AB correction on: exactly what is accepted. -/
theorem C53_ab_iff (F : Fitter α) (hab : F.abcorrect = true) (z : NDA α) (maggies ivar coeffs : Option (NDA α)) (hw : z.WF) :
    (∃ i, processInputs F (some z) maggies ivar coeffs = .ok i) ↔
      ShapesMatch F.responses.length F.templates.nsed (some z) maggies ivar coeffs ∧
        (maggies ≠ none → AbAccepts F.cls (z.shape ≠ []) F.responses.length (ivar ≠ none)) := by
  have pass : ∀ (az : Bool × List α) (m iv c : Option (NDA α)) (lead : List Nat), (∀ a ∈ m, a.shape = lead ++ [F.responses.length]) →
      (∀ a ∈ iv, a.shape = lead ++ [F.responses.length]) →
      ((∃ i, finish F az m iv c = .ok i) ↔ (m ≠ none → AbAccepts F.cls (lead ≠ []) F.responses.length (iv ≠ none))) := by
    intro az m iv c lead hm hiv
    unfold finish
    rw [hab]
    cases m with
    | none => simp
    | some m =>
      simp only [bind_ok_iff]
      rw [show (some m ≠ none → AbAccepts F.cls (lead ≠ []) F.responses.length (iv ≠ none)) ↔ AbAccepts F.cls (lead ≠ []) F.responses.length (iv ≠ none) from
        ⟨fun h => h (by simp), fun h _ => h⟩, ← toAb_returns F.cls m iv lead F.responses.length (hm m rfl) (fun a ha => (hiv a ha).trans (hm m rfl).symm)]
      exact ⟨fun ⟨i, r, hr, _⟩ => ⟨r, hr⟩, fun ⟨r, hr⟩ => ⟨_, r, hr, rfl⟩⟩
  by_cases hS : ShapesMatch F.responses.length F.templates.nsed (some z) maggies ivar coeffs
  · obtain ⟨z', hz', hS'⟩ := id hS
    cases hz'
    rw [processInputs_finish]
    rcases hS' with ⟨hz, h1, h2, h3⟩ | ⟨n, hz, h1, h2, h3⟩
    · obtain ⟨x, rfl⟩ := scalar_of_shape hz
      simp only [NDA.map, redshiftsOf, ok_bind]
      rw [checkTable_ok false _ _ maggies (by simpa using h1), ok_bind, checkTable_ok false _ _ ivar (by simpa using h2), ok_bind,
        checkTable_ok false _ _ coeffs (by simpa using h3), ok_bind, pass _ _ _ _ [] (by simpa [map_shape'] using h1) (by simpa [map_shape'] using h2)]
      simp [NDA.shape, hS]
    · obtain ⟨xs, rfl, rfl⟩ := vec_of_shape hw hz
      simp only [NDA.map, NDA.vec, redshiftsOf, ok_bind, List.map_cons, List.map_nil, List.flatten_cons, List.flatten_nil, List.append_nil]
      rw [checkTable_ok true _ _ maggies (by simpa using h1), ok_bind, checkTable_ok true _ _ ivar (by simpa using h2), ok_bind,
        checkTable_ok true _ _ coeffs (by simpa using h3), ok_bind, pass _ _ _ _ [xs.length] (by simpa [map_shape'] using h1) (by simpa [map_shape'] using h2)]
      simp only [NDA.vec] at hS
      simp [NDA.shape, hS]
  · refine ⟨fun ⟨i, hi⟩ => ?_, fun h => absurd h.1 hS⟩
    rcases C53_mismatch_refused F (some z) maggies ivar coeffs (by simpa using hw) hS with h | h <;> rw [h] at hi <;> cases hi

theorem rowLoop_src {σ : Type} (n : Nat) (g : Nat → σ → List α → α) (s t : σ) (h : ∀ i < n, ∀ o, g i s o = g i t o) (out : List α) :
    rowLoop n g s out = rowLoop n g t out := by
  induction n with
  | zero => rfl
  | succ n ih =>
    have e : ∀ s : σ, rowLoop (n + 1) g s out = (rowLoop n g s out).set n (g n s (rowLoop n g s out)) := by
      intro s
      simp [rowLoop, List.range_succ]
    rw [e, e, ih (fun i hi o => h i (by omega) o), h n (by omega)]

/-- the two tables have the same first five columns -/
def SameUgriz (a b : List (List α)) : Prop := a.length = b.length ∧ ∀ (k : Nat) r s, a[k]? = some r → b[k]? = some s → r.take 5 = s.take 5

theorem colLoop_ugriz (g : Nat → α → α) (a b : List (List α)) (h : SameUgriz a b) (n : Nat) :
    colLoop 5 (fun i s _ => g i (ent s i)) (a.map (List.map f32)) (zeroRows (a.map (List.map f32)).length n) =
      colLoop 5 (fun i s _ => g i (ent s i)) (b.map (List.map f32)) (zeroRows (b.map (List.map f32)).length n) := by
  rw [colLoop_eq _ _ _ _ (by simp [zeroRows]), colLoop_eq _ _ _ _ (by simp [zeroRows])]
  apply List.ext_getElem
  · simp [zeroRows, h.1]
  · intro k h1 h2
    simp only [List.getElem_zipWith, List.getElem_map, zeroRows, List.getElem_replicate]
    refine rowLoop_src 5 _ _ _ (fun i hi _ => ?_) _
    have hk : k < a.length := by simp only [List.length_zipWith, List.length_map] at h1; omega
    have hk' : k < b.length := h.1 ▸ hk
    have e := h.2 k a[k] b[k] (List.getElem?_eq_getElem hk) (List.getElem?_eq_getElem hk')
    have e' : (a[k])[i]? = (b[k])[i]? := by
      have := congrArg (fun l => l[i]?) e
      simpa [List.getElem?_take, hi] using this
    simp [ent, List.getD_eq_getElem?_getD, e']

/-- The correction of `KcorrectSDSS` drops the bands after the fifth: whatever is measured in them, a batch is fitted with zero flux and zero weight there. -/
theorem C53_false_extra (nnls : Nnls α) (F : Fitter α) (hc : F.cls = .sdss) (hab : F.abcorrect = true) (z : NDA α) (n : Nat)
    (m m' iv iv' : List (List α)) (hm : SameUgriz m m') (hiv : SameUgriz iv iv') (mc : Nat) (noise : Nat → Nat → Nat → α) :
    F.fitCoeffs nnls (some z) (some (.arr [n] F.responses.length m)) (some (.arr [n] F.responses.length iv)) mc noise =
      F.fitCoeffs nnls (some z) (some (.arr [n] F.responses.length m')) (some (.arr [n] F.responses.length iv')) mc noise := by
  have hmm : SameUgriz (m.map (List.map f32)) (m'.map (List.map (f32 (α := α)))) := by
    refine ⟨by simpa using hm.1, fun k r s h1 h2 => ?_⟩
    rw [List.getElem?_map, Option.map_eq_some_iff] at h1 h2
    obtain ⟨r', h1, rfl⟩ := h1
    obtain ⟨s', h2, rfl⟩ := h2
    rw [← List.map_take, ← List.map_take, hm.2 k r' s' h1 h2]
  have hvv : SameUgriz (iv.map (List.map f32)) (iv'.map (List.map (f32 (α := α)))) := by
    refine ⟨by simpa using hiv.1, fun k r s h1 h2 => ?_⟩
    rw [List.getElem?_map, Option.map_eq_some_iff] at h1 h2
    obtain ⟨r', h1, rfl⟩ := h1
    obtain ⟨s', h2, rfl⟩ := h2
    rw [← List.map_take, ← List.map_take, hiv.2 k r' s' h1 h2]
  have hto : toAb F.cls (.arr [n] F.responses.length (m.map (List.map f32))) (some (.arr [n] F.responses.length (iv.map (List.map f32)))) =
      toAb F.cls (.arr [n] F.responses.length (m'.map (List.map f32))) (some (.arr [n] F.responses.length (iv'.map (List.map f32)))) := by
    rw [hc]
    simp only [toAb, sdssAbCorrect, NDA.map, Option.map_some, NDA.shape, abApply]
    have e1 := colLoop_ugriz (fun i x => f32 (x * ent (abFac abfixDefault) i)) _ _ hmm F.responses.length
    have e2 := colLoop_ugriz (fun i x => f32 (x / (ent (abFac abfixDefault) i * ent (abFac abfixDefault) i))) _ _ hvv F.responses.length
    simp only at e1 e2
    rw [e1, e2]
    simp [require]
  have hp : processInputs F (some z) (some (.arr [n] F.responses.length m)) (some (.arr [n] F.responses.length iv)) none =
      processInputs F (some z) (some (.arr [n] F.responses.length m')) (some (.arr [n] F.responses.length iv')) none := by
    rw [processInputs_finish, processInputs_finish]
    refine bind_congr fun az => ?_
    simp only [checkTable, NDA.map, NDA.shape]
    generalize (if az.1 = true then [az.2.length, F.responses.length] else [F.responses.length]) = sh
    by_cases hs : [n] ++ [F.responses.length] = sh
    · subst hs
      simp only [if_true, ok_bind, finish, hab]
      rw [hto]
    · simp only [hs, if_false, error_bind]
  unfold Fitter.fitCoeffs
  rw [hp]

/-- two objects measured in six bands, different in the sixth -/
example : SameUgriz [[1, 2, 3, 4, 5, 6], [6, 5, 4, 3, 2, 1]] [[1, 2, 3, 4, 5, 600], [6, 5, 4, 3, 2, (-1 : ℝ)]] := by
  refine ⟨rfl, fun k r s h1 h2 => ?_⟩
  match k with
  | 0 => cases h1; cases h2; rfl
  | 1 => cases h1; cases h2; rfl
  | k + 2 => cases h1

end KC
