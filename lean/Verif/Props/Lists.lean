import Verif.Model.Lists
import Verif.Props.KInit
import Verif.Props.Inputs
import Verif.Props.KFiles
import Verif.Props.Truth

/-!
# C126, C127: band lists shared between objects and with the caller
-/

namespace KC
variable {α : Type} [Arith α]
open Spec

/-- the addresses an operation uses exist -/
def LOp.valid (w : LWorld α) : LOp α → Prop
  | .newList _ => True
  | .assign a _ => a < w.next
  | .construct _ r o m _ => (∀ x ∈ r, x < w.next) ∧ (∀ x ∈ o, x < w.next) ∧ (∀ x ∈ m, x < w.next)

/-- Sessions from one state to another in which the caller changes only list objects whose addresses satisfy `P`. -/
inductive Session (P : Nat → Prop) (w : LWorld α) : LWorld α → Prop
  | refl : Session P w w
  | step {w1 : LWorld α} (o : LOp α) : Session P w w1 → o.valid w1 → (∀ a l, o = .assign a l → P a) → Session P w (w1.step o)

theorem step_next (w : LWorld α) (o : LOp α) : w.next ≤ (w.step o).next := by
  cases o with
  | newList l => simp [LWorld.step]
  | assign a l => exact le_rfl
  | construct cls r o m a =>
    simp only [LWorld.step]
    cases w.make cls r o m a <;> exact le_rfl

theorem step_lists (w : LWorld α) (o : LOp α) (a : Nat) (ha : a < w.next) (h : ∀ l, o ≠ .assign a l) : (w.step o).lists a = w.lists a := by
  cases o with
  | newList l => simp [LWorld.step, Nat.ne_of_lt ha]
  | assign b l =>
    simp only [LWorld.step]
    rw [if_neg]
    rintro rfl
    exact h l rfl
  | construct cls r o m b =>
    simp only [LWorld.step]
    cases w.make cls r o m b <;> rfl

/-- A list object that the caller does not change keeps its contents. -/
theorem session_lists {P : Nat → Prop} {w w' : LWorld α} (h : Session P w w') (a : Nat) (ha : a < w.next) (hP : ¬ P a) :
    w'.lists a = w.lists a ∧ a < w'.next := by
  induction h with
  | refl => exact ⟨rfl, ha⟩
  | @step w1 o _ _ ho ih =>
    obtain ⟨h1, h2⟩ := ih
    refine ⟨(step_lists w1 o a h2 (fun l hl => hP (ho a l hl))).trans h1, lt_of_lt_of_le h2 (step_next w1 o)⟩

/-- A constructed object: its attributes are the contents of its list objects. -/
theorem make_view {w : LWorld α} {cls : Cls} {r o m : Option Nat} {a : KArgs α} {k : KObj α} (h : w.make cls r o m a = .ok k) :
    k.view w.lists = k.K ∧ r.or (defaultList cls) = some k.resp ∧ k.out = o.getD k.resp ∧ k.map = m.getD k.resp := by
  unfold LWorld.make at h
  cases hr : r.or (defaultList cls) with
  | none => rw [hr] at h; cases h
  | some x =>
    rw [hr] at h
    simp only at h
    cases hK : Kc.init a.lib a.disk cls (w.lists x) a.templates (o.map w.lists) (m.map w.lists) a.lo a.hi a.n a.abcorrect a.distmod a.shared with
    | mk w' res =>
      rw [hK] at h
      cases res with
      | error e => cases h
      | ok K =>
        simp only [Except.ok.injEq] at h
        subst h
        refine ⟨?_, rfl, rfl, rfl⟩
        obtain ⟨w1, A, _, hF, ho, hm, _⟩ := init_ok hK
        have e1 : w.lists x = K.responses := by rw [hF]; rfl
        have e2 : w.lists (o.getD x) = K.responsesOut := by rw [ho]; cases o <;> rfl
        have e3 : w.lists (m.getD x) = K.responsesMap := by rw [hm]; cases m <;> rfl
        simp only [KObj.view, e1, e2, e3]

/-- the caller leaves the two default lists alone -/
def notDefault (a : Nat) : Prop := a ≠ 0 ∧ a ≠ 1

/-- C126 (partial): as long as the caller does not change a default list (which they can reach as an attribute of every object made with it), every
`KcorrectSDSS` and `KcorrectGST` made without `responses`, at any moment of a session, has the documented bands, then and afterwards.
Missing: sessions in which they do (`C126_false`). -/
theorem C126_defaults_partial (w : LWorld α) (hw : Session notDefault LWorld.init w) (o m : Option Nat) (a : KArgs α) (k : KObj α) (w' : LWorld α)
    (hw' : Session notDefault w w') :
    (w.make .sdss none o m a = .ok k → k.K.responses = sdssBands ∧ (k.view w'.lists).responses = sdssBands) ∧
    (w.make .gst none o m a = .ok k → k.K.responses = gstBands ∧ (k.view w'.lists).responses = gstBands) := by
  have h0 := session_lists hw 0 (by simp [LWorld.init]) (by simp [notDefault])
  have h1 := session_lists hw 1 (by simp [LWorld.init]) (by simp [notDefault])
  have g0 := session_lists hw' 0 h0.2 (by simp [notDefault])
  have g1 := session_lists hw' 1 h1.2 (by simp [notDefault])
  constructor
  · intro h
    obtain ⟨hv, hr, _⟩ := make_view h
    simp only [Option.or, defaultList, Option.some.injEq] at hr
    have e : ∀ l, (k.view l).responses = l 0 := by intro l; rw [hr]; rfl
    rw [e, ← hv, e, g0.1, h0.1]
    simp [LWorld.init]
  · intro h
    obtain ⟨hv, hr, _⟩ := make_view h
    simp only [Option.or, defaultList, Option.some.injEq] at hr
    have e : ∀ l, (k.view l).responses = l 1 := by intro l; rw [hr]; rfl
    rw [e, ← hv, e, g1.1, h1.1]
    simp [LWorld.init]

/-- What a change through one object does to the others: after `k.responses` of a `KcorrectSDSS` made with the default has been changed to `l`, every later
one made with the default has the bands `l`. -/
theorem C126_shared (w : LWorld α) (o m o' m' : Option Nat) (a a' : KArgs α) (k k' : KObj α) (hk : w.make .sdss none o m a = .ok k) (l : List Name)
    (hk' : ((w.step (.construct .sdss none o m a)).step (.assign k.resp l)).make .sdss none o' m' a' = .ok k') : k'.K.responses = l := by
  obtain ⟨_, hr, _⟩ := make_view hk
  obtain ⟨hv, hr', _⟩ := make_view hk'
  simp only [Option.or, defaultList, Option.some.injEq] at hr hr'
  rw [← hv]
  simp [KObj.view, ← hr, ← hr', LWorld.step]

/-- C127 (partial): what an object is and answers is not affected by anything that happens later, provided the caller does not change the lists the
object was made with.  Missing: sessions in which they do (`C127_false`). -/
theorem C127_unaffected_partial (w : LWorld α) (cls : Cls) (r o m : Option Nat) (a : KArgs α) (k : KObj α) (hv : LOp.valid w (.construct cls r o m a))
    (h2 : 2 ≤ w.next) (hk : w.make cls r o m a = .ok k) (w' : LWorld α) (hw' : Session (fun x => x ≠ k.resp ∧ x ≠ k.out ∧ x ≠ k.map) w w') :
    k.view w'.lists = k.K := by
  obtain ⟨h0, hr, ho, hm⟩ := make_view hk
  obtain ⟨v1, v2, v3⟩ := hv
  have hlt : k.resp < w.next := by
    cases r with
    | some x =>
      simp only [Option.or, Option.some.injEq] at hr
      rw [← hr]
      exact v1 x rfl
    | none =>
      cases cls <;> simp only [Option.or, defaultList, Option.some.injEq, reduceCtorEq] at hr <;> omega
  have hlo : k.out < w.next := by
    rw [ho]
    cases o with
    | none => exact hlt
    | some x => exact v2 x rfl
  have hlm : k.map < w.next := by
    rw [hm]
    cases m with
    | none => exact hlt
    | some x => exact v3 x rfl
  rw [← h0]
  unfold KObj.view
  rw [(session_lists hw' k.resp hlt (by simp)).1, (session_lists hw' k.out hlo (by simp)).1, (session_lists hw' k.map hlm (by simp)).1]

theorem session_next {P : Nat → Prop} {w w' : LWorld α} (h : Session P w w') : w.next ≤ w'.next := by
  induction h with
  | refl => exact le_rfl
  | @step w1 o _ _ _ ih => exact ih.trans (step_next w1 o)

/-- The hypothesis `2 ≤ next` of `C127_unaffected_partial` holds at every moment of a session. -/
theorem session_two {P : Nat → Prop} {w : LWorld α} (h : Session P LWorld.init w) : 2 ≤ w.next := session_next h

/-- C127: a change of the list that keeps its length goes unnoticed by fits, reconstructions, K-corrections and absolute magnitudes: they keep using the
matrices of the original bands. -/
theorem C127_renamed (k : KObj α) (lists : Nat → List Name) (hl : (lists k.resp).length = k.K.responses.length) (nnls : Nnls α) :
    (k.view lists).toFitter.fitCoeffs nnls = k.K.toFitter.fitCoeffs nnls ∧ (k.view lists).toFitter.reconstruct = k.K.toFitter.reconstruct ∧
    (k.view lists).reconstructOut = k.K.reconstructOut ∧ (k.view lists).kcorrect = k.K.kcorrect ∧ (k.view lists).absmag = k.K.absmag ∧
    (k.view lists).absmagMc = k.K.absmagMc := by
  have hi : processInputs (k.view lists).toFitter = processInputs k.K.toFitter := by
    funext a b c d
    unfold processInputs
    simp only [KObj.view, hl]
  have hrec : (k.view lists).toFitter.reconstruct = k.K.toFitter.reconstruct := by
    funext a b c
    unfold Fitter.reconstruct reconstructWith reconI
    rw [hi]
    rfl
  have hout : (k.view lists).reconstructOut = k.K.reconstructOut := by
    funext a b c
    unfold Kc.reconstructOut reconstructWith reconI
    rw [hi]
    rfl
  have hkc : (k.view lists).kcorrect = k.K.kcorrect := by
    funext a b c
    unfold Kc.kcorrect Kc.kcorrectI
    rw [hi, hrec, hout]
    rfl
  have habs : (k.view lists).absmag = k.K.absmag := by
    funext a b c d e f g i j
    unfold Kc.absmag Kc.absmagI Kc.dmOf
    rw [hi, hkc, hout]
    rfl
  refine ⟨?_, hrec, hout, hkc, habs, ?_⟩
  · funext a b c d e
    unfold Fitter.fitCoeffs Fitter.fitCoeffsI fitOne fitPass fit1
    rw [hi]
    simp only [KObj.view, hl]
  · funext a b c d e f g i
    unfold Kc.absmagMc
    rw [habs]

/-- C127: after a change of the list that changes its length, the object refuses the photometry of the bands it was made for. -/
theorem C127_resized (k : KObj α) (lists : Nat → List Name) (hl : (lists k.resp).length ≠ k.K.responses.length) (nnls : Nnls α) (z : α) (m iv : List α)
    (hm : m.length = k.K.responses.length) (mc : Nat) (noise : Nat → Nat → Nat → α) :
    Raises ((k.view lists).toFitter.fitCoeffs nnls (some (.scalar z)) (some (.vec m)) (some (.vec iv)) mc noise) := by
  have := C53_fit_coeffs_refuses nnls (k.view lists).toFitter (some (.scalar z)) (some (.vec m)) (some (.vec iv)) mc noise
    (by simp [NDA.WF]) (by
      rintro ⟨z', hz, h⟩
      cases hz
      rcases h with ⟨_, h1, _⟩ | ⟨n, hz, _⟩
      · have := h1 (.vec m) rfl
        simp only [NDA.vec, NDA.shape, List.nil_append, List.cons.injEq, and_true] at this
        exact hl (by rw [← hm, this]; rfl)
      · simp [NDA.shape] at hz)
  rcases this with h | h <;> rw [h] <;> simp [Raises]

/-- C127: after such a change (from two or more bands to another number of bands, also two or more), the object accepts photometry of the new length, and
returns coefficients that are all zero: the `try ... except ValueError` meant for redshifts outside the range also hides that the matrix does not have one
row per band. -/
theorem C127_resized_silent (k : KObj α) (lists : Nat → List Name) (hF : NoAb k.K.toFitter) (hl : (lists k.resp).length ≠ k.K.responses.length)
    (h2 : 2 ≤ k.K.responses.length) (hl2 : 2 ≤ (lists k.resp).length) (Am : AMat α) (hA : k.K.Amatrix = some Am) (z : α) (M : List (List α))
    (hz : Am.at (f32 z) = .ok M) (hM : M.length = k.K.responses.length) (nnls : Nnls α) (m iv : List α)
    (hm : m.length = (lists k.resp).length) (hiv : iv.length = (lists k.resp).length) (noise : Nat → Nat → Nat → α) :
    (k.view lists).toFitter.fitCoeffs nnls (some (.scalar z)) (some (.vec m)) (some (.vec iv)) 0 noise =
      .ok ⟨.vec (List.replicate k.K.templates.nsed (lit 0)), none⟩ := by
  have hw : weighAt Am (iv.map f32) (f32 z) = .error .valueError := by
    rw [weighAt, hz, ok_bind, weigh, if_neg (by simp only [List.length_map]; omega), if_neg (by omega),
      if_neg (by simp only [List.length_map]; omega)]
  rw [fit_scalar nnls (F := (k.view lists).toFitter) hF (show (lists k.resp).length ≠ 1 by omega) z m iv hm hiv]
  have hA' : (k.view lists).toFitter.Amatrix = some Am := hA
  unfold fitU
  rw [fit1_out' hA' hw]
  rfl

/-- C127: an object made for one band whose list the caller makes longer fits photometry in the longer list of bands as if every band had the response of
the one band: every row of the matrix given to the solver is a multiple of the same row. -/
theorem C127_resized_one_band (k : KObj α) (lists : Nat → List Name) (hF : NoAb k.K.toFitter) (hl2 : 2 ≤ (lists k.resp).length) (Am : AMat α)
    (hA : k.K.Amatrix = some Am) (z : α) (row : List α) (hz : Am.at (f32 z) = .ok [row]) (nnls : Nnls α) (m iv : List α)
    (hm : m.length = (lists k.resp).length) (hiv : iv.length = (lists k.resp).length) (noise : Nat → Nat → Nat → α) (c : List α)
    (hc : nnls k.K.templates.nsed ((iv.map f32).map fun v => row.map fun a => Arith.sqrt v * a)
      (rhs (m.map f32) ((iv.map f32).map Arith.sqrt)) none = .ok c) :
    (k.view lists).toFitter.fitCoeffs nnls (some (.scalar z)) (some (.vec m)) (some (.vec iv)) 0 noise = .ok ⟨.vec c, none⟩ := by
  have hw : weighAt Am (iv.map f32) (f32 z) = .ok ((iv.map f32).map fun v => row.map fun a => Arith.sqrt v * a) := by
    rw [weighAt, hz, ok_bind, weigh, if_neg, if_pos (by rfl)]
    · simp [List.map_map, Function.comp_def]
    · simp only [List.length_map, List.length_singleton]; omega
  rw [fit_scalar nnls (F := (k.view lists).toFitter) hF (show (lists k.resp).length ≠ 1 by omega) z m iv hm hiv]
  have hA' : (k.view lists).toFitter.Amatrix = some Am := hA
  rw [fitU_in0' hA' hw (by simp)]
  have hs : solve nnls (k.view lists).toFitter.templates.nsed ((iv.map f32).map fun v => row.map fun a => Arith.sqrt v * a)
      (rhs (m.map f32) ((iv.map f32).map Arith.sqrt)) = .ok c := by
    unfold solve
    have e : (k.view lists).toFitter.templates.nsed = k.K.templates.nsed := rfl
    rw [e, hc]
  rw [hs]
  rfl

/-! ### witnesses -/

/-- a disk with a response file of every name -/
noncomputable def anyDisk : Disk ℝ := fun _ => .ok ([1, 2, 3, 4], [0, 1, 1, 0])

/-- constructor arguments with two templates and ten redshifts, nothing loaded yet -/
noncomputable def anyArgs : KArgs ℝ := ⟨demoLib, anyDisk, .sed demoShared.sed, 0, 2, 10, false, fun z => z, demoShared⟩

theorem imapOf_self (R : List Name) : ∃ im, imapOf R R = .ok im := by
  have key : ∀ l : List Name, (∀ n ∈ l, n ∈ R) → ∃ im, imapOf R l = .ok im := by
    intro l
    induction l with
    | nil => intro _; exact ⟨[], rfl⟩
    | cons n l ih =>
      intro h
      obtain ⟨im, him⟩ := ih (fun x hx => h x (List.mem_cons_of_mem _ hx))
      refine ⟨R.idxOf n :: im, ?_⟩
      unfold imapOf at him ⊢
      rw [List.mapM_cons, if_pos (h n List.mem_cons_self), ok_bind, him, ok_bind]
      rfl
  exact key R (fun _ h => h)

/-- Objects of any class with any bands can be made. -/
theorem any_made (w : LWorld ℝ) (cls : Cls) (r : Option Nat) (x : Nat) (hx : r.or (defaultList cls) = some x) :
    ∃ k, w.make cls r none none anyArgs = .ok k := by
  obtain ⟨w1, A, hA, _⟩ := C93_build_succeeds demoLib anyDisk (redshiftGrid 0 2 10) (w.lists x) demoShared
    (by
      intro z hz
      simp only [redshiftGrid, List.mem_map, List.mem_range] at hz
      obtain ⟨i, _, rfl⟩ := hz
      simp only [real_f32, real_lit]
      push_cast
      have : (0 : ℝ) ≤ (2 - 0) * (i : ℝ) / ((10 : ℝ) - 1) := div_nonneg (by positivity) (by norm_num)
      linarith)
    (by simp [demoShared]; norm_num) (by simp [demoShared]) (by simp [demoShared]) (by simp [demoShared])
    (by
      intro n _
      obtain ⟨R, hR⟩ := demo_response (wave := [1, 2, 3, 4]) (resp := [0, 1, 1, 0]) (by norm_num) (by simp) rfl ⟨1, by simp, by norm_num⟩
      exact Or.inr ⟨rfl, R, _, _, rfl, hR⟩)
  obtain ⟨im, him⟩ := imapOf_self (w.lists x)
  unfold LWorld.make
  rw [hx]
  simp only [Kc.init, Fitter.setAmatrix, Fitter.mk', anyArgs, hA, Option.map_none, Option.getD_none, ne_eq, not_true_eq_false, if_false, if_true, ok_bind, him]
  exact ⟨_, rfl⟩

/-- C126 is false as stated: after `k = KcorrectSDSS()`, `k.responses.append('x')`, a second `KcorrectSDSS()` has six bands. -/
theorem C126_false : ∃ (w w' : LWorld ℝ) (k k' : KObj ℝ), Session (fun _ => True) LWorld.init w ∧ k ∈ w.objs ∧
    w' = w.step (.assign k.resp (w.lists k.resp ++ [['x']])) ∧ w'.make .sdss none none none anyArgs = .ok k' ∧ k'.K.responses.length = 6 := by
  obtain ⟨k, hk⟩ := any_made LWorld.init .sdss none 0 rfl
  have hw : LWorld.init.step (.construct .sdss none none none anyArgs) = { (LWorld.init : LWorld ℝ) with objs := [k] } := by
    simp only [LWorld.step, hk]; rfl
  set w := LWorld.init.step (.construct .sdss none none none anyArgs) with hwdef
  obtain ⟨k', hk'⟩ := any_made (w.step (.assign k.resp (w.lists k.resp ++ [['x']]))) .sdss none 0 rfl
  refine ⟨w, _, k, k', ?_, by rw [hw]; simp, rfl, hk', ?_⟩
  · exact Session.step _ Session.refl ⟨by simp, by simp, by simp⟩ (fun _ _ h => by cases h)
  · rw [C126_shared LWorld.init none none none none anyArgs anyArgs k k' hk _ hk']
    obtain ⟨_, hr, _⟩ := make_view hk
    simp only [Option.or, defaultList, Option.some.injEq] at hr
    rw [hw, ← hr]
    simp [LWorld.init, sdssBands]

/-- C127 is false as stated: `bands = ['x']; k = Kcorrect(responses=bands, ...); bands.append('y')`, and `k` refuses the photometry it was made for. -/
theorem C127_false : ∃ (w w' : LWorld ℝ) (k : KObj ℝ), Session (fun _ => True) LWorld.init w ∧ k ∈ w.objs ∧ w' = w.step (.assign 2 [['x'], ['y']]) ∧
    k.K.responses = [['x']] ∧ ∀ nnls z m iv mc noise, m.length = 1 →
      Raises ((k.view w'.lists).toFitter.fitCoeffs nnls (some (.scalar z)) (some (.vec m)) (some (.vec iv)) mc noise) := by
  let w1 : LWorld ℝ := LWorld.init.step (.newList [['x']])
  obtain ⟨k, hk⟩ := any_made w1 .base (some 2) 2 rfl
  have hw : w1.step (.construct .base (some 2) none none anyArgs) = { w1 with objs := [k] } := by
    simp only [LWorld.step, hk]; rfl
  obtain ⟨hv, hr, _⟩ := make_view hk
  simp only [Option.or, Option.some.injEq] at hr
  have hR : k.K.responses = [['x']] := by
    rw [← hv]
    simp [KObj.view, ← hr, w1, LWorld.step, LWorld.init]
  refine ⟨w1.step (.construct .base (some 2) none none anyArgs), _, k, ?_, by rw [hw]; simp, rfl, hR, ?_⟩
  · exact Session.step _ (Session.step _ Session.refl trivial (fun _ _ _ => trivial))
      ⟨by simp [w1, LWorld.step, LWorld.init], by simp, by simp⟩ (fun _ _ _ => trivial)
  · intro nnls z m iv mc noise hm
    refine C127_resized k _ ?_ nnls z m iv (by rw [hR]; exact hm) mc noise
    rw [hR, ← hr, hw]
    simp [LWorld.step]

/-- Not vacuous (`C127_resized_silent`): two bands, and a third one appended. -/
example (nnls : Nnls ℝ) : (KObj.view ⟨demoKc2, 2, 2, 2⟩ (fun _ => [['x'], ['y'], ['z']])).toFitter.fitCoeffs nnls (some (.scalar 2)) (some (.vec [1, 2, 3]))
    (some (.vec [1, 1, 1])) 0 (fun _ _ _ => 0) = .ok ⟨.vec (List.replicate demoKc2.templates.nsed (lit 0)), none⟩ :=
  C127_resized_silent ⟨demoKc2, 2, 2, 2⟩ _ (Or.inr rfl) (by simp [demoKc2, demoFitter2, Fitter.mk']) (by simp [demoKc2, demoFitter2, Fitter.mk']) (by simp) demoAm2 rfl 2 _
    demoAm2_at2 rfl nnls _ _ rfl rfl _

/-- Not vacuous (`C127_resized_one_band`): one band, and a second one appended. -/
example (nnls : Nnls ℝ) (c : List ℝ) : ∃ row, demoAm.at 0 = .ok [row] ∧
    (nnls demoKc.templates.nsed (([1, 1].map f32).map fun v => row.map fun a => Arith.sqrt v * a)
      (rhs ([1, 2].map f32) (([1, 1].map f32).map Arith.sqrt)) none = .ok c →
    (KObj.view ⟨demoKc, 2, 2, 2⟩ (fun _ => [['x'], ['y']])).toFitter.fitCoeffs nnls (some (.scalar 0)) (some (.vec [1, 2]))
      (some (.vec [1, 1])) 0 (fun _ _ _ => 0) = .ok ⟨.vec c, none⟩) :=
  ⟨_, at_node (k := 0) demoAm_good (by simp [demoAm]), fun h =>
    C127_resized_one_band ⟨demoKc, 2, 2, 2⟩ _ (Or.inr rfl) (by simp) demoAm rfl 0 _ (at_node (k := 0) demoAm_good (by simp [demoAm])) nnls _ _ rfl rfl _ c h⟩

/-- Not vacuous (C126, C127): the constructors return, before and after other operations. -/
example : ∃ k, (LWorld.init.step (.newList [['x']])).make .gst none none none anyArgs = .ok k := any_made _ .gst none 1 rfl

end KC
