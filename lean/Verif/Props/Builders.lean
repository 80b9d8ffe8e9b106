import Verif.Model.Builders
import Verif.Props.Build
import Verif.Props.Response

/-!
# C99: building several objects at the same time
-/

namespace KC
open Spec
variable {α : Type} [Arith α]

/-! ### What remains to be done by a thread, if it runs alone -/

/-- the rest of a build after the grid -/
def Job.finA (j : Job α) (ms : List (List (List α))) (s : Sed α) : Sed α × Py (AMat α) :=
  match mkAMat j.redshifts ms j.responses.length s.nsed with
  | .error e => (s, .error e)
  | .ok A => match s.setRedshift (lit 0) with
    | (s', .error e) => (s', .error e)
    | (s', .ok _) => (s', .ok A)

/-- the rest of a build from the head of the loop -/
def Job.finG (lib : Lib α) (g : Reg α) (j : Job α) (zs : List α) (acc : List (List (List α))) (s : Sed α) : Sed α × Py (AMat α) :=
  match gridLoop lib g j.responses zs s with
  | (s', .error e) => (s', .error e)
  | (s', .ok ms) => j.finA (acc ++ ms) s'

/-- the rest of a build from the projections at one redshift -/
def Job.finP (lib : Lib α) (g : Reg α) (j : Job α) (rs : List Name) (row : List (List α)) (zs : List α)
    (acc : List (List (List α))) (s : Sed α) : Sed α × Py (AMat α) :=
  match rs.mapM (respRow lib g s) with
  | .error e => (s, .error e)
  | .ok m => j.finG lib g zs (acc ++ [row ++ m]) s

/-- the rest of a build after a `set_redshift` call -/
def Job.finK (lib : Lib α) (g : Reg α) (j : Job α) (k : After α) (s : Sed α) : Sed α × Py (AMat α) :=
  match k with
  | .grid zs acc => j.finP lib g j.responses [] zs acc s
  | .finish A => (s, .ok A)

/-- the rest of a build -/
def Job.fin (lib : Lib α) (g : Reg α) (j : Job α) (p : BPC α) (s : Sed α) : Sed α × Py (AMat α) :=
  match p with
  | .head zs acc => j.finG lib g zs acc s
  | .set st z k =>
    let s := if st ≤ 0 then { s with wave := s.restWave.map (fun w => w * (lit 1 + z)) } else s
    let s := if st ≤ 1 then { s with flux := s.restFlux.map (List.map (fun f => f / (lit 1 + z))) } else s
    let s := if st ≤ 2 then { s with redshift := z } else s
    match (if s.interpolate then s.setInterp else (s, .ok ())) with
    | (s', .error e) => (s', .error e)
    | (s', .ok _) => j.finK lib g k s'
  | .proj rs row zs acc => j.finP lib g rs row zs acc s
  | .done r => (s, r)

theorem fin_set0 (lib : Lib α) (g : Reg α) (j : Job α) (z : α) (k : After α) (s : Sed α) :
    j.fin lib g (.set 0 z k) s = match s.setRedshift z with
      | (s', .error e) => (s', .error e)
      | (s', .ok _) => j.finK lib g k s' := rfl

theorem fin_step (lib : Lib α) (g : Reg α) (j : Job α) (p : BPC α) (s : Sed α) :
    j.fin lib g (j.step lib g p s).2 (j.step lib g p s).1 = j.fin lib g p s := by
  cases p with
  | head zs acc =>
    cases zs with
    | nil =>
      simp only [Job.step]
      show _ = j.finG lib g [] acc s
      simp only [Job.finG, gridLoop, List.append_nil, Job.finA]
      cases mkAMat j.redshifts acc j.responses.length s.nsed with
      | error e => rfl
      | ok A => rw [fin_set0]; rfl
    | cons z zs =>
      simp only [Job.step]
      rw [fin_set0]
      show _ = j.finG lib g (z :: zs) acc s
      simp only [Job.finG, gridLoop]
      cases s.setRedshift z with
      | mk s' r =>
        cases r with
        | error e => rfl
        | ok u =>
          simp only [Job.finK, Job.finP, Job.finG, List.nil_append]
          cases List.mapM (respRow lib g s') j.responses with
          | error e => rfl
          | ok m =>
            simp only
            cases gridLoop lib g j.responses zs s' with
            | mk s'' r =>
              cases r with
              | error e => rfl
              | ok ms => simp only [List.append_assoc, List.singleton_append]
  | set st z k =>
    have hk : ∀ s', j.fin lib g (k.next j.responses) s' = j.finK lib g k s' := by
      intro s'; cases k <;> rfl
    match st with
    | 0 => rfl
    | 1 => rfl
    | 2 => rfl
    | n + 3 =>
      simp only [Job.step]
      simp only [Job.fin, show ¬ (n + 3 ≤ 0) by omega, show ¬ (n + 3 ≤ 1) by omega, show ¬ (n + 3 ≤ 2) by omega, if_false]
      cases hi : s.interpolate with
      | false => simp only [Bool.false_eq_true, if_false]; exact hk s
      | true =>
        simp only [if_true]
        cases s.setInterp with
        | mk s' r =>
          cases r with
          | error e => rfl
          | ok u => exact hk s'
  | proj rs row zs acc =>
    cases rs with
    | nil =>
      simp [Job.step, Job.fin, Job.finP, pure, Except.pure]
    | cons r rs =>
      simp only [Job.step]
      show _ = j.finP lib g (r :: rs) row zs acc s
      simp only [Job.finP, List.mapM_cons]
      cases respRow lib g s r with
      | error e => rfl
      | ok v =>
        simp only [ok_bind]
        show j.finP lib g rs (row ++ [v]) zs acc s = _
        simp only [Job.finP]
        cases List.mapM (respRow lib g s) rs with
        | error e => rfl
        | ok m => simp [pure, Except.pure, Bind.bind, Except.bind]
  | done r => rfl

/-- Every response is in the dictionary. -/
def Loaded (g : Reg α) (rs : List Name) : Prop := ∀ r ∈ rs, (g r).isSome

theorem loadMissing_loaded (lib : Lib α) (disk : Disk α) (g : Reg α) (rs : List Name) (h : Loaded g rs) :
    loadMissing lib disk rs g = (g, .ok ()) := by
  induction rs with
  | nil => rfl
  | cons r rs ih =>
    simp only [loadMissing, loadResponse, h r (by simp), Bool.not_false, Bool.and_self, if_true]
    exact ih (fun r hr => h r (by simp [hr]))

/-- A build from its beginning is `_calc_Amatrix`. -/
theorem fin_start (lib : Lib α) (disk : Disk α) (g : Reg α) (j : Job α) (s : Sed α) (h : Loaded g j.responses) :
    calcAmatrix lib disk j.redshifts j.responses ⟨g, s⟩ =
      (⟨g, (j.fin lib g (.head j.redshifts []) s).1⟩, (j.fin lib g (.head j.redshifts []) s).2) := by
  unfold calcAmatrix
  simp only [loadMissing_loaded lib disk g _ h, Job.fin, Job.finG, List.nil_append]
  have hr := gridLoop_rest lib g j.responses j.redshifts s
  cases hgl : gridLoop lib g j.responses j.redshifts s with
  | mk s' r =>
    rw [hgl] at hr
    have hn : s'.nsed = s.nsed := by simp only [Sed.nsed]; rw [hr.flux]
    cases r with
    | error e => rfl
    | ok ms =>
      simp only [Job.finA, hn]
      cases mkAMat j.redshifts ms j.responses.length s.nsed with
      | error e => rfl
      | ok A =>
        simp only
        cases s'.setRedshift (lit 0) with
        | mk s'' r => cases r <;> rfl

/-- No other thread uses the template object of thread `t`. -/
def OwnTemplates (jobs : Nat → Job α) (t : Nat) : Prop := ∀ u, u ≠ t → (jobs u).tpl ≠ (jobs t).tpl

theorem run_fin (lib : Lib α) (g : Reg α) (jobs : Nat → Job α) (t : Nat) (sched : List Nat)
    (ho : ∀ u ∈ sched, u ≠ t → (jobs u).tpl ≠ (jobs t).tpl) : ∀ w : BWorld α,
    (jobs t).fin lib g ((w.run lib g jobs sched).pc t) ((w.run lib g jobs sched).objs (jobs t).tpl) =
      (jobs t).fin lib g (w.pc t) (w.objs (jobs t).tpl) := by
  induction sched with
  | nil => intro w; rfl
  | cons u us ih =>
    intro w
    show (jobs t).fin lib g (((w.step lib g jobs u).run lib g jobs us).pc t) (((w.step lib g jobs u).run lib g jobs us).objs _) = _
    rw [ih (fun v hv => ho v (by simp [hv]))]
    by_cases hu : u = t
    · subst hu
      simp only [BWorld.step, if_true]
      exact fin_step lib g (jobs u) _ _
    · have h1 : ¬ t = u := fun h => hu h.symm
      have h2 : ¬ (jobs t).tpl = (jobs u).tpl := fun h => ho u (by simp) hu h.symm
      simp only [BWorld.step, h1, h2, if_false]

/-- C99 (partial), any arithmetic: any number of threads, any schedule.  A thread that is the only one to use its template object gets what
the build gives when it runs alone: the same matrix or the same exception, and its templates are left in the same state.  Missing:
threads sharing a template object (`C99_false`). -/
theorem C99_separate_partial (lib : Lib α) (disk : Disk α) (g : Reg α) (jobs : Nat → Job α) (objs : Nat → Sed α) (sched : List Nat)
    (t : Nat) (ho : OwnTemplates jobs t) (hl : Loaded g (jobs t).responses) (r : Py (AMat α))
    (hd : ((BWorld.start objs jobs).run lib g jobs sched).pc t = .done r) :
    calcAmatrix lib disk (jobs t).redshifts (jobs t).responses ⟨g, objs (jobs t).tpl⟩ =
      (⟨g, ((BWorld.start objs jobs).run lib g jobs sched).objs (jobs t).tpl⟩, r) := by
  have h := run_fin lib g jobs t sched (fun u _ hu => ho u hu) (BWorld.start objs jobs)
  rw [hd] at h
  rw [fin_start lib disk g (jobs t) _ hl]
  show (Shared.mk g ((jobs t).fin lib g ((BWorld.start objs jobs).pc t) ((BWorld.start objs jobs).objs (jobs t).tpl)).1, _) = _
  rw [← h]
  have h2 : ((jobs t).fin lib g (.head (jobs t).redshifts []) (objs (jobs t).tpl)).2 = r := by
    show ((jobs t).fin lib g ((BWorld.start objs jobs).pc t) ((BWorld.start objs jobs).objs (jobs t).tpl)).2 = _
    rw [← h]; rfl
  rw [h2]
  rfl

/-! ### Every thread finishes -/

/-- an upper bound for the steps that a thread still has to make -/
def Job.left (j : Job α) : BPC α → Nat
  | .head zs _ => zs.length * (j.responses.length + 7) + 6
  | .set st _ (.grid zs _) => (4 - st) + 1 + (j.responses.length + 1) + (zs.length * (j.responses.length + 7) + 6)
  | .set st _ (.finish _) => (4 - st) + 1
  | .proj rs _ zs _ => rs.length + 1 + (zs.length * (j.responses.length + 7) + 6)
  | .done _ => 0

theorem left_step (lib : Lib α) (g : Reg α) (j : Job α) (p : BPC α) (s : Sed α) :
    j.left (j.step lib g p s).2 ≤ j.left p - 1 := by
  cases p with
  | head zs acc =>
    cases zs with
    | nil =>
      simp only [Job.step]
      cases mkAMat j.redshifts acc j.responses.length s.nsed <;> simp [Job.left]
    | cons z zs =>
      simp only [Job.step, Job.left, List.length_cons, Nat.add_mul]
      omega
  | set st z k =>
    match st with
    | 0 => cases k <;> simp only [Job.step, Job.left] <;> omega
    | 1 => cases k <;> simp only [Job.step, Job.left] <;> omega
    | 2 => cases k <;> simp only [Job.step, Job.left] <;> omega
    | n + 3 =>
      have hk : j.left (k.next j.responses) ≤ j.left (.set (n + 3) z k) - 1 := by
        cases k <;> simp only [After.next, Job.left] <;> omega
      simp only [Job.step]
      cases hi : s.interpolate with
      | false => simpa using hk
      | true =>
        simp only [if_true]
        cases s.setInterp with
        | mk s' r => cases r <;> first | exact hk | simp [Job.left]
  | proj rs row zs acc =>
    cases rs with
    | nil => simp only [Job.step, Job.left]; simp
    | cons r rs =>
      simp only [Job.step]
      cases respRow lib g s r with
      | error e => simp [Job.left]
      | ok v => simp only [Job.left, List.length_cons]; omega
  | done r => simp [Job.step, Job.left]

theorem left_zero (j : Job α) (p : BPC α) (h : j.left p = 0) : ∃ r, p = .done r := by
  cases p with
  | head zs acc => simp [Job.left] at h
  | set st z k => cases k <;> simp [Job.left] at h
  | proj rs row zs acc => simp [Job.left] at h
  | done r => exact ⟨r, rfl⟩

theorem left_run (lib : Lib α) (g : Reg α) (jobs : Nat → Job α) (t : Nat) (sched : List Nat) : ∀ w : BWorld α,
    (jobs t).left ((w.run lib g jobs sched).pc t) ≤ (jobs t).left (w.pc t) - sched.count t := by
  induction sched with
  | nil => intro w; simp [BWorld.run]
  | cons u us ih =>
    intro w
    have h := ih (w.step lib g jobs u)
    show (jobs t).left (((w.step lib g jobs u).run lib g jobs us).pc t) ≤ _
    by_cases hu : u = t
    · subst hu
      have h2 : (jobs u).left ((w.step lib g jobs u).pc u) ≤ (jobs u).left (w.pc u) - 1 := by
        simp only [BWorld.step, if_true]
        exact left_step lib g (jobs u) _ _
      rw [List.count_cons_self]
      omega
    · have h1 : ¬ t = u := fun h => hu h.symm
      have h2 : (w.step lib g jobs u).pc t = w.pc t := by simp only [BWorld.step, h1, if_false]
      rw [h2] at h
      rw [List.count_cons_of_ne hu]
      exact h

/-- C99: a thread that is scheduled often enough finishes, whatever the others do: `6 + 7 n + n m` steps for a grid of `n` redshifts and
`m` responses. -/
theorem C99_finishes (lib : Lib α) (g : Reg α) (jobs : Nat → Job α) (objs : Nat → Sed α) (sched : List Nat) (t : Nat)
    (hc : (jobs t).redshifts.length * ((jobs t).responses.length + 7) + 6 ≤ sched.count t) :
    ∃ r, ((BWorld.start objs jobs).run lib g jobs sched).pc t = .done r := by
  refine left_zero (jobs t) _ (Nat.le_zero.mp ((left_run lib g jobs t sched _).trans ?_))
  simp only [BWorld.start, Job.left]
  omega

/-- Not vacuous: thirty alternations of two threads with their own template objects, whatever the objects and the response. -/
example (lib : Lib ℝ) (objs : Nat → Sed ℝ) (R : Resp ℝ) :
    let jobs : Nat → Job ℝ := fun t => ⟨t, [0, 9], [['x']]⟩
    let g : Reg ℝ := fun _ => some (.full R)
    OwnTemplates jobs 0 ∧ Loaded g (jobs 0).responses ∧
    ∃ r, ((BWorld.start objs jobs).run lib g jobs ((List.replicate 30 [0, 1]).flatten)).pc 0 = .done r :=
  ⟨fun _ hu => hu, fun _ _ => rfl, C99_finishes lib _ _ objs _ 0 (by decide)⟩

/-! ### Two threads sharing a template object -/

/-- the row of one response for one template, not interpolated -/
theorem respRow_one {lib : Lib ℝ} {g : Reg ℝ} {n : Name} {o : RespObj ℝ} {c : Curve ℝ} (hg : g n = some o) (hc : o.curve = .ok c)
    {s : Sed ℝ} {sw y : List ℝ} (hw : s.wave = sw) (hf : s.flux = [y]) (hi : s.interpolate = false) (hs : sw.Pairwise (· < ·))
    (h4 : 4 ≤ sw.length) (hy : y.length = sw.length) :
    ∃ m, Projects lib c sw [y] m ∧ respRow lib g s n = .ok m.flat := by
  obtain ⟨m, hm⟩ := projects_exists lib c sw y hs h4 hy
  obtain ⟨he, _, _⟩ := projects_eq hs hm
  refine ⟨m, hm, ?_⟩
  unfold respRow
  simp only [hg, hc, ok_bind, hi, Bool.false_eq_true, if_false]
  rw [C48_chunks lib c 1000 (by norm_num) s (by simp [hf]) (by simp [hf, hw, hy]), projectArr_real, hw, hf,
    mkInterp_strict sw [y] hs h4 (by simpa using hy)]
  simp only [Except.map, ok_bind]
  rw [he]
  unfold projectWith
  cases projGrid sw c.wave with
  | none => simp [storeRow, NDA.flat]
  | some grid => simp [Interp.eval, projOnGrid, storeRow, NDA.flat]

/-- the template of the witness: the AB reference spectrum, at redshift `z` -/
noncomputable def abSed (z : ℝ) : Sed ℝ :=
  ⟨[1, 2, 3, 4], [[abFlux 1, abFlux 2, abFlux 3, abFlux 4]], [1, 2, 3, 4].map (fun w => w * (lit 1 + z)),
    [[abFlux 1, abFlux 2, abFlux 3, abFlux 4].map (fun f => f / (lit 1 + z))], z, false, none, false⟩

theorem abSed_set (z z' : ℝ) : (abSed z).setRedshift z' = (abSed z', .ok ()) := rfl

/-- Two threads with the same template object.  The first builds for the grid 0, 9; the second for the grid 9, 10. -/
def sharedJobs (t : Nat) : Job ℝ := if t = 0 then ⟨0, [0, 9], [['x']]⟩ else ⟨0, [9, 10], [['x']]⟩

/-- C99 is false: two threads that share a template object (as when two `Kcorrect` objects are made from the same `Template`).  Thread 0
finishes without any exception, with a matrix of zeros at redshift 0, where running alone gives 1. -/
theorem C99_false : ∃ (lib : Lib ℝ) (g : Reg ℝ) (objs : Nat → Sed ℝ) (sched : List Nat) (A B : AMat ℝ),
    Loaded g (sharedJobs 0).responses ∧
    ((BWorld.start objs sharedJobs).run lib g sharedJobs sched).pc 0 = .done (.ok A) ∧
    (∀ disk, (calcAmatrix lib disk [0, 9] [['x']] ⟨g, objs 0⟩).2 = .ok B) ∧ A.at 0 = .ok [[0]] ∧ B.at 0 = .ok [[1]] := by
  obtain ⟨R, hR⟩ := demo_response (wave := [1, 2, 3, 4]) (resp := [0, 1, 1, 0]) (by norm_num) (by simp) rfl
    ⟨1, by simp, by norm_num⟩
  obtain ⟨h1, h2⟩ := mkResponse_sorted (sorted1234.imp le_of_lt) (by rfl) hR
  set g : Reg ℝ := fun _ => some (.full R) with hg
  -- the rows at the two redshifts
  have row0 : respRow demoLib g (abSed 0) ['x'] = .ok [1] := by
    obtain ⟨m, hm, hr⟩ := respRow_one (lib := demoLib) (g := g) (n := ['x']) (o := .full R) (c := R.toCurve) rfl rfl
      (s := abSed 0) (sw := [1, 2, 3, 4]) (y := [abFlux 1, abFlux 2, abFlux 3, abFlux 4]) (by simp [abSed])
      (by simp [abSed]) rfl sorted1234 (by simp) rfl
    obtain ⟨a1, a2, a3, a4⟩ := knots1234 demo_knot 0 1 1 0
    obtain ⟨b1, b2, b3, b4⟩ := knots1234 demo_knot (abFlux 1) (abFlux 2) (abFlux 3) (abFlux 4)
    rw [hr, C23_ab_is_one demoLib demo_knot _ _ R hR _ sorted1234 _ m hm ⟨1, by simp, by rw [h1]; norm_num⟩
      (by rw [h1, h2]; exact ⟨Or.inl rfl, Or.inl rfl⟩) (by simp [h1]) (by simp [h1, h2, a1, a2, a3, a4])
      ⟨1, by simp [h2], by norm_num⟩ (by simp [h1, b1, b2, b3, b4])]
  have row9 : respRow demoLib g (abSed 9) ['x'] = .ok [0] := by
    have hs : (([1, 2, 3, 4] : List ℝ).map (fun w => w * (lit 1 + 9))).Pairwise (· < ·) := by
      simp; norm_num
    obtain ⟨m, hm, hr⟩ := respRow_one (lib := demoLib) (g := g) (n := ['x']) (o := .full R) (c := R.toCurve) rfl rfl
      (s := abSed 9) (sw := ([1, 2, 3, 4] : List ℝ).map (fun w => w * (lit 1 + 9))) rfl rfl rfl hs (by simp) (by simp)
    have hm0 := (C25_no_overlap_zero_partial demoLib _ _ R hR _ hs _ m hm).1 (by rw [h1]; simp; norm_num)
    rw [hr, hm0]; rfl
  -- the rest of the loop, and the end
  have loop9 : ∀ z, gridLoop demoLib g [['x']] [9] (abSed z) = (abSed 9, .ok [[[0]]]) := by
    intro z
    simp only [gridLoop, abSed_set, List.mapM_cons, List.mapM_nil, row9, ok_bind, pure_py]
  have loop0 : gridLoop demoLib g [['x']] [0, 9] (abSed 0) = (abSed 9, .ok [[[1]], [[0]]]) := by
    rw [gridLoop]
    simp only [loop9, abSed_set, List.mapM_cons, List.mapM_nil, row0, ok_bind, pure_py]
  have hl : Loaded g (sharedJobs 0).responses := fun _ _ => rfl
  have hm : ∀ v : ℝ, ∃ A, mkAMat [0, 9] [[[v]], [[0]]] 1 1 = .ok A ∧ A.at 0 = .ok [[v]] := by
    intro v
    obtain ⟨A, h⟩ : ∃ A, mkAMat ([0, 9] : List ℝ) [[[v]], [[0]]] 1 1 = .ok A := by
      exact ⟨_, if_pos rfl⟩
    exact ⟨A, h, mkAMat_node (k := 0) h (by norm_num) (by simp) (by simp [Shaped]) rfl rfl⟩
  obtain ⟨A, hA, hA0⟩ := hm 0
  obtain ⟨B, hB, hB0⟩ := hm 1
  set objs : Nat → Sed ℝ := fun _ => abSed 0 with hobjs
  set w10 := (BWorld.start objs sharedJobs).run demoLib g sharedJobs [0, 0, 0, 0, 0, 1, 1, 1, 1, 1] with hw10
  have hpc : w10.pc 0 = .proj [['x']] [] [9] [] := rfl
  have hob : w10.objs (sharedJobs 0).tpl = abSed 9 := rfl
  refine ⟨demoLib, g, objs, [0, 0, 0, 0, 0, 1, 1, 1, 1, 1] ++ List.replicate 30 0, A, B, hl, ?_, ?_, hA0, hB0⟩
  · have hrun : (BWorld.start objs sharedJobs).run demoLib g sharedJobs ([0, 0, 0, 0, 0, 1, 1, 1, 1, 1] ++ List.replicate 30 0) =
        w10.run demoLib g sharedJobs (List.replicate 30 0) := by
      unfold BWorld.run; rw [List.foldl_append]; rfl
    rw [hrun]
    obtain ⟨r, hr⟩ := left_zero (sharedJobs 0) ((w10.run demoLib g sharedJobs (List.replicate 30 0)).pc 0)
      (Nat.le_zero.mp ((left_run demoLib g sharedJobs 0 _ w10).trans (by rw [hpc]; simp [Job.left, sharedJobs])))
    have hf := run_fin demoLib g sharedJobs 0 (List.replicate 30 0)
      (fun u hu hne => absurd (List.eq_of_mem_replicate hu) hne) w10
    rw [hr, hpc, hob] at hf
    have : (sharedJobs 0).fin demoLib g (.proj [['x']] [] [9] []) (abSed 9) = (abSed 0, .ok A) := by
      have e : sharedJobs 0 = ⟨0, [0, 9], [['x']]⟩ := rfl
      rw [e]
      simp only [Job.fin, Job.finP, List.mapM_cons, List.mapM_nil, row9, ok_bind, pure_py, Job.finG, List.nil_append, loop9, Job.finA]
      have h1 : ([[[0]]] ++ [[[0]]] : List (List (List ℝ))) = [[[0]], [[0]]] := rfl
      have h2 : (abSed 9).nsed = 1 := rfl
      have h3 : [['x']].length = 1 := rfl
      rw [h1, h2, h3, hA]
      simp [abSed_set]
    rw [this] at hf
    rw [hr, show r = .ok A from (Prod.mk.inj hf).2]
  · intro disk
    unfold calcAmatrix
    simp only [loadMissing_loaded demoLib disk g [['x']] hl]
    show (match gridLoop demoLib g [['x']] [0, 9] (abSed 0) with | _ => _ : Shared ℝ × Py (AMat ℝ)).2 = _
    rw [loop0]
    have h2 : (abSed 0).nsed = 1 := rfl
    have h3 : [['x']].length = 1 := rfl
    simp only [hobjs, h2, h3, hB, abSed_set]

end KC
