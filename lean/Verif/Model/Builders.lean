import Verif.Model.Fitter

/-!
# Threads building matrices from template objects

`_calc_Amatrix` moves the template object that it was given from redshift to redshift.  Here several threads execute it, each on a template
object given by its identity.  The responses are already in the dictionary `g` (races while loading are in `Model/Registry`).
-/

namespace KC
variable {α : Type} [Arith α]

/-- The arguments of a build: identity of the template object, grid, responses. -/
structure Job (α : Type) where
  tpl : Nat
  redshifts : List α
  responses : List Name

/-- What follows a `set_redshift` call: the rest of the grid (91) and the matrices so far, or the return (113). -/
inductive After (α : Type) where
  | grid (zs : List α) (acc : List (List (List α)))
  | finish (A : AMat α)

/-- Program counter of a thread in `_calc_Amatrix`. -/
inductive BPC (α : Type) where
  /-- fitter.py:91, at the head of the loop over the grid -/
  | head (zs : List α) (acc : List (List (List α)))
  /-- in `set_redshift(z)`, before template.py line 240 (`st = 0`), 241, 242 or 243 (`st = 3`) -/
  | set (st : Nat) (z : α) (k : After α)
  /-- fitter.py:93, before the projection on the first of `rs`; `row` are those done at this redshift -/
  | proj (rs : List Name) (row : List (List α)) (zs : List α) (acc : List (List (List α)))
  /-- returned or raised -/
  | done (r : Py (AMat α))

/-- The template objects and the threads. -/
structure BWorld (α : Type) where
  objs : Nat → Sed α
  pc : Nat → BPC α

/-- where a thread goes after `set_redshift` -/
def After.next (responses : List Name) : After α → BPC α
  | .grid zs acc => .proj responses [] zs acc
  | .finish A => .done (.ok A)

/-- One step of a thread on its template object: each assignment of `set_redshift`, each projection and each call of `interp1d` is atomic.
fitter.py:91–113, template.py:240–244. -/
def Job.step (lib : Lib α) (g : Reg α) (j : Job α) (p : BPC α) (s : Sed α) : Sed α × BPC α :=
  match p with
  | .head [] acc => match mkAMat j.redshifts acc j.responses.length s.nsed with
    | .ok A => (s, .set 0 (lit 0) (.finish A))
    | .error e => (s, .done (.error e))
  | .head (z :: zs) acc => (s, .set 0 z (.grid zs acc))
  | .set 0 z k => ({ s with wave := s.restWave.map (fun w => w * (lit 1 + z)) }, .set 1 z k)
  | .set 1 z k => ({ s with flux := s.restFlux.map (List.map (fun f => f / (lit 1 + z))) }, .set 2 z k)
  | .set 2 z k => ({ s with redshift := z }, .set 3 z k)
  | .set _ _ k =>
    if s.interpolate then
      match s.setInterp with
      | (s', .ok _) => (s', k.next j.responses)
      | (s', .error e) => (s', .done (.error e))
    else (s, k.next j.responses)
  | .proj [] row zs acc => (s, .head zs (acc ++ [row]))
  | .proj (r :: rs) row zs acc => match respRow lib g s r with
    | .ok v => (s, .proj rs (row ++ [v]) zs acc)
    | .error e => (s, .done (.error e))
  | .done r => (s, .done r)

/-- A step of thread `t`. -/
def BWorld.step (lib : Lib α) (g : Reg α) (jobs : Nat → Job α) (t : Nat) (w : BWorld α) : BWorld α :=
  let r := (jobs t).step lib g (w.pc t) (w.objs (jobs t).tpl)
  ⟨fun o => if o = (jobs t).tpl then r.1 else w.objs o, fun u => if u = t then r.2 else w.pc u⟩

/-- Run a schedule. -/
def BWorld.run (lib : Lib α) (g : Reg α) (jobs : Nat → Job α) (sched : List Nat) (w : BWorld α) : BWorld α :=
  sched.foldl (fun w t => w.step lib g jobs t) w

/-- All threads at the beginning of their build. -/
def BWorld.start (objs : Nat → Sed α) (jobs : Nat → Job α) : BWorld α := ⟨objs, fun t => .head (jobs t).redshifts []⟩

end KC
