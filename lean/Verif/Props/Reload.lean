import Verif.Props.BandShift
import Verif.Props.Threads

/-!
# Loading responses while an object is in use (C176)

`fit_coeffs`, `reconstruct`, `reconstruct_out`, `kcorrect` and `absmag` do not look at the response dictionary (kcorrect.py and fitter.py outside the constructors
and `fromfits`); in the model they do not have it as an argument.  `derived` does: kcorrect.py:299–302.
-/

namespace KC

namespace Spec

/-- One call `load_response(n, reload)` while the files are as in `disk`. -/
structure LoadCall (α : Type) where
  disk : Disk α
  name : Name
  reload : Bool

/-- The dictionary after a history of calls, some of which may have raised. -/
def afterLoads {α : Type} [Arith α] (lib : Lib α) (hist : List (LoadCall α)) (g : Reg α) : Reg α :=
  hist.foldl (fun g l => (loadResponse lib l.disk l.name l.reload g).1) g

/-- What a lookup in the shared dictionary gives. -/
def lookup {α : Type} (s : World α) : Reg α := fun n => (s.dict n).map s.heap

end Spec

open Spec

section generic
variable {α : Type} [Arith α]

/-- C176, what holds without conditions: whatever is loaded, from whatever files, masses, star-formation fractions and metallicity stay the same, if
`derived` still returns.  Missing: that it returns (`C176_false`), and the mass-to-light ratios. -/
theorem C176_masses_partial (K : Kc α) (lib : Lib α) (hist : List (LoadCall α)) (g : Reg α) (z c : Option (NDA α)) (bs : α) (d : Option (NDA α))
    (D D' : Derived α) (h : K.derived g z c bs d = .ok D) (h' : K.derived (afterLoads lib hist g) z c bs d = .ok D') :
    D.mremain = D'.mremain ∧ D.intsfh = D'.intsfh ∧ D.b50 = D'.b50 ∧ D.b300 = D'.b300 ∧ D.b1000 = D'.b1000 ∧ D.metallicity = D'.metallicity :=
  C173_masses rfl rfl g _ z c bs bs d D D' h h'

/-- C176, what holds: loads change nothing of `derived` if the output bands are loaded before and every reload of one of them succeeds with a curve of the same
solar magnitude (as when the file is the same). -/
theorem C176_unchanged_partial (K : Kc α) (lib : Lib α) (hist : List (LoadCall α)) (g : Reg α) (hg : ∀ n ∈ K.responsesOut, ∃ o, g n = some o)
    (hl : ∀ l ∈ hist, l.name ∈ K.responsesOut → l.reload = true → ∃ R o, FileGives lib l.disk l.name R ∧ g l.name = some o ∧ R.solarMag = o.solarMag)
    (z c : Option (NDA α)) (bs : α) (d : Option (NDA α)) : K.derived (afterLoads lib hist g) z c bs d = K.derived g z c bs d := by
  refine C173_solar K _ g ?_ z c bs d
  intro n hn
  unfold afterLoads
  have gen : ∀ (hist : List (LoadCall α)) (g' : Reg α), (∀ l ∈ hist, l.name ∈ K.responsesOut → l.reload = true → ∃ R o, FileGives lib l.disk l.name R ∧ g l.name = some o ∧ R.solarMag = o.solarMag) →
      (g' n).map (·.solarMag) = (g n).map (·.solarMag) →
      ((hist.foldl (fun g l => (loadResponse lib l.disk l.name l.reload g).1) g') n).map (·.solarMag) = (g n).map (·.solarMag) := by
    intro hist
    induction hist with
    | nil => intro g' _ h; exact h
    | cons l hist ih =>
      intro g' hl h
      rw [List.foldl_cons]
      refine ih _ (fun l' h' => hl l' (List.mem_cons_of_mem _ h')) ?_
      by_cases hn' : n = l.name
      · have hsome : (g' n).isSome := by
          obtain ⟨o, ho⟩ := hg n hn
          rw [ho] at h
          cases e : g' n with
          | none => rw [e] at h; cases h
          | some _ => rfl
        cases hr : l.reload with
        | false => rw [loadResponse_cached _ _ _ _ (hn' ▸ hsome)]; exact h
        | true =>
          obtain ⟨R, o, hR, ho, hs⟩ := hl l List.mem_cons_self (hn' ▸ hn) hr
          have := (C29_load_contents lib l.disk l.name true g' (g'.insert l.name (RespObj.full R)) (Or.inr rfl)).mpr
            ⟨R, hR, by simp [Reg.insert], fun m hm => by simp [Reg.insert, hm]⟩
          rw [this, hn', ho]
          simp [Reg.insert, RespObj.full, hs]
      · rw [loadResponse_other _ _ _ _ _ _ hn']; exact h
  exact gen hist g hl rfl

/-- A thread that will not touch the entries of the names `P` or the objects `O`. -/
def PC.away (P : Name → Prop) (O : Nat → Prop) : PC α → Prop
  | .start n reload => P n → reload = false
  | .make n => ¬ P n
  | .look n => ¬ P n
  | .read _ o => ¬ O o
  | .assign _ o _ _ _ => ¬ O o
  | .done _ => True
  | .failed _ _ => True

/-- The entries of the names `P` are as in `s0` and no thread is about to touch them. -/
structure Kept (P : Name → Prop) (s0 s : World α) : Prop where
  dict : ∀ n, P n → s.dict n = s0.dict n
  heap : ∀ n o, P n → s0.dict n = some o → s.heap o = s0.heap o
  fresh : s0.next ≤ s.next
  apart : ∀ m o, ¬ P m → s.dict m = some o → ¬ ∃ n, P n ∧ s0.dict n = some o
  away : ∀ t, (s.pc t).away P (fun o => ∃ n, P n ∧ s0.dict n = some o)

theorem Kept.goto {P : Name → Prop} {s0 s : World α} (h : Kept P s0 s) (t : Nat) (p : PC α) (hp : p.away P (fun o => ∃ n, P n ∧ s0.dict n = some o)) :
    Kept P s0 (s.goto t p) := by
  refine ⟨h.dict, h.heap, h.fresh, h.apart, fun u => ?_⟩
  by_cases hu : u = t
  · simp only [World.goto, hu, if_true]; exact hp
  · simp only [World.goto, if_neg hu]; exact h.away u

theorem Kept.step {P : Name → Prop} {s0 s : World α} (hsome : ∀ n, P n → ∃ o, s0.dict n = some o ∧ o < s0.next) (lib : Lib α) (disk : Disk α) (t : Nat)
    (h : Kept P s0 s) : Kept P s0 (s.step lib disk t) := by
  have hold : ∀ o, (∃ n, P n ∧ s0.dict n = some o) → o < s0.next := by
    rintro o ⟨n, hn, ho⟩
    obtain ⟨o', h1, h2⟩ := hsome n hn
    rw [h1] at ho; cases ho; exact h2
  have ha := h.away t
  unfold World.step
  cases hp : s.pc t with
  | start n reload =>
    rw [hp] at ha
    simp only
    split
    · exact h.goto t _ trivial
    · rename_i hc
      refine h.goto t _ ?_
      intro hP
      obtain ⟨o, ho, _⟩ := hsome n hP
      rw [h.dict n hP, ho, ha hP] at hc
      simp at hc
  | make n =>
    rw [hp] at ha
    refine Kept.goto (s := { s with dict := fun m => if m = n then some s.next else s.dict m, next := s.next + 1, heap := fun o => if o = s.next then RespObj.empty else s.heap o }) ⟨?_, ?_, ?_, ?_, h.away⟩ t _ ha
    · intro m hm
      have : m ≠ n := fun e => ha (e ▸ hm)
      simp only [if_neg this]
      exact h.dict m hm
    · intro m o hm ho
      have := hold o ⟨m, hm, ho⟩
      have hf := h.fresh
      simp only [if_neg (show o ≠ s.next by omega)]
      exact h.heap m o hm ho
    · have := h.fresh
      show s0.next ≤ s.next + 1
      omega
    · intro m o hm ho
      by_cases e : m = n
      · simp only [e, if_true, Option.some.injEq] at ho
        intro hx
        have := hold o hx
        have := h.fresh
        omega
      · simp only [if_neg e] at ho
        exact h.apart m o hm ho
  | look n =>
    rw [hp] at ha
    simp only
    cases hd : s.dict n with
    | none => exact h.goto t _ trivial
    | some o => exact h.goto t _ (h.apart n o ha hd)
  | read n o =>
    rw [hp] at ha
    simp only
    split
    · exact h.goto t _ ha
    · exact h.goto t _ trivial
  | assign n o w r k =>
    rw [hp] at ha
    simp only
    split
    · split
      · rename_i v _
        refine Kept.goto (s := { s with heap := fun i => if i = o then v else s.heap i }) ⟨h.dict, ?_, h.fresh, h.apart, h.away⟩ t _ ha
        intro m o' hm ho
        have : o' ≠ o := fun e => ha ⟨m, hm, e ▸ ho⟩
        simp only [if_neg this]
        exact h.heap m o' hm ho
      · exact h.goto t _ trivial
    · exact h.goto t _ trivial
  | done _ => exact h
  | failed _ _ => exact h

/-- C176, threads, what holds: while any number of threads load responses under any schedule, without `reload` for the output bands, which are loaded at the
beginning, `derived` gives what it gives at the beginning.  Its lookups of different bands may happen at different moments: `g` has, for each band, what the
dictionary had at some moment. -/
theorem C176_threads_partial (K : Kc α) (lib : Lib α) (disk : Disk α) (s0 : World α)
    (hstart : ∀ t, ∃ n reload, s0.pc t = .start n reload ∧ (n ∈ K.responsesOut → reload = false))
    (hdict : ∀ n o, s0.dict n = some o → o < s0.next) (hdist : ∀ n m o, s0.dict n = some o → s0.dict m = some o → n = m)
    (hout : ∀ n ∈ K.responsesOut, ∃ o, s0.dict n = some o) (sched : List Nat) (g : Reg α)
    (hg : ∀ n ∈ K.responsesOut, ∃ k, g n = lookup (s0.run lib disk (sched.take k)) n) (z c : Option (NDA α)) (bs : α) (d : Option (NDA α)) :
    K.derived g z c bs d = K.derived (lookup s0) z c bs d := by
  have hsome : ∀ n, n ∈ K.responsesOut → ∃ o, s0.dict n = some o ∧ o < s0.next := fun n hn => by
    obtain ⟨o, ho⟩ := hout n hn
    exact ⟨o, ho, hdict n o ho⟩
  have h0 : Kept (· ∈ K.responsesOut) s0 s0 := by
    refine ⟨fun _ _ => rfl, fun _ _ _ _ => rfl, le_refl _, ?_, ?_⟩
    · rintro m o hm ho ⟨n, hn, ho'⟩
      exact hm (hdist n m o ho' ho ▸ hn)
    · intro t
      obtain ⟨n, r, hp, hr⟩ := hstart t
      rw [hp]; exact hr
  have hrun : ∀ (l : List Nat) (s : World α), Kept (· ∈ K.responsesOut) s0 s → Kept (· ∈ K.responsesOut) s0 (s.run lib disk l) := by
    intro l
    induction l with
    | nil => intro s h; exact h
    | cons t l ih => intro s h; exact ih _ (h.step hsome lib disk t)
  refine C173_solar K _ _ ?_ z c bs d
  intro n hn
  obtain ⟨k, hk⟩ := hg n hn
  have hK := hrun (sched.take k) s0 h0
  obtain ⟨o, ho, _⟩ := hsome n hn
  rw [hk]
  simp only [lookup]
  rw [hK.dict n hn, ho]
  simp only [Option.map_some]
  rw [hK.heap n o hn ho]

end generic

/-- C176 fails: after a reload that failed (the file cannot be read), `derived` of an object built before raises. -/
theorem C176_false (lib : Lib ℝ) : ∃ (K : Kc ℝ) (g : Reg ℝ) (l : LoadCall ℝ) (z c : NDA ℝ) (D : Derived ℝ), K.derived g (some z) (some c) 0 none = .ok D ∧
    K.derived (afterLoads lib [l] g) (some z) (some c) 0 none = .error .typeError := by
  obtain ⟨D, hD⟩ := demo_derived
  refine ⟨demoMass, demoReg, ⟨fun _ => .error .valueError, ['y'], true⟩, .scalar 1, .vec [2, 1], D, hD, ?_⟩
  refine C81_type_error (t := demoTmpl) (Ao := demoAm) rfl demoMass_ok.mass rfl ['y'] rfl _ RespObj.empty ?_ rfl 1 [2, 1] rfl 0 [[1, 2]] ?_
  · simp [afterLoads, loadResponse, fromdat, Reg.insert]
  · rw [show shiftOf (f32 (lit 0)) (0 : ℝ) = 0 by simp [shiftOf_real]]
    exact demoAm_at0

/-- y is in the dictionary; every thread is about to reload it. -/
noncomputable def reloadWorld : World ℝ :=
  ⟨fun n => if n = ['y'] then some 0 else none, fun _ => ⟨none, none, none, none, some 4, none, none⟩, 1, fun _ => .start ['y'] true⟩

/-- Every file has the same curve. -/
noncomputable def reloadDisk : Disk ℝ := fun _ => .ok ([1, 2, 3, 4], [0, 1, 1, 0])

theorem reload_file : ∃ R, FileGives demoLib reloadDisk ['y'] R := by
  obtain ⟨R, hR⟩ := demo_response (wave := [1, 2, 3, 4]) (resp := [0, 1, 1, 0]) (by norm_num) (by simp) rfl
    ⟨1, by simp, by norm_num⟩
  exact ⟨R, _, _, rfl, hR⟩

theorem reload_done {R : Resp ℝ} (hR : FileGives demoLib reloadDisk ['y'] R) : (reloadWorld.run demoLib reloadDisk (List.replicate 12 0)).pc 0 = .done ['y'] := by
  have hl := (C29_load_contents demoLib reloadDisk ['y'] true (fun m => (reloadWorld.dict m).map reloadWorld.heap)
    (Reg.insert (fun m => (reloadWorld.dict m).map reloadWorld.heap) ['y'] (RespObj.full R)) (Or.inr rfl)).mpr
    ⟨R, hR, by simp [Reg.insert], fun m hm => by simp [Reg.insert, hm]⟩
  have hd : ∀ m o, reloadWorld.dict m = some o → o < reloadWorld.next := by
    intro m o h
    simp only [reloadWorld] at h ⊢
    split at h
    · cases h; exact Nat.one_pos
    · cases h
  exact (C35_sequential demoLib reloadDisk reloadWorld 0 ['y'] true rfl hd _ _ hl).2

theorem reload_middle : lookup (reloadWorld.run demoLib reloadDisk [0, 0]) ['y'] = some RespObj.empty := by
  simp [lookup, World.run, World.step, World.goto, reloadWorld]

theorem reload_before : ∃ D, demoMass.derived (lookup reloadWorld) (some (.scalar 1)) (some (.vec [2, 1])) 0 none = .ok D :=
  (derived_returns demoMass_ok _ 1 [2, 1] rfl 0).mpr
    ⟨⟨_, demoAm_at0⟩, [4], .cons ⟨⟨none, none, none, none, some 4, none, none⟩, by simp [lookup, reloadWorld], rfl⟩ .nil⟩

theorem reload_raises : demoMass.derived (lookup (reloadWorld.run demoLib reloadDisk [0, 0])) (some (.scalar 1)) (some (.vec [2, 1])) 0 none = .error .typeError := by
  refine C81_type_error (t := demoTmpl) (Ao := demoAm) rfl demoMass_ok.mass rfl ['y'] rfl _ RespObj.empty reload_middle rfl 1 [2, 1] rfl 0 [[1, 2]] ?_
  rw [show shiftOf (f32 (lit 0)) (0 : ℝ) = 0 by simp [shiftOf_real]]
  exact demoAm_at0

/-- C176 fails for threads: while one thread reloads an output band whose file is valid, `derived` raises in another thread.  The reload ends without an
exception. -/
theorem C176_threads_false : ∃ (K : Kc ℝ) (lib : Lib ℝ) (disk : Disk ℝ) (s0 : World ℝ) (sched : List Nat) (k : Nat) (n : Name) (z c : NDA ℝ) (D : Derived ℝ),
    s0.pc 0 = .start n true ∧ (∃ R, FileGives lib disk n R) ∧ (s0.run lib disk sched).pc 0 = .done n ∧
    K.derived (lookup s0) (some z) (some c) 0 none = .ok D ∧
    K.derived (lookup (s0.run lib disk (sched.take k))) (some z) (some c) 0 none = .error .typeError := by
  obtain ⟨R, hR⟩ := reload_file
  obtain ⟨D, hD⟩ := reload_before
  have e : (List.replicate 12 0).take 2 = [0, 0] := rfl
  refine ⟨demoMass, demoLib, reloadDisk, reloadWorld, List.replicate 12 0, 2, ['y'], .scalar 1, .vec [2, 1], D, rfl, ⟨R, hR⟩, reload_done hR, hD, ?_⟩
  rw [e]
  exact reload_raises

/-! ### Examples -/

/-- Not vacuous (`C176_unchanged_partial`, `C176_masses_partial`): a history with a load of another band that fails and one of the output band itself, without
`reload`. -/
example : (∀ n ∈ demoMass.responsesOut, ∃ o, demoReg n = some o) ∧
    (∀ l ∈ [(⟨fun _ => .error .valueError, ['q'], true⟩ : LoadCall ℝ), ⟨demoDisk, ['y'], false⟩], l.name ∈ demoMass.responsesOut → l.reload = true →
      ∃ R o, FileGives demoLib l.disk l.name R ∧ demoReg l.name = some o ∧ R.solarMag = o.solarMag) := by
  constructor
  · intro n hn
    have : n = ['y'] := by simpa [demoMass] using hn
    subst this
    exact ⟨_, rfl⟩
  · intro l hl h1 h2
    simp only [List.mem_cons, List.not_mem_nil, or_false] at hl
    rcases hl with rfl | rfl
    · simp [demoMass] at h1
    · cases h2

/-- Not vacuous (`C176_unchanged_partial`): a reload of an output band from the file it was loaded from. -/
example : ∃ R, FileGives demoLib demoDisk ['x'] R ∧ ∀ g : Reg ℝ, g ['x'] = some (RespObj.full R) →
    ∀ l ∈ [(⟨demoDisk, ['x'], true⟩ : LoadCall ℝ)], l.name ∈ [['x']] → l.reload = true →
      ∃ R o, FileGives demoLib l.disk l.name R ∧ g l.name = some o ∧ R.solarMag = o.solarMag := by
  obtain ⟨R, hR⟩ := demo_file
  refine ⟨R, hR, fun g hg l hl _ _ => ?_⟩
  simp only [List.mem_cons, List.not_mem_nil, or_false] at hl
  subst hl
  exact ⟨R, _, hR, hg, rfl⟩

/-- Not vacuous (`C176_threads_partial`): every thread loads x while y, the output band, is in the dictionary. -/
example : ∃ s0 : World ℝ, (∀ t, ∃ n reload, s0.pc t = .start n reload ∧ (n ∈ demoMass.responsesOut → reload = false)) ∧
    (∀ n o, s0.dict n = some o → o < s0.next) ∧ (∀ n m o, s0.dict n = some o → s0.dict m = some o → n = m) ∧
    (∀ n ∈ demoMass.responsesOut, ∃ o, s0.dict n = some o) ∧ ∃ n, n ∈ demoMass.responsesOut ∧ (lookup s0 n).isSome := by
  refine ⟨⟨fun n => if n = ['y'] then some 0 else none, fun _ => ⟨none, none, none, none, some 4, none, none⟩, 1, fun _ => .start ['x'] true⟩,
    fun t => ⟨_, _, rfl, fun h => by simp [demoMass] at h⟩, ?_, ?_, ?_, ['y'], by simp [demoMass], rfl⟩
  · intro n o h
    simp only at h ⊢
    split at h
    · cases h; exact Nat.one_pos
    · cases h
  · intro n m o h1 h2
    simp only at h1 h2
    split at h1
    · split at h2
      · simp_all
      · cases h2
    · cases h1
  · intro n hn
    have : n = ['y'] := by simpa [demoMass] using hn
    subst this
    exact ⟨0, rfl⟩

end KC
