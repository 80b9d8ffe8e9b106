import Verif.Lemmas.Threads

/-!
# C34, C35: the shared dictionary, concurrent loads
-/

namespace KC
variable {α : Type} [Arith α]
open Spec

/-! ### C34 -/

/-- Histories of a process: constructions and loads, each an uninterrupted call, through any handle obtained so far and with
any state of the disk at the time of the call.  `hs` are the handles obtained. -/
inductive History (lib : Lib α) : Store α → List Nat → Prop
  | init : History lib Store.init []
  | construct {s hs} : History lib s hs → History lib s.construct.1 (s.construct.2 :: hs)
  | load {s hs} (h : Nat) (disk : Disk α) (n : Name) (reload : Bool) : History lib s hs → h ∈ hs →
      History lib (s.load lib disk h n reload) hs

theorem history_inst {lib : Lib α} {s : Store α} {hs : List Nat} (h : History lib s hs) : ∀ x ∈ hs, s.inst = some x := by
  induction h with
  | init => simp
  | @construct s hs _ ih =>
    intro x hx
    rw [List.mem_cons] at hx
    rcases hi : s.inst with _ | i
    · rcases hx with rfl | hx
      · simp [Store.construct, hi]
      · have := ih x hx; rw [hi] at this; cases this
    · rcases hx with rfl | hx
      · simp [Store.construct, hi]
      · simp only [Store.construct, hi]; have := ih x hx; rw [hi] at this; exact this
  | load _ _ _ _ _ _ ih => intro x hx; exact ih x hx

/-- C34, for uninterrupted calls.  In every history of constructions and loads: all handles are the same object; hence what a load
through one handle does to the dictionary is seen through every other handle, obtained before (`h'`) or after
(the result of a later construction).  Missing: constructions in several threads at once (`C34_false`). -/
theorem C34_shared_partial (lib : Lib α) (s : Store α) (hs : List Nat) (hist : History lib s hs) :
    (∀ h ∈ hs, ∀ h' ∈ hs, h = h') ∧
    ∀ h ∈ hs, ∀ (disk : Disk α) (n : Name) (reload : Bool),
      (∀ h' ∈ hs, (s.load lib disk h n reload).dicts h' = (loadResponse lib disk n reload (s.dicts h)).1) ∧
      (s.load lib disk h n reload).construct.1.dicts (s.load lib disk h n reload).construct.2
        = (loadResponse lib disk n reload (s.dicts h)).1 := by
  have hi := history_inst hist
  have heq : ∀ h ∈ hs, ∀ h' ∈ hs, h = h' := fun h hh h' hh' => by
    have := (hi h hh).symm.trans (hi h' hh'); simpa using this
  refine ⟨heq, fun h hh disk n reload => ⟨fun h' hh' => ?_, ?_⟩⟩
  · rw [← heq h hh h' hh']; simp [Store.load]
  · have : (s.load lib disk h n reload).inst = some h := hi h hh
    simp only [Store.construct, this]
    simp [Store.load]

/-- Not vacuous: construct, load `x`, construct again; `x` is complete through both handles. -/
example : ∃ s hs R, History demoLib s hs ∧ hs = [0, 0] ∧ ∀ h ∈ hs, s.dicts h ['x'] = some (RespObj.full R) := by
  obtain ⟨R, hR⟩ := demo_file
  have h1 : History demoLib (Store.construct Store.init).1 [0] := History.construct History.init
  have h2 := History.load 0 demoDisk ['x'] false h1 (by simp)
  have h3 := History.construct h2
  have hd : ((Store.construct (α := ℝ) Store.init).1.load demoLib demoDisk 0 ['x'] false).dicts 0 ['x'] = some (RespObj.full R) := by
    have e : ((Store.construct (α := ℝ) Store.init).1.load demoLib demoDisk 0 ['x'] false).dicts 0
        = (loadResponse demoLib demoDisk ['x'] false (fun _ => none)).1 := by
      simp [Store.load, Store.construct, Store.init]
    rw [e, (C29_load_contents demoLib demoDisk ['x'] false (fun _ => none) (Reg.insert (fun _ => none) ['x'] (RespObj.full R))
      (Or.inl rfl)).mpr ⟨R, hR, by simp [Reg.insert], fun m hm => by simp [Reg.insert, hm]⟩]
    simp [Reg.insert]
  refine ⟨_, _, R, h3, rfl, ?_⟩
  intro h hh
  have : h = 0 := by
    simp only [List.mem_cons, List.not_mem_nil, or_false, or_self] at hh
    rcases hh with hh | hh <;> exact hh
  subst this
  exact hd

/-- C34 in threads, once the dictionary exists: if a dictionary `i` has been made and no thread has yet to make one, then under every
schedule of any number of threads all constructions return `i` and no entry of any dictionary changes. -/
theorem C34_threads_partial (i : Nat) (s0 : CWorld α) (hi : s0.store.inst = some i)
    (hpc : ∀ t, s0.pc t = .check ∨ s0.pc t = .fetch ∨ s0.pc t = .got i) (sched : List Nat) (s : CWorld α)
    (hs : s = sched.foldl (fun s t => s.step t) s0) :
    s.store = s0.store ∧ ∀ t h, s.pc t = .got h → h = i := by
  have key : ∀ (sched : List Nat) (s1 : CWorld α), s1.store = s0.store →
      (∀ t, s1.pc t = .check ∨ s1.pc t = .fetch ∨ s1.pc t = .got i) →
      (sched.foldl (fun s t => s.step t) s1).store = s0.store ∧
        ∀ t, (sched.foldl (fun s t => s.step t) s1).pc t = .check ∨ (sched.foldl (fun s t => s.step t) s1).pc t = .fetch ∨
          (sched.foldl (fun s t => s.step t) s1).pc t = .got i := by
    intro sched
    induction sched with
    | nil => intro s1 h1 h2; exact ⟨h1, h2⟩
    | cons a l ih =>
      intro s1 h1 h2
      have hstep : (s1.step a).store = s0.store ∧
          ∀ t, (s1.step a).pc t = .check ∨ (s1.step a).pc t = .fetch ∨ (s1.step a).pc t = .got i := by
        rcases h2 a with h | h | h
        · refine ⟨by simp only [CWorld.step, h]; exact h1, fun t => ?_⟩
          by_cases e : t = a
          · simp [CWorld.step, h, e, h1, hi]
          · simpa [CWorld.step, h, e] using h2 t
        · refine ⟨by simp only [CWorld.step, h]; exact h1, fun t => ?_⟩
          by_cases e : t = a
          · simp [CWorld.step, h, e, h1, hi]
          · simpa [CWorld.step, h, e] using h2 t
        · refine ⟨by simp only [CWorld.step, h]; exact h1, fun t => ?_⟩
          simpa [CWorld.step, h] using h2 t
      exact ih _ hstep.1 hstep.2
  obtain ⟨h1, h2⟩ := key sched s0 rfl hpc
  subst hs
  refine ⟨h1, fun t h ht => ?_⟩
  rcases h2 t with e | e | e <;> rw [e] at ht <;> cases ht
  rfl

/-- A construction that no other thread interrupts does what `Store.construct` does: three steps of the thread (two when the dictionary
exists; a step of a thread that has returned changes nothing) give the same handle and the same memory. -/
theorem C34_uninterrupted (t : Nat) (s : CWorld α) (h : s.pc t = .check) :
    (((s.step t).step t).step t).store = s.store.construct.1 ∧
    (((s.step t).step t).step t).pc t = .got s.store.construct.2 := by
  rcases hi : s.store.inst with _ | i
  · simp [CWorld.step, h, hi, Store.construct]
  · simp [CWorld.step, h, hi, Store.construct]

/-- Not vacuous: two threads about to construct while the dictionary 0 exists. -/
example : ∃ s : CWorld ℝ, s.store.inst = some 0 ∧ (∀ t, s.pc t = .check ∨ s.pc t = .fetch ∨ s.pc t = .got 0) ∧
    s.pc 0 = .check ∧ s.pc 1 = .check ∧ ([0, 1, 1, 0].foldl (fun s t => s.step t) s).pc 1 = .got 0 :=
  ⟨⟨(Store.construct Store.init).1, fun _ => .check⟩, rfl, fun _ => Or.inl rfl, rfl, rfl, rfl⟩

/-- C34 fails when two threads make the first construction at the same time: with the schedule below they get different
dictionaries, and a response loaded through one is not in the other. -/
theorem C34_false (lib : Lib α) (disk : Disk α) (n : Name) : ∃ (sched : List Nat) (h h' : Nat) (s : CWorld α),
    s = sched.foldl (fun s t => s.step t) ⟨Store.init, fun _ => .check⟩ ∧
    s.pc 0 = .got h ∧ s.pc 1 = .got h' ∧
    ((s.store.load lib disk h n false).dicts h n).isSome ∧ (s.store.load lib disk h n false).dicts h' n = none := by
  refine ⟨[0, 1, 0, 0, 1, 1], 0, 1, _, rfl, rfl, rfl, ?_, ?_⟩
  · simp only [Store.load, if_true]
    exact loadResponse_present _ _ _ _ _
  · rfl

/-! ### C35 -/

/-- C35, first half: what concurrent loads end in.  Any number of threads call `load_response` (with or without `reload`) for names whose
files make a `Response`; entries already in the dictionary are complete.  Then under every schedule no thread raises, and
in every state in which no call is under way (every thread has not been scheduled yet or has returned), for every thread that has returned the entry of its name is complete: it is
the entry that was there at the beginning, or the response of the file.  Missing: the second half, that a thread whose
call has returned can use the entry at once (`C35_false`). -/
theorem C35_concurrent_loads_partial (lib : Lib α) (disk : Disk α) (s0 : World α)
    (hstart : ∀ t, ∃ n reload, s0.pc t = .start n reload ∧ ∃ R, FileGives lib disk n R)
    (hdict : ∀ n o, s0.dict n = some o → o < s0.next ∧ Complete lib (s0.heap o)) (sched : List Nat)
    (s : World α) (hs : s = s0.run lib disk sched) :
    (∀ t n e, s.pc t ≠ .failed n e) ∧
    ((∀ t, (∃ n reload, s.pc t = .start n reload) ∨ ∃ n, s.pc t = .done n) →
      ∀ t n reload, s0.pc t = .start n reload → (∃ m, s.pc t = .done m) →
        ∃ o, s.dict n = some o ∧ Complete lib (s.heap o) ∧
          ((s0.dict n = some o ∧ s.heap o = s0.heap o) ∨ ∃ R, FileGives lib disk n R ∧ s.heap o = RespObj.full R)) := by
  classical
  set req : Name → Prop := fun n => ∃ R, FileGives lib disk n R with hreqdef
  obtain ⟨n0, _, _, R0, _⟩ := hstart 0
  set R : Name → Resp α := fun n => if h : req n then h.choose else R0
  have hreq : ∀ n, req n → FileGives lib disk n (R n) := by
    intro n hn
    have e : R n = hn.choose := dif_pos hn
    rw [e]; exact hn.choose_spec
  have hall : ∀ t, req (s0.pc t).name := by
    intro t
    obtain ⟨n, reload, hp, hR⟩ := hstart t
    rw [hp]; exact hR
  have hinit : LInv lib s0 req R (fun _ => n0) s0 := by
    refine ⟨Nat.le_refl _, fun n o h => (hdict n o h).1, fun _ _ => rfl, fun _ _ h _ => h, ?_, ?_, ?_, ?_, ?_, fun _ => rfl, ?_, ?_, ?_⟩
    · intro n o h ho; exact absurd (hdict n o h).1 (by omega)
    · intro o h1 h2; omega
    all_goals first
      | (intro n o h ho; exact absurd (hdict n o h).1 (by omega))
      | (intro t; obtain ⟨n, reload, hp, _⟩ := hstart t; rw [hp]; simp)
  have hinv : ∀ (sched : List Nat) (s1 : World α), (∃ own, LInv lib s0 req R own s1) →
      ∃ own, LInv lib s0 req R own (s1.run lib disk sched) := by
    intro sched
    induction sched with
    | nil => intro s1 h; exact h
    | cons t ts ih =>
      rintro s1 ⟨own, h⟩
      exact ih _ (h.step hreq hall t)
  obtain ⟨own, h⟩ := hinv sched s0 ⟨_, hinit⟩
  rw [← hs] at h
  refine ⟨h.nofail, ?_⟩
  rintro hq t n reload hp ⟨m, hm⟩
  have hnm : m = n := by
    have := h.names t
    rw [hm, hp] at this; exact this
  subst hnm
  obtain ⟨o, ho⟩ := h.done t m hm
  by_cases hold : o < s0.next
  · have h0 := h.dict_old m o ho hold
    have he := h.old o hold
    exact ⟨o, ho, by rw [he]; exact (hdict m o h0).2, Or.inl ⟨h0, he⟩⟩
  · have hge := Nat.not_lt.mp hold
    have hrq := (h.dict_own m o ho hge).2
    have hfull : s.heap o = RespObj.full (R m) := by
      rcases h.pending m o ho hge with hf | ⟨u, hF⟩
      · exact hf
      · rcases hq u with ⟨k, rl, hu⟩ | ⟨k, hu⟩ <;>
          rcases hF with hF | hF | ⟨_, _, _, hF⟩ <;> rw [hu] at hF <;> cases hF
    have hF := hreq m hrq
    obtain ⟨w, r, hd, hR⟩ := hreq m hrq
    exact ⟨o, ho, ⟨w, r, R m, hR, hfull⟩, Or.inr ⟨R m, hF, hfull⟩⟩

/-- steps a thread still has to do -/
def PC.todo : PC α → Nat
  | .start _ _ => 12
  | .make _ => 11
  | .look _ => 10
  | .read _ _ => 9
  | .assign _ _ _ _ k => 8 - k
  | .done _ => 0
  | .failed _ _ => 0

theorem step_other (lib : Lib α) (disk : Disk α) (s : World α) (t u : Nat) (h : u ≠ t) :
    (s.step lib disk t).pc u = s.pc u := by
  unfold World.step
  split
  · split <;> simp [World.goto, h]
  · simp [World.goto, h]
  · split <;> simp [World.goto, h]
  · split <;> simp [World.goto, h]
  · split
    · split <;> simp [World.goto, h]
    · simp [World.goto, h]
  · rfl
  · rfl

theorem step_todo (lib : Lib α) (disk : Disk α) (s : World α) (t : Nat)
    (hk : ∀ n o w r k, s.pc t = .assign n o w r k → k ≤ nSetup) :
    ((s.step lib disk t).pc t).todo ≤ (s.pc t).todo - 1 ∧
    ∀ n o w r k, (s.step lib disk t).pc t = .assign n o w r k → k ≤ nSetup := by
  have e7 : nSetup = 7 := rfl
  unfold World.step
  rcases hpc : s.pc t with ⟨n, reload⟩ | n | n | ⟨n, o⟩ | ⟨n, o, w, r, k⟩ | n | ⟨n, e⟩
  · simp only; split <;> simp [World.goto, PC.todo]
  · simp [World.goto, PC.todo]
  · simp only; split <;> simp [World.goto, PC.todo]
  · simp only
    split
    · simp only [World.goto, if_true, PC.todo]
      refine ⟨by omega, ?_⟩
      intro n' o' w' r' k' h; cases h; omega
    · simp [World.goto, PC.todo]
  · have hk7 := hk n o w r k hpc
    simp only
    split
    · split
      · simp only [World.goto, if_true, PC.todo]
        refine ⟨by omega, ?_⟩
        intro n' o' w' r' k' h; cases h; omega
      · simp [World.goto, PC.todo]
    · simp [World.goto, PC.todo]
  · simp [hpc, PC.todo]
  · simp [hpc, PC.todo]

/-- No thread can block another: a thread that has been scheduled twelve times has returned or raised, whatever the others
do. -/
theorem C35_finishes (lib : Lib α) (disk : Disk α) (s0 : World α) (t : Nat) (n : Name) (reload : Bool)
    (h0 : s0.pc t = .start n reload) (sched : List Nat) (hc : 12 ≤ sched.count t) :
    (∃ m, (s0.run lib disk sched).pc t = .done m) ∨ ∃ m e, (s0.run lib disk sched).pc t = .failed m e := by
  have key : ∀ (sched : List Nat) (s : World α), (∀ n o w r k, s.pc t = .assign n o w r k → k ≤ nSetup) →
      ((s.run lib disk sched).pc t).todo ≤ (s.pc t).todo - sched.count t ∧
      ∀ n o w r k, (s.run lib disk sched).pc t = .assign n o w r k → k ≤ nSetup := by
    intro sched
    induction sched with
    | nil => intro s hs; exact ⟨by simp [World.run], hs⟩
    | cons u us ih =>
      intro s hs
      by_cases hu : u = t
      · subst hu
        have h1 := step_todo lib disk s u hs
        have h2 := ih (s.step lib disk u) h1.2
        refine ⟨?_, h2.2⟩
        have := h2.1
        simp only [World.run, List.foldl_cons, List.count_cons_self] at this ⊢
        omega
      · have he := step_other lib disk s u t (Ne.symm hu)
        have h2 := ih (s.step lib disk u) (by rw [he]; exact hs)
        rw [he] at h2
        rw [List.count_cons_of_ne hu]
        exact h2
  have h := key sched s0 (by intro n o w r k hp; rw [h0] at hp; cases hp)
  have hz : ((s0.run lib disk sched).pc t).todo = 0 := by
    have := h.1; rw [h0] at this; simp only [PC.todo] at this ⊢; omega
  have e7 : nSetup = 7 := rfl
  rcases hp : (s0.run lib disk sched).pc t with ⟨n, reload⟩ | n | n | ⟨n, o⟩ | ⟨n, o, w, r, k⟩ | n | ⟨n, e⟩
  all_goals rw [hp] at hz
  all_goals try (simp [PC.todo] at hz)
  · have := h.2 n o w r k hp
    omega
  · exact Or.inl ⟨n, rfl⟩
  · exact Or.inr ⟨n, e, rfl⟩

/-- C35, second half, fails for every library and every disk: thread 1's `load_response(x)` has returned, and the entry it finds is an empty
`Response` (thread 0 has entered it and not filled it yet). -/
theorem C35_false (lib : Lib α) (disk : Disk α) : ∃ (s0 : World α) (sched : List Nat) (n : Name) (o : Nat),
    (∀ t, s0.pc t = .start n false) ∧ (∀ m, s0.dict m = none) ∧
    (s0.run lib disk sched).pc 1 = .done n ∧ (s0.run lib disk sched).dict n = some o ∧
    (s0.run lib disk sched).heap o = RespObj.empty := by
  refine ⟨⟨fun _ => none, fun _ => RespObj.empty, 0, fun _ => .start ['x'] false⟩, [0, 0, 1], ['x'], 0, fun _ => rfl,
    fun _ => rfl, rfl, rfl, rfl⟩

/-- Not vacuous: every thread loads `x`; after threads 0 and 1 have run in alternation, both have returned and no call
is under way. -/
example : ∃ s0 : World ℝ, (∀ t, ∃ n reload, s0.pc t = .start n reload ∧ ∃ R, FileGives demoLib demoDisk n R) ∧
    (∀ n o, s0.dict n = some o → o < s0.next ∧ Complete demoLib (s0.heap o)) ∧
    (∀ t, (∃ n reload, (s0.run demoLib demoDisk ((List.range 24).map (· % 2))).pc t = .start n reload) ∨
      ∃ n, (s0.run demoLib demoDisk ((List.range 24).map (· % 2))).pc t = .done n) ∧
    ∃ m, (s0.run demoLib demoDisk ((List.range 24).map (· % 2))).pc 0 = .done m := by
  set s0 : World ℝ := ⟨fun _ => none, fun _ => RespObj.empty, 0, fun _ => .start ['x'] false⟩ with hs0
  have h1 : ∀ t, ∃ n reload, s0.pc t = .start n reload ∧ ∃ R, FileGives demoLib demoDisk n R :=
    fun t => ⟨['x'], false, rfl, demo_file⟩
  have h2 : ∀ n o, s0.dict n = some o → o < s0.next ∧ Complete demoLib (s0.heap o) := by
    intro n o h; simp [hs0] at h
  have hnf := (C35_concurrent_loads_partial demoLib demoDisk s0 h1 h2 ((List.range 24).map (· % 2)) _ rfl).1
  have hdone : ∀ t, t < 2 → ∃ m, (s0.run demoLib demoDisk ((List.range 24).map (· % 2))).pc t = .done m := by
    intro t ht
    rcases C35_finishes demoLib demoDisk s0 t ['x'] false rfl ((List.range 24).map (· % 2))
      (by obtain rfl | rfl : t = 0 ∨ t = 1 := by omega
          all_goals decide) with h | ⟨m, e, h⟩
    · exact h
    · exact absurd h (hnf t m e)
  have hidle : ∀ (t : Nat), 2 ≤ t → ∀ (l : List Nat) (s : World ℝ), (∀ u ∈ l, u < 2) →
      (s.run demoLib demoDisk l).pc t = s.pc t := by
    intro t ht l
    induction l with
    | nil => intro s _; rfl
    | cons u us ih =>
      intro s hl
      have hu := hl u (List.mem_cons_self)
      have : (World.run demoLib demoDisk (u :: us) s) = World.run demoLib demoDisk us (s.step demoLib demoDisk u) := rfl
      rw [this, ih _ (fun v hv => hl v (List.mem_cons_of_mem _ hv)), step_other _ _ _ _ _ (by omega)]
  refine ⟨s0, h1, h2, ?_, hdone 0 (by omega)⟩
  intro t
  by_cases ht : t < 2
  · exact Or.inr (hdone t ht)
  · left
    rw [hidle t (by omega) _ _ (by intro u hu; rw [List.mem_map] at hu; obtain ⟨v, _, rfl⟩ := hu; exact Nat.mod_lt _ (by omega))]
    exact ⟨_, _, rfl⟩

/-! ### The threads execute `load_response` -/

/-- the state of a thread after its call has ended with `res` -/
def PC.ended (n : Name) (res : Py Unit) : PC α :=
  match res with
  | .ok _ => .done n
  | .error e => .failed n e

theorem run_ended (lib : Lib α) (disk : Disk α) (t : Nat) (n : Name) (res : Py Unit) (j : Nat) (s : World α)
    (h : s.pc t = PC.ended n res) : s.run lib disk (List.replicate j t) = s := by
  induction j with
  | zero => rfl
  | succ j ih =>
    have e : s.step lib disk t = s := by
      unfold World.step
      rw [h]
      cases res <;> rfl
    have : s.run lib disk (List.replicate (j + 1) t) = (s.step lib disk t).run lib disk (List.replicate j t) := rfl
    rw [this, e, ih]

theorem run_assign (lib : Lib α) (disk : Disk α) (t : Nat) (n : Name) (o : Nat) (w r : List α) :
    ∀ (j k : Nat) (s : World α), k + j = nSetup → s.pc t = .assign n o w r k →
      (s.run lib disk (List.replicate (j + 1) t)).dict = s.dict ∧
      (∀ i, i ≠ o → (s.run lib disk (List.replicate (j + 1) t)).heap i = s.heap i) ∧
      (s.run lib disk (List.replicate (j + 1) t)).heap o = (runSetup lib w r (List.range' k j) (s.heap o)).1 ∧
      (s.run lib disk (List.replicate (j + 1) t)).pc t = PC.ended n (runSetup lib w r (List.range' k j) (s.heap o)).2 := by
  intro j
  induction j with
  | zero =>
    intro k s hk hp
    have e : s.run lib disk (List.replicate 1 t) = s.goto t (.done n) := by
      show s.step lib disk t = _
      unfold World.step
      rw [hp]
      simp only
      rw [if_neg (by omega)]
    rw [e]
    simp [World.goto, runSetup, PC.ended]
  | succ j ih =>
    intro k s hk hp
    have hrun : s.run lib disk (List.replicate (j + 1 + 1) t) = (s.step lib disk t).run lib disk (List.replicate (j + 1) t) := rfl
    rw [hrun]
    rw [List.range'_succ]
    simp only [runSetup]
    rcases hv : setupStep lib w r k (s.heap o) with e | v
    · have e1 : s.step lib disk t = s.goto t (.failed n e) := by
        unfold World.step
        rw [hp]; simp only
        rw [if_pos (by omega), hv]
      rw [e1, run_ended lib disk t n (.error e) (j + 1) (s.goto t (.failed n e)) (by simp [World.goto, PC.ended])]
      simp [World.goto, PC.ended]
    · have e1 : s.step lib disk t =
          World.goto { s with heap := fun i => if i = o then v else s.heap i } t (.assign n o w r (k + 1)) := by
        unfold World.step
        rw [hp]; simp only
        rw [if_pos (by omega), hv]
      rw [e1]
      obtain ⟨h1, h2, h3, h4⟩ := ih (k + 1)
        (World.goto { s with heap := fun i => if i = o then v else s.heap i } t (.assign n o w r (k + 1))) (by omega)
        (by simp [World.goto])
      have hv' : (World.goto { s with heap := fun i => if i = o then v else s.heap i } t (.assign n o w r (k + 1))).heap o = v := by
        simp [World.goto]
      rw [hv'] at h3 h4
      refine ⟨h1, ?_, h3, h4⟩
      intro i hi
      rw [h2 i hi]
      simp [World.goto, hi]

/-- A thread that runs alone does what the model of `load_response` as a single call says: same dictionary, same outcome. -/
theorem C35_sequential (lib : Lib α) (disk : Disk α) (s0 : World α) (t : Nat) (n : Name) (reload : Bool)
    (h0 : s0.pc t = .start n reload) (hd : ∀ m o, s0.dict m = some o → o < s0.next) (g' : Reg α) (res : Py Unit)
    (hl : loadResponse lib disk n reload (fun m => (s0.dict m).map s0.heap) = (g', res)) :
    (fun m => ((s0.run lib disk (List.replicate 12 t)).dict m).map (s0.run lib disk (List.replicate 12 t)).heap) = g' ∧
    (s0.run lib disk (List.replicate 12 t)).pc t = PC.ended n res := by
  have hr : ∀ (j : Nat) (s : World α), s.run lib disk (List.replicate (j + 1) t) = (s.step lib disk t).run lib disk (List.replicate j t) :=
    fun _ _ => rfl
  unfold loadResponse at hl
  by_cases hc : (s0.dict n).isSome && !reload
  · have hc' : ((fun m => (s0.dict m).map s0.heap) n).isSome && !reload := by simpa using hc
    rw [if_pos hc'] at hl
    cases hl
    have e1 : s0.step lib disk t = s0.goto t (.done n) := by
      unfold World.step
      rw [h0]; simp only
      rw [if_pos hc]
    rw [hr, e1, run_ended lib disk t n (.ok ()) 11 _ (by simp [World.goto, PC.ended])]
    exact ⟨rfl, by simp [World.goto, PC.ended]⟩
  · have hc' : ¬ (((fun m => (s0.dict m).map s0.heap) n).isSome && !reload) := by simpa using hc
    rw [if_neg hc'] at hl
    have e1 : s0.step lib disk t = s0.goto t (.make n) := by
      unfold World.step
      rw [h0]; simp only
      rw [if_neg hc]
    set s1 : World α := { dict := fun m => if m = n then some s0.next else s0.dict m, next := s0.next + 1,
                          heap := fun o => if o = s0.next then RespObj.empty else s0.heap o,
                          pc := fun u => if u = t then .read n s0.next else s0.pc u } with hs1
    have e3 : (((s0.step lib disk t).step lib disk t).step lib disk t) = s1 := by
      rw [e1]
      have e2 : (s0.goto t (.make n)).step lib disk t =
          World.goto { s0 with dict := fun m => if m = n then some s0.next else s0.dict m, next := s0.next + 1,
                               heap := fun o => if o = s0.next then RespObj.empty else s0.heap o } t (.look n) := by
        unfold World.step
        simp only [World.goto, if_true, World.mk.injEq, true_and]
        refine ⟨rfl, ?_⟩
        funext u; split <;> rfl
      rw [e2]
      unfold World.step
      simp only [World.goto, if_true, hs1, World.mk.injEq, true_and]
      funext u; split <;> rfl
    rw [hr 11, hr 10, hr 9, e3, hr 8]
    have hp1 : s1.pc t = .read n s0.next := by simp [hs1]
    have hemp : s1.heap s0.next = RespObj.empty := by simp [hs1]
    rcases hf : (do let (w, r) ← disk (datName n); sortCurve w r) with e | ⟨w, r⟩
    · have e4 : s1.step lib disk t = s1.goto t (.failed n e) := by
        unfold World.step
        rw [hp1]; simp only [hf]
      rw [e4, run_ended lib disk t n (.error e) 8 _ (by simp [World.goto, PC.ended])]
      simp only [fromdat, hf] at hl
      cases hl
      refine ⟨?_, by simp [World.goto, PC.ended]⟩
      funext m
      by_cases hm : m = n
      · simp [World.goto, hs1, hm, Reg.insert]
      · simp only [World.goto, hs1, hm, Reg.insert, if_false]
        rcases hdm : s0.dict m with _ | o
        · rfl
        · have := hd m o hdm
          simp [Nat.ne_of_lt this]
    · have e4 : s1.step lib disk t = s1.goto t (.assign n s0.next w r 0) := by
        unfold World.step
        rw [hp1]; simp only [hf]
      rw [e4]
      obtain ⟨h1, h2, h3, h4⟩ := run_assign lib disk t n s0.next w r 7 0 (s1.goto t (.assign n s0.next w r 0)) rfl (by simp [World.goto])
      have hemp' : (s1.goto t (.assign n s0.next w r 0)).heap s0.next = RespObj.empty := hemp
      rw [hemp'] at h3 h4
      have hrange : List.range' 0 7 = List.range nSetup := rfl
      rw [hrange] at h3 h4
      simp only [fromdat, hf] at hl
      simp only [Prod.mk.injEq] at hl
      refine ⟨?_, by rw [h4, hl.2]⟩
      rw [← hl.1]
      funext m
      rw [h1]
      by_cases hm : m = n
      · simp only [World.goto, hs1, hm, Reg.insert, if_true, Option.map_some]
        exact congrArg some h3
      · simp only [World.goto, hs1, hm, Reg.insert, if_false]
        rcases hdm : s0.dict m with _ | o
        · rfl
        · have := hd m o hdm
          simp only [Option.map_some]
          refine congrArg some ((h2 o (Nat.ne_of_lt this)).trans ?_)
          simp [World.goto, hs1, Nat.ne_of_lt this]

end KC
