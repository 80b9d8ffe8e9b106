import Verif.Model.SedHeap
import Verif.Lemmas.Sort
import Verif.Lemmas.Loops

/-!
# C148, C149: which arrays an `SED` shares, and what its interpolator sees
-/

namespace KC
variable {α : Type} [Arith α]

/-- `sed.wave` and `sed.flux` of object `i` are the arrays at these addresses. -/
def Holds (s : SWorld α) (i x : Nat) : Prop := ∃ o, s.objs[i]? = some o ∧ (x = o.wave ∨ x = o.flux)

/-- The attributes of object `i`. -/
def SWorld.look (s : SWorld α) (i : Nat) : Option (Sed α) := s.objs[i]?.map (fun o => o.view s.heap)

/-- No array passed to a constructor during the session is then an array in use as `sed.wave` or `sed.flux` of object `i`. -/
def NotReused (i : Nat) : SWorld α → List (SOp α) → Prop
  | _, [] => True
  | s, op :: l => (∀ w f b, op = .sed w f b → ¬ Holds s i w ∧ ¬ Holds s i f) ∧ NotReused i (s.step op) l

/-- every object refers to arrays that exist -/
def SWorld.Valid (s : SWorld α) : Prop :=
  ∀ o ∈ s.objs, o.restWave < s.heap.length ∧ o.restFlux < s.heap.length ∧ o.wave < s.heap.length ∧ o.flux < s.heap.length

theorem SWorld.mkSed_cases (s : SWorld α) (w f : Nat) (b : Bool) :
    s.mkSed w f b = s ∨ ∃ wave flux d, s.heap[w]? = some wave ∧ s.heap[f]? = some flux ∧ Sed.setup (wave.rows.headD []) flux b false = .ok d ∧
      s.mkSed w f b = { s with objs := s.objs ++ [⟨w, f, w, f, d.redshift, d.interpolate, d.interp⟩] } := by
  unfold SWorld.mkSed
  split
  · rename_i wave flux hw hf
    split
    · exact .inl rfl
    · rename_i d hd
      exact .inr ⟨wave, flux, d, hw, hf, hd, rfl⟩
  · exact .inl rfl

theorem step_valid {s : SWorld α} (h : s.Valid) (op : SOp α) : (s.step op).Valid := by
  cases op with
  | array a =>
    intro o ho
    have := h o ho
    simp only [SWorld.step, List.length_append, List.length_singleton]
    omega
  | sed w f b =>
    rcases s.mkSed_cases w f b with e | ⟨wave, flux, d, hw, hf, -, e⟩
    · simpa [SWorld.step, e] using h
    · simp only [SWorld.step, e]
      intro o ho
      rcases List.mem_append.1 ho with ho | ho
      · exact h o ho
      · rw [List.mem_singleton.1 ho]
        have h1 := (List.getElem?_eq_some_iff.1 hw).1
        have h2 := (List.getElem?_eq_some_iff.1 hf).1
        exact ⟨h1, h2, h1, h2⟩
  | setRedshift i z =>
    simp only [SWorld.step, SWorld.setRedshift]
    split
    · exact h
    · rename_i o ho
      have hm := h o (List.mem_of_getElem? ho)
      intro p hp
      simp only [List.length_append, List.length_cons, List.length_nil]
      rcases List.mem_or_eq_of_mem_set hp with hp | rfl
      · have := h p hp
        omega
      · simp only
        omega
  | setInterp i =>
    simp only [SWorld.step, SWorld.setInterp]
    split
    · exact h
    · rename_i o ho
      intro p hp
      rcases List.mem_or_eq_of_mem_set hp with hp | rfl
      · exact h p hp
      · exact h o (List.mem_of_getElem? ho)
  | write x a =>
    intro o ho
    simpa [SWorld.step] using h o ho

theorem run_valid {s : SWorld α} (h : s.Valid) (l : List (SOp α)) : (s.run l).Valid := by
  induction l generalizing s with
  | nil => exact h
  | cons op l ih => exact ih (step_valid h op)

/-- The session begins with no arrays and no objects. -/
def SWorld.start : SWorld α := ⟨[], []⟩

theorem start_valid : (SWorld.start : SWorld α).Valid := by simp [SWorld.start, SWorld.Valid]

/-- Object `i` alone uses its `sed.wave` and `sed.flux`, and they are not its rest-frame arrays. -/
def Owned (s : SWorld α) (i : Nat) : Prop :=
  ∃ o, s.objs[i]? = some o ∧ o.restWave ≠ o.wave ∧ o.restWave ≠ o.flux ∧ o.restFlux ≠ o.wave ∧ o.restFlux ≠ o.flux ∧
    ∀ j p, j ≠ i → s.objs[j]? = some p →
      p.restWave ≠ o.wave ∧ p.restWave ≠ o.flux ∧ p.restFlux ≠ o.wave ∧ p.restFlux ≠ o.flux ∧ p.wave ≠ o.wave ∧ p.wave ≠ o.flux ∧ p.flux ≠ o.wave ∧ p.flux ≠ o.flux

theorem owned_setRedshift {s : SWorld α} (hv : s.Valid) {i : Nat} {o : SObj α} (ho : s.objs[i]? = some o) (z : α) : Owned (s.step (.setRedshift i z)) i := by
  simp only [SWorld.step, SWorld.setRedshift, ho]
  have hi := (List.getElem?_eq_some_iff.1 ho).1
  refine ⟨_, List.getElem?_set_self hi, ?_⟩
  have h1 := hv o (List.mem_of_getElem? ho)
  refine ⟨by simp only; omega, by simp only; omega, by simp only; omega, by simp only; omega, fun j p hj hp => ?_⟩
  rw [List.getElem?_set_ne (Ne.symm hj)] at hp
  have := hv p (List.mem_of_getElem? hp)
  simp only
  omega

theorem owned_step {s : SWorld α} (hv : s.Valid) {i : Nat} (h : Owned s i) (op : SOp α) (hr : ∀ w f b, op = .sed w f b → ¬ Holds s i w ∧ ¬ Holds s i f) :
    Owned (s.step op) i := by
  obtain ⟨o, ho, a1, a2, a3, a4, h⟩ := h
  have hi := (List.getElem?_eq_some_iff.1 ho).1
  cases op with
  | array a => exact ⟨o, ho, a1, a2, a3, a4, h⟩
  | sed w f b =>
    rcases s.mkSed_cases w f b with e | ⟨wave, flux, d, hw, hf, -, e⟩
    · simp only [SWorld.step, e]
      exact ⟨o, ho, a1, a2, a3, a4, h⟩
    · simp only [SWorld.step, e]
      refine ⟨o, by simp only; rw [List.getElem?_append_left hi, ho], a1, a2, a3, a4, fun j p hj hp => ?_⟩
      obtain ⟨n1, n2⟩ := hr w f b rfl
      have n1 : w ≠ o.wave ∧ w ≠ o.flux := ⟨fun c => n1 ⟨o, ho, .inl c⟩, fun c => n1 ⟨o, ho, .inr c⟩⟩
      have n2 : f ≠ o.wave ∧ f ≠ o.flux := ⟨fun c => n2 ⟨o, ho, .inl c⟩, fun c => n2 ⟨o, ho, .inr c⟩⟩
      simp only at hp
      rcases lt_or_ge j s.objs.length with hl | hl
      · rw [List.getElem?_append_left hl] at hp
        exact h j p hj hp
      · rw [List.getElem?_append_right hl] at hp
        have : p = ⟨w, f, w, f, d.redshift, d.interpolate, d.interp⟩ := by
          have := List.mem_of_getElem? hp
          simpa using this
        subst this
        exact ⟨n1.1, n1.2, n2.1, n2.2, n1.1, n1.2, n2.1, n2.2⟩
  | setRedshift k z =>
    rcases eq_or_ne k i with rfl | hk
    · exact owned_setRedshift hv ho z
    · simp only [SWorld.step, SWorld.setRedshift]
      split
      · exact ⟨o, ho, a1, a2, a3, a4, h⟩
      · rename_i q hq
        have hvo := hv o (List.mem_of_getElem? ho)
        refine ⟨o, by simp only; rw [List.getElem?_set_ne hk, ho], a1, a2, a3, a4, fun j p hj hp => ?_⟩
        simp only at hp
        rcases eq_or_ne j k with rfl | hjk
        · rw [List.getElem?_set_self (List.getElem?_eq_some_iff.1 hq).1, Option.some.injEq] at hp
          subst hp
          have := h j q hj hq
          simp only
          omega
        · rw [List.getElem?_set_ne (Ne.symm hjk)] at hp
          exact h j p hj hp
  | setInterp k =>
    simp only [SWorld.step, SWorld.setInterp]
    split
    · exact ⟨o, ho, a1, a2, a3, a4, h⟩
    · rename_i q hq
      have hkl := (List.getElem?_eq_some_iff.1 hq).1
      rcases eq_or_ne k i with rfl | hk
      · obtain rfl : q = o := by rw [hq, Option.some.injEq] at ho; exact ho
        refine ⟨_, List.getElem?_set_self hkl, a1, a2, a3, a4, fun j p hj hp => ?_⟩
        simp only at hp
        rw [List.getElem?_set_ne (Ne.symm hj)] at hp
        exact h j p hj hp
      · refine ⟨o, by simp only; rw [List.getElem?_set_ne hk, ho], a1, a2, a3, a4, fun j p hj hp => ?_⟩
        simp only at hp
        rcases eq_or_ne j k with rfl | hjk
        · rw [List.getElem?_set_self hkl, Option.some.injEq] at hp
          subst hp
          exact h j q hj hq
        · rw [List.getElem?_set_ne (Ne.symm hjk)] at hp
          exact h j p hj hp
  | write x a => exact ⟨o, ho, a1, a2, a3, a4, h⟩

theorem owned_run {s : SWorld α} (hv : s.Valid) {i : Nat} (h : Owned s i) (l : List (SOp α)) (hr : NotReused i s l) : Owned (s.run l) i := by
  induction l generalizing s with
  | nil => exact h
  | cons op l ih => exact ih (step_valid hv op) (owned_step hv h op hr.1) hr.2

theorem rowsAt_set_ne {h : List (NDA α)} {x y : Nat} (a : NDA α) (hn : y ≠ x) : rowsAt (h.set x a) y = rowsAt h y := by
  simp [rowsAt, List.getD_eq_getElem?_getD, List.getElem?_set_ne (Ne.symm hn)]

/-- The redshifted spectrum depends on the rest frame only. -/
theorem setRedshift_congr {d e : Sed α} (h1 : d.restWave = e.restWave) (h2 : d.restFlux = e.restFlux) (h3 : d.interpolate = e.interpolate)
    (h4 : d.interp = e.interp) (h5 : d.binimage = e.binimage) (z : α) : d.setRedshift z = e.setRedshift z := by
  cases d
  cases e
  simp only at h1 h2 h3 h4 h5
  subst h1 h2 h3 h4 h5
  rfl

theorem rowsAt_append {h : List (NDA α)} {x : Nat} (hx : x < h.length) (t : List (NDA α)) : rowsAt (h ++ t) x = rowsAt h x := by
  simp [rowsAt, List.getD_eq_getElem?_getD, List.getElem?_append_left hx]

/-- After `set_redshift` the object looks as the method on values (`Sed.setRedshift`) says. -/
theorem look_setRedshift {s : SWorld α} (hv : s.Valid) {i : Nat} {d : Sed α} (hd : s.look i = some d) (z : α) :
    (s.step (.setRedshift i z)).look i = some (d.setRedshift z).1 := by
  unfold SWorld.look at hd
  rw [Option.map_eq_some_iff] at hd
  obtain ⟨o, ho, rfl⟩ := hd
  have hvo := hv o (List.mem_of_getElem? ho)
  simp only [SWorld.step, SWorld.setRedshift, ho, SWorld.look]
  rw [List.getElem?_set_self (List.getElem?_eq_some_iff.1 ho).1, Option.map_some, Option.some.injEq]
  have e1 : rowsAt (s.heap ++ [NDA.vec ((o.view s.heap).setRedshift z).1.wave, .arr [((o.view s.heap).setRedshift z).1.flux.length]
      ((o.view s.heap).setRedshift z).1.wave.length ((o.view s.heap).setRedshift z).1.flux]) s.heap.length = [((o.view s.heap).setRedshift z).1.wave] := by
    simp [rowsAt, NDA.vec, NDA.rows]
  have e2 : rowsAt (s.heap ++ [NDA.vec ((o.view s.heap).setRedshift z).1.wave, .arr [((o.view s.heap).setRedshift z).1.flux.length]
      ((o.view s.heap).setRedshift z).1.wave.length ((o.view s.heap).setRedshift z).1.flux]) (s.heap.length + 1) = ((o.view s.heap).setRedshift z).1.flux := by
    simp [rowsAt, NDA.rows, List.getD_eq_getElem?_getD]
  unfold SObj.view at e1 e2 ⊢
  simp only [e1, e2, rowsAt_append hvo.1, rowsAt_append hvo.2.1, List.headD_cons]
  unfold Sed.setRedshift Sed.setInterp
  dsimp only
  split
  · split <;> rfl
  · rfl

/-- After `set_redshift` of object `i`, and whatever happens then as long as its new arrays are not passed to a constructor, an edit in place of `sed.wave` or
`sed.flux` changes no other object and not the rest frame of this one; the next `set_redshift` gives the spectra it would have given without the edit. -/
theorem C148_edits_partial (l0 l : List (SOp α)) (i : Nat) (z : α) (hi : i < (SWorld.start.run l0).objs.length)
    (hr : NotReused i ((SWorld.start.run l0).step (.setRedshift i z)) l) (x : Nat) (a : NDA α) :
    let s := ((SWorld.start.run l0).step (.setRedshift i z)).run l
    Holds s i x →
      (∀ j, j ≠ i → (s.step (.write x a)).look j = s.look j) ∧
      (∃ d e, s.look i = some d ∧ (s.step (.write x a)).look i = some e ∧ e.restWave = d.restWave ∧ e.restFlux = d.restFlux ∧ e.redshift = d.redshift) ∧
      ∀ z', ((s.step (.write x a)).step (.setRedshift i z')).look i = (s.step (.setRedshift i z')).look i := by
  intro s hx
  have v0 := run_valid (start_valid (α := α)) l0
  have v1 := step_valid v0 (.setRedshift i z)
  have hv : s.Valid := run_valid v1 l
  have hO : Owned s i := owned_run v1 (owned_setRedshift v0 (List.getElem?_eq_getElem hi) z) l hr
  obtain ⟨o, ho, a1, a2, a3, a4, h⟩ := hO
  have hxo : x = o.wave ∨ x = o.flux := by
    obtain ⟨p, hp, hx⟩ := hx
    rw [ho, Option.some.injEq] at hp
    exact hp ▸ hx
  have r1 : o.restWave ≠ x := by rcases hxo with rfl | rfl <;> assumption
  have r2 : o.restFlux ≠ x := by rcases hxo with rfl | rfl <;> assumption
  have w1 : s.look i = some (o.view s.heap) := by simp [SWorld.look, ho]
  have w2 : (s.step (.write x a)).look i = some (o.view (s.heap.set x a)) := by simp [SWorld.look, SWorld.step, ho]
  have q1 : (o.view (s.heap.set x a)).restWave = (o.view s.heap).restWave := by simp [SObj.view, rowsAt_set_ne a r1]
  have q2 : (o.view (s.heap.set x a)).restFlux = (o.view s.heap).restFlux := by simp [SObj.view, rowsAt_set_ne a r2]
  refine ⟨fun j hj => ?_, ⟨_, _, w1, w2, q1, q2, rfl⟩, fun z' => ?_⟩
  · simp only [SWorld.look, SWorld.step]
    refine Option.map_congr fun p hp => ?_
    obtain ⟨b1, b2, b3, b4, b5, b6, b7, b8⟩ := h j p hj hp
    have c1 : p.restWave ≠ x := by rcases hxo with rfl | rfl <;> assumption
    have c2 : p.restFlux ≠ x := by rcases hxo with rfl | rfl <;> assumption
    have c3 : p.wave ≠ x := by rcases hxo with rfl | rfl <;> assumption
    have c4 : p.flux ≠ x := by rcases hxo with rfl | rfl <;> assumption
    simp [SObj.view, rowsAt_set_ne a c1, rowsAt_set_ne a c2, rowsAt_set_ne a c3, rowsAt_set_ne a c4]
  · rw [look_setRedshift (step_valid hv _) w2, look_setRedshift hv w1, setRedshift_congr q1 q2 rfl rfl rfl]

/-- The session writes into neither array. -/
def NeverWrites (x y : Nat) (l : List (SOp α)) : Prop := ∀ op ∈ l, ∀ u a, op = .write u a → u ≠ x ∧ u ≠ y

/-- One step without a write to the rest-frame arrays keeps the rest frame, and the addresses. -/
theorem frame_step {s : SWorld α} (hv : s.Valid) {i : Nat} {o : SObj α} (ho : s.objs[i]? = some o) (op : SOp α)
    (hw : ∀ u a, op = .write u a → u ≠ o.restWave ∧ u ≠ o.restFlux) :
    ∃ p, (s.step op).objs[i]? = some p ∧ p.restWave = o.restWave ∧ p.restFlux = o.restFlux ∧
      rowsAt (s.step op).heap o.restWave = rowsAt s.heap o.restWave ∧ rowsAt (s.step op).heap o.restFlux = rowsAt s.heap o.restFlux := by
  have hi := (List.getElem?_eq_some_iff.1 ho).1
  have hvo := hv o (List.mem_of_getElem? ho)
  cases op with
  | array a => exact ⟨o, ho, rfl, rfl, rowsAt_append hvo.1 _, rowsAt_append hvo.2.1 _⟩
  | sed w f b =>
    rcases s.mkSed_cases w f b with e | ⟨wave, flux, d, -, -, -, e⟩
    · rw [SWorld.step, e]
      exact ⟨o, ho, rfl, rfl, rfl, rfl⟩
    · rw [SWorld.step, e]
      exact ⟨o, by rw [List.getElem?_append_left hi, ho], rfl, rfl, rfl, rfl⟩
  | setRedshift k z =>
    simp only [SWorld.step, SWorld.setRedshift]
    split
    · exact ⟨o, ho, rfl, rfl, rfl, rfl⟩
    · rename_i q hq
      rcases eq_or_ne k i with rfl | hk
      · rw [ho, Option.some.injEq] at hq
        subst hq
        exact ⟨_, List.getElem?_set_self hi, rfl, rfl, rowsAt_append hvo.1 _, rowsAt_append hvo.2.1 _⟩
      · exact ⟨o, by simp only; rw [List.getElem?_set_ne hk, ho], rfl, rfl, rowsAt_append hvo.1 _, rowsAt_append hvo.2.1 _⟩
  | setInterp k =>
    simp only [SWorld.step, SWorld.setInterp]
    split
    · exact ⟨o, ho, rfl, rfl, rfl, rfl⟩
    · rename_i q hq
      rcases eq_or_ne k i with rfl | hk
      · rw [ho, Option.some.injEq] at hq
        subst hq
        exact ⟨_, List.getElem?_set_self hi, rfl, rfl, rfl, rfl⟩
      · exact ⟨o, by simp only; rw [List.getElem?_set_ne hk, ho], rfl, rfl, rfl, rfl⟩
  | write u a =>
    obtain ⟨h1, h2⟩ := hw u a rfl
    exact ⟨o, ho, rfl, rfl, rowsAt_set_ne a (Ne.symm h1), rowsAt_set_ne a (Ne.symm h2)⟩

/-- Whatever else happens, the rest frame of an object stays as it is while nobody writes into the arrays it was made from. -/
theorem C148_frame_partial (l0 l : List (SOp α)) (i : Nat) (o : SObj α) (ho : (SWorld.start.run l0).objs[i]? = some o)
    (hl : NeverWrites o.restWave o.restFlux l) :
    ∃ d e, (SWorld.start.run l0).look i = some d ∧ ((SWorld.start.run l0).run l).look i = some e ∧ e.restWave = d.restWave ∧ e.restFlux = d.restFlux := by
  have main : ∀ (l : List (SOp α)) (s : SWorld α) (p : SObj α), s.Valid → s.objs[i]? = some p → NeverWrites p.restWave p.restFlux l →
      ∃ q, (s.run l).objs[i]? = some q ∧ q.restWave = p.restWave ∧ q.restFlux = p.restFlux ∧
        rowsAt (s.run l).heap p.restWave = rowsAt s.heap p.restWave ∧ rowsAt (s.run l).heap p.restFlux = rowsAt s.heap p.restFlux := by
    intro l
    induction l with
    | nil => exact fun s p _ hp _ => ⟨p, hp, rfl, rfl, rfl, rfl⟩
    | cons op l ih =>
      intro s p hv hp hn
      obtain ⟨q, hq, e1, e2, e3, e4⟩ := frame_step hv hp op (fun u a h => hn op List.mem_cons_self u a h)
      obtain ⟨r, hr, f1, f2, f3, f4⟩ := ih (s.step op) q (step_valid hv op) hq
        (fun op' h' u a hu => by rw [e1, e2]; exact hn op' (List.mem_cons_of_mem _ h') u a hu)
      rw [e1] at f3
      rw [e2] at f4
      exact ⟨r, hr, f1.trans e1, f2.trans e2, f3.trans e3, f4.trans e4⟩
  obtain ⟨q, hq, e1, e2, e3, e4⟩ := main l _ o (run_valid start_valid l0) ho hl
  refine ⟨o.view (SWorld.start.run l0).heap, q.view ((SWorld.start.run l0).run l).heap, by simp [SWorld.look, ho], by simp [SWorld.look, hq], ?_, ?_⟩
  · simp [SObj.view, e1, e3]
  · simp [SObj.view, e2, e4]

/-- The property is false before the first `set_redshift`, and for the arrays of the caller: for every grid `w` and spectra `f` that make an `SED`, an edit of
`f` (which is also `sed.flux`) changes the rest frame, and the next `set_redshift` gives the redshifted edit. -/
theorem C148_false (w : List α) (n : Nat) (f f' : List (List α)) (b : Bool) (d : Sed α) (hd : Sed.mk' w (.arr [f.length] n f) b = .ok d) (z : α) :
    let s : SWorld α := SWorld.start.run [.array (.vec w), .array (.arr [f.length] n f), .sed 0 1 b]
    let t := s.step (.write 1 (.arr [f.length] n f'))
    s.look 0 = some d ∧ d.restFlux = f ∧ Holds s 0 1 ∧
      (∃ e, t.look 0 = some e ∧ e.restFlux = f') ∧
      ∃ e, (t.step (.setRedshift 0 z)).look 0 = some e ∧ e.flux = f'.map (List.map (fun y => y / (lit 1 + z))) := by
  intro s t
  have hd' : Sed.setup w (.arr [f.length] n f) b false = .ok d := hd
  have hs : s = ⟨[.vec w, .arr [f.length] n f], [⟨0, 1, 0, 1, d.redshift, d.interpolate, d.interp⟩]⟩ := by
    simp [s, SWorld.run, SWorld.step, SWorld.start, SWorld.mkSed, NDA.vec, NDA.rows, hd']
  have hview : d.restWave = w ∧ d.restFlux = f ∧ d.wave = w ∧ d.flux = f ∧ d.binimage = false := by
    unfold Sed.setup at hd'
    simp only [ok_bind] at hd'
    unfold Sed.setInterp at hd'
    dsimp only at hd'
    split at hd'
    · split at hd'
      · rename_i heq
        split at heq
        · simp only [Prod.mk.injEq] at heq
          rw [← heq.1] at hd'
          cases hd'
          exact ⟨rfl, rfl, rfl, rfl, rfl⟩
        · simp at heq
      · cases hd'
    · cases hd'
      exact ⟨rfl, rfl, rfl, rfl, rfl⟩
  obtain ⟨v1, v2, v3, v4, v5⟩ := hview
  have hv : t.Valid := step_valid (run_valid start_valid _) _
  have ht : t = ⟨[.vec w, .arr [f.length] n f'], [⟨0, 1, 0, 1, d.redshift, d.interpolate, d.interp⟩]⟩ := by
    simp [t, hs, SWorld.step]
  have htl : t.look 0 = some ⟨w, f', w, f', d.redshift, d.interpolate, d.interp, false⟩ := by
    simp [ht, SWorld.look, SObj.view, rowsAt, NDA.vec, NDA.rows]
  refine ⟨?_, v2, ⟨_, by rw [hs]; rfl, .inr rfl⟩, ⟨_, htl, rfl⟩, ⟨_, look_setRedshift hv htl z, ?_⟩⟩
  · rw [hs]
    simp only [SWorld.look, SObj.view, rowsAt, NDA.vec, NDA.rows, List.getElem?_cons_zero, Option.map_some, List.getD_cons_zero, List.getD_cons_succ, List.headD_cons,
      Option.some.injEq]
    cases d
    simp only at v1 v2 v3 v4 v5
    subst v1 v2 v3 v4 v5
    rfl
  · unfold Sed.setRedshift Sed.setInterp
    dsimp only
    split
    · split <;> rfl
    · rfl

/-- An edit of `sed.flux` in place is not seen by `project` of any response, until `set_interp` or `set_redshift` of the object is called. -/
theorem C149_snapshot (lib : Lib α) (c : Curve α) (l0 : List (SOp α)) (i : Nat) (o : SObj α) (ho : (SWorld.start.run l0).objs[i]? = some o)
    (l : List (SOp α)) (hl : ∀ op ∈ l, (∀ z, op ≠ .setRedshift i z) ∧ op ≠ .setInterp i ∧ ∀ a, op ≠ .write o.wave a) :
    ∃ d e, (SWorld.start.run l0).look i = some d ∧ ((SWorld.start.run l0).run l).look i = some e ∧ projectSed lib c e = projectSed lib c d := by
  have main : ∀ (l : List (SOp α)) (s : SWorld α), s.Valid → s.objs[i]? = some o →
      (∀ op ∈ l, (∀ z, op ≠ .setRedshift i z) ∧ op ≠ .setInterp i ∧ ∀ a, op ≠ .write o.wave a) →
      (s.run l).objs[i]? = some o ∧ rowsAt (s.run l).heap o.wave = rowsAt s.heap o.wave := by
    intro l
    induction l with
    | nil => exact fun s _ hp _ => ⟨hp, rfl⟩
    | cons op l ih =>
      intro s hv hp hn
      obtain ⟨n1, n2, n3⟩ := hn op List.mem_cons_self
      have hi := (List.getElem?_eq_some_iff.1 hp).1
      have hvo := (hv o (List.mem_of_getElem? hp)).2.2.1
      have one : (s.step op).objs[i]? = some o ∧ rowsAt (s.step op).heap o.wave = rowsAt s.heap o.wave := by
        cases op with
        | array a => exact ⟨hp, rowsAt_append hvo _⟩
        | sed w f b =>
          rcases s.mkSed_cases w f b with e | ⟨wave, flux, d, -, -, -, e⟩
          · rw [SWorld.step, e]
            exact ⟨hp, rfl⟩
          · rw [SWorld.step, e]
            exact ⟨by rw [List.getElem?_append_left hi, hp], rfl⟩
        | setRedshift k z =>
          have hk : k ≠ i := fun h => n1 z (by rw [h])
          simp only [SWorld.step, SWorld.setRedshift]
          split
          · exact ⟨hp, rfl⟩
          · exact ⟨by simp only; rw [List.getElem?_set_ne hk, hp], rowsAt_append hvo _⟩
        | setInterp k =>
          have hk : k ≠ i := fun h => n2 (by rw [h])
          simp only [SWorld.step, SWorld.setInterp]
          split
          · exact ⟨hp, rfl⟩
          · exact ⟨by simp only; rw [List.getElem?_set_ne hk, hp], rfl⟩
        | write u a => exact ⟨hp, rowsAt_set_ne a (fun h => n3 a (by rw [h]))⟩
      obtain ⟨e1, e2⟩ := ih (s.step op) (step_valid hv op) one.1 (fun op' h' => hn op' (List.mem_cons_of_mem _ h'))
      exact ⟨e1, e2.trans one.2⟩
  obtain ⟨e1, e2⟩ := main l _ (run_valid start_valid l0) ho hl
  refine ⟨o.view (SWorld.start.run l0).heap, o.view ((SWorld.start.run l0).run l).heap, by simp [SWorld.look, ho], by simp [SWorld.look, e1], ?_⟩
  unfold projectSed SObj.view
  simp only [e2]

/-- After `set_interp` the projection is that of the arrays the object now has. -/
theorem C149_set_interp (lib : Lib α) (c : Curve α) (s : SWorld α) (i : Nat) (d : Sed α) (hd : s.look i = some d) (itp : Interp α)
    (hitp : mkInterp d.wave d.flux = .ok itp) :
    ∃ e, (s.step (.setInterp i)).look i = some e ∧ e.flux = d.flux ∧ e.wave = d.wave ∧ projectSed lib c e = .ok (projectWith lib c d.wave itp) := by
  unfold SWorld.look at hd
  rw [Option.map_eq_some_iff] at hd
  obtain ⟨o, ho, rfl⟩ := hd
  have hs : ((o.view s.heap).setInterp).1 = { o.view s.heap with interp := some itp, interpolate := true } := by
    unfold Sed.setInterp
    rw [hitp]
  refine ⟨{ o.view s.heap with interp := some itp, interpolate := true }, ?_, rfl, rfl, rfl⟩
  simp only [SWorld.step, SWorld.setInterp, ho, SWorld.look, hs]
  rw [List.getElem?_set_self (List.getElem?_eq_some_iff.1 ho).1]
  rfl

/-- A session with two objects built from the same arrays, both redshifted: the hypotheses of `C148_edits_partial` are met, and the edit is a real one. -/
example : let l0 : List (SOp ℝ) := [.array (.vec [1, 2]), .array (.vec [3, 4]), .sed 0 1 false, .sed 0 1 false, .setRedshift 1 3]
    0 < (SWorld.start.run l0).objs.length ∧
    NotReused 0 ((SWorld.start.run l0).step (.setRedshift 0 1)) [.array (.vec [5]), .setRedshift 1 4] ∧
    Holds (((SWorld.start.run l0).step (.setRedshift 0 1)).run [.array (.vec [5]), .setRedshift 1 4]) 0 5 := by
  simp only [SWorld.start, SWorld.run, List.foldl, SWorld.step, SWorld.mkSed, Sed.setup, NDA.vec, NDA.rows, SWorld.setRedshift, List.nil_append, List.cons_append,
    List.getElem?_cons_zero, List.getElem?_cons_succ, ok_bind, List.headD_cons, List.length_cons, List.length_nil, if_true, Bool.false_eq_true, if_false,
    List.set_cons_zero, List.set_cons_succ, NotReused, Holds]
  refine ⟨by simp, ⟨by simp, ⟨by simp, trivial⟩⟩, _, rfl, .inr (by simp)⟩

/-- `C148_false` and the two parts of C149 apply to an `SED` of one spectrum with a cubic interpolator. -/
example : (∃ d, Sed.mk' ([1, 2, 3, 4] : List ℝ) (.arr [1] 4 [[5, 6, 7, 8]]) false = .ok d) ∧
    NeverWrites 0 1 ([.write 2 (.vec [1]), .setRedshift 0 1, .setInterp 0] : List (SOp ℝ)) := by
  refine ⟨⟨_, rfl⟩, ?_⟩
  simp [NeverWrites]

/-- An `SED` with an interpolator whose flux is then edited: C149 says that the projection is that of `[5, 6, 7, 8]` before `set_interp` and of `[0, 0, 9, 0]` after. -/
example : let l0 : List (SOp ℝ) := [.array (.vec [1, 2, 3, 4]), .array (.vec [5, 6, 7, 8]), .sed 0 1 true]
    (∃ o, (SWorld.start.run l0).objs[0]? = some o ∧ o.wave = 0 ∧ o.flux = 1 ∧ o.interp = some ⟨[1, 2, 3, 4], [[5, 6, 7, 8]]⟩) ∧
    (∃ d, ((SWorld.start.run l0).step (.write 1 (.vec [0, 0, 9, 0]))).look 0 = some d ∧ d.flux = [[0, 0, 9, 0]] ∧
      d.interp = some ⟨[1, 2, 3, 4], [[5, 6, 7, 8]]⟩ ∧ mkInterp d.wave d.flux = .ok ⟨[1, 2, 3, 4], [[0, 0, 9, 0]]⟩) := by
  have h1 : mkInterp ([1, 2, 3, 4] : List ℝ) [[5, 6, 7, 8]] = .ok ⟨[1, 2, 3, 4], [[5, 6, 7, 8]]⟩ :=
    mkInterp_strict _ _ (by norm_num) (by simp) (by simp)
  have h2 : mkInterp ([1, 2, 3, 4] : List ℝ) [[0, 0, 9, 0]] = .ok ⟨[1, 2, 3, 4], [[0, 0, 9, 0]]⟩ :=
    mkInterp_strict _ _ (by norm_num) (by simp) (by simp)
  have hs : SWorld.start.run ([.array (.vec [1, 2, 3, 4]), .array (.vec [5, 6, 7, 8]), .sed 0 1 true] : List (SOp ℝ)) =
      ⟨[.vec [1, 2, 3, 4], .vec [5, 6, 7, 8]], [⟨0, 1, 0, 1, lit 0, true, some ⟨[1, 2, 3, 4], [[5, 6, 7, 8]]⟩⟩]⟩ := by
    simp [SWorld.run, SWorld.step, SWorld.start, SWorld.mkSed, NDA.vec, NDA.rows, Sed.setup, Sed.setInterp, h1]
  intro l0
  rw [hs]
  exact ⟨⟨_, rfl, rfl, rfl, rfl⟩, ⟨_, rfl, rfl, rfl, h2⟩⟩

end KC
