import Verif.Props.ToAb
import Verif.Model.Heap

/-! # C87: the caller's arrays -/

namespace KC
open Spec
open HM

section generic
variable {α : Type} [Arith α]

/-- `x`, started on the arrays `h` of the caller (and any others), returns or raises `p` and leaves the caller's arrays as they were. -/
def Reads {β : Type} (h : Heap α) (x : HM α β) (p : Py β) : Prop := ∀ ext, ∃ ext', x (h ++ ext) = (h ++ ext', p)

theorem hbind {β γ : Type} (x : HM α β) (f : β → HM α γ) (h : Heap α) : (x >>= f) h = (match x h with
    | (h', .ok b) => f b h'
    | (h', .error e) => (h', .error e)) := rfl

theorem hbind_ok {β γ : Type} {x : HM α β} {f : β → HM α γ} {h h' : Heap α} {b : β} (hx : x h = (h', .ok b)) : (x >>= f) h = f b h' := by
  rw [hbind, hx]

theorem hbind_err {β γ : Type} {x : HM α β} {f : β → HM α γ} {h h' : Heap α} {e : PyErr} (hx : x h = (h', .error e)) :
    (x >>= f) h = (h', .error e) := by
  rw [hbind, hx]

theorem hlift_ok {β γ : Type} (b : β) (f : β → HM α γ) (h : Heap α) : (HM.lift (.ok b) >>= f) h = f b h := rfl

theorem Reads.bind {β γ : Type} {h : Heap α} {x : HM α β} {p : Py β} {f : β → HM α γ} {q : β → Py γ} (hx : Reads h x p)
    (hf : ∀ b, p = .ok b → Reads h (f b) (q b)) : Reads h (x >>= f) (p >>= q) := by
  intro ext
  obtain ⟨e1, h1⟩ := hx ext
  cases p with
  | error e => exact ⟨e1, hbind_err h1⟩
  | ok b =>
    obtain ⟨e2, h2⟩ := hf b rfl e1
    exact ⟨e2, (hbind_ok h1).trans h2⟩

theorem Reads.lift {β : Type} (h : Heap α) (p : Py β) : Reads h (HM.lift p) p := fun ext => ⟨ext, rfl⟩

theorem Reads.pure {β : Type} (h : Heap α) (b : β) : Reads h (Pure.pure b) (.ok b) := fun ext => ⟨ext, rfl⟩

theorem get_append {h : Heap α} {v : View} (hv : v.ref < h.length) (ext : Heap α) : v.get (h ++ ext) = v.get h := by
  unfold View.get
  rw [List.getElem?_append_left hv]

theorem Reads.read {h : Heap α} {v : View} (hv : v.ref < h.length) : Reads h (HM.read v) (v.get h) :=
  fun ext => ⟨ext, by rw [HM.read, get_append hv]⟩

/-- A view of one of the arrays `h`; if they are 32-bit floats, rounding them to 32 bits changes nothing. -/
def ViewOk (h : Heap α) (v : View) : Prop :=
  ∃ c, h[v.ref]? = some c ∧ ∀ a, v.get h = .ok a → c.isF32 = true → a.map f32 = a

theorem ViewOk.lt {h : Heap α} {v : View} (hv : ViewOk h v) : v.ref < h.length := by
  obtain ⟨c, hc, _⟩ := hv
  exact (List.getElem?_eq_some_iff.mp hc).1

/-- an argument that is `None` or a view of the caller's arrays -/
def ArgOk (h : Heap α) (v : Option View) : Prop := ∀ w ∈ v, ViewOk h w ∧ ∃ a, w.get h = .ok a

/-- the value of an argument -/
def argVal (h : Heap α) (v : Option View) : Option (NDA α) := v.bind (fun w => (w.get h).toOption)

theorem argVal_some {h : Heap α} {v : View} {a : NDA α} (hv : v.get h = .ok a) : argVal h (some v) = some a := by
  simp [argVal, hv, Except.toOption]

theorem Reads.readOpt {h : Heap α} {v : Option View} (hv : ArgOk h v) : Reads h (HM.readOpt v) (.ok (argVal h v)) := by
  cases v with
  | none => exact Reads.pure h none
  | some v =>
    obtain ⟨h1, a, ha⟩ := hv v rfl
    rw [argVal_some ha]
    have := Reads.bind (Reads.read h1.lt) (f := fun a => (Pure.pure (some a) : HM α (Option (NDA α)))) (q := fun a => .ok (some a)) (fun b _ => Reads.pure h (some b))
    rw [ha] at this
    exact this

/-- `np.float32(x)` gives the rounded values, in `x` itself or in an array that is not one of the caller's. -/
theorem toF32_step {h : Heap α} {v : View} (hv : ViewOk h v) {a : NDA α} (ha : v.get h = .ok a) (ext : Heap α) :
    ∃ e v', toF32 v (h ++ ext) = (h ++ ext ++ e, .ok v') ∧ (∀ e', v'.get (h ++ ext ++ e ++ e') = .ok (a.map f32)) ∧
      v'.ref < (h ++ ext ++ e).length ∧ ((∃ c, h[v.ref]? = some c ∧ c.isF32 = true) → v' = v) ∧
      ((∃ c, h[v.ref]? = some c ∧ c.isF32 = false) → (h ++ ext).length ≤ v'.ref ∧ v'.idx = none) := by
  obtain ⟨c, hc, h2⟩ := hv
  have hlt := (List.getElem?_eq_some_iff.mp hc).1
  unfold toF32
  rw [List.getElem?_append_left hlt, hc]
  simp only
  by_cases h3 : c.isF32 = true
  · rw [if_pos h3]
    refine ⟨[], v, by simp, ?_, by simp; omega, fun _ => rfl, ?_⟩
    · intro e'
      rw [List.append_nil, List.append_assoc, get_append hlt, ha, h2 a ha h3]
    · rintro ⟨c', h4, h5⟩
      cases h4; rw [h5] at h3; cases h3
  · rw [if_neg h3, get_append hlt, ha]
    refine ⟨[⟨true, a.map f32⟩], ⟨(h ++ ext).length, none⟩, rfl, ?_, by simp, ?_, ?_⟩
    · intro e'
      unfold View.get
      simp only
      rw [List.getElem?_append_left (by simp), List.getElem?_append_right (by simp)]
      simp
    · rintro ⟨c', h4, h5⟩
      cases h4; exact absurd h5 h3
    · intro _
      simp

/-- The tests on a table are those of `checkTable` on its values. -/
theorem tableH_step {h : Heap α} {array : Bool} {n w : Nat} {v : Option View} (hv : ArgOk h v) (ext : Heap α) :
    (∃ e er, tableH array n w v (h ++ ext) = (h ++ ext ++ e, .error er) ∧ checkTable array n w (argVal h v) = .error er) ∨
    ∃ e v' a, tableH array n w v (h ++ ext) = (h ++ ext ++ e, .ok v') ∧ checkTable array n w (argVal h v) = .ok a ∧
      (∀ e', (v'.map (fun x => x.get (h ++ ext ++ e ++ e'))) = a.map .ok) ∧ (∀ x ∈ v', x.ref < (h ++ ext ++ e).length) ∧
      ((∀ x ∈ v, ∃ c, h[x.ref]? = some c ∧ c.isF32 = true) → v' = v) ∧
      ((∀ x ∈ v, ∃ c, h[x.ref]? = some c ∧ c.isF32 = false) → ∀ x ∈ v', (h ++ ext).length ≤ x.ref ∧ x.idx = none) := by
  cases v with
  | none =>
    refine Or.inr ⟨[], none, none, by simp [tableH]; rfl, rfl, by simp, by simp, fun _ => rfl, by simp⟩
  | some v =>
    obtain ⟨h1, a, ha⟩ := hv v rfl
    obtain ⟨e, v', h2, h3, h4, h5, h6⟩ := toF32_step h1 ha ext
    have h3' := h3 []
    rw [List.append_nil] at h3'
    have hstep : tableH array n w (some v) (h ++ ext) =
        (if (a.map f32).shape = (if array then [n, w] else [w]) then Pure.pure (some v') else HM.lift (.error .valueError) : HM α (Option View)) (h ++ ext ++ e) := by
      show (toF32 v >>= fun v => HM.read v >>= fun a =>
        if a.shape = (if array then [n, w] else [w]) then Pure.pure (some v) else HM.lift (.error .valueError) : HM α (Option View)) (h ++ ext) = _
      rw [hbind_ok h2, hbind_ok (show HM.read v' _ = _ by rw [HM.read, h3'])]
    rw [argVal_some ha]
    unfold checkTable
    simp only
    by_cases hs : (a.map f32).shape = (if array then [n, w] else [w])
    · rw [if_pos hs] at hstep ⊢
      refine Or.inr ⟨e, some v', some (a.map f32), hstep, rfl, ?_, ?_, ?_, ?_⟩
      · intro e'
        rw [Option.map_some, h3 e']; rfl
      · simpa using h4
      · intro hc; rw [h5 (hc v rfl)]
      · intro hc x hx; cases hx; exact h6 (hc v rfl)
    · rw [if_neg hs] at hstep ⊢
      exact Or.inl ⟨e, _, hstep, rfl⟩

theorem get_modify_ne {v : View} {r : Nat} (hv : v.ref ≠ r) (f : Cell α → Cell α) (H : Heap α) : v.get (H.modify r f) = v.get H := by
  unfold View.get
  rw [List.getElem?_modify]
  simp [Ne.symm hv]

theorem get_modify_put {v : View} (hv : v.idx = none) {H : Heap α} (hl : v.ref < H.length) (s : NDA α) : v.get (H.modify v.ref (v.put s)) = .ok s := by
  unfold View.get
  rw [List.getElem?_modify]
  simp [List.getElem?_eq_getElem hl, View.put, hv]

/-- `to_ab` on objects gives the values of `toAb`.  It changes no array, except that of `KcorrectGST` changes its two arguments (and
only if it returns). -/
theorem toAbH_step (cls : Cls) (m : View) (iv : Option View) (H : Heap α) (a : NDA α) (b : Option (NDA α)) (ha : m.get H = .ok a)
    (hb : iv.map (fun x => x.get H) = b.map .ok) (hm : m.ref < H.length) (hiv : ∀ x ∈ iv, x.ref < H.length)
    (hg : cls = .gst → m.idx = none ∧ ∀ x ∈ iv, x.idx = none ∧ x.ref ≠ m.ref) :
    (∃ H' er, toAbH cls m iv H = (H', .error er) ∧ toAb cls a b = .error er ∧ H' = H) ∨
    ∃ H' m' iv' r, toAbH cls m iv H = (H', .ok (m', iv')) ∧ toAb cls a b = .ok r ∧ m'.get H' = .ok r.maggies ∧
      iv'.map (fun x => x.get H') = r.ivar.map .ok ∧ H.length ≤ H'.length ∧
      (∀ i < H.length, (cls = .gst → i ≠ m.ref ∧ ∀ x ∈ iv, i ≠ x.ref) → H'[i]? = H[i]?) ∧
      (cls = .gst → m' = m ∧ iv' = iv ∧ ∀ i < H.length, H'[i]?.map Cell.isF32 = H[i]?.map Cell.isF32) := by
  cases cls with
  | base => exact Or.inr ⟨H, m, iv, ⟨a, b⟩, rfl, rfl, ha, hb, le_refl _, fun i _ _ => rfl, fun h => by cases h⟩
  | sdss =>
    have hro : HM.readOpt iv H = (H, .ok b) := by
      cases iv with
      | none =>
        cases b with
        | none => rfl
        | some b => simp at hb
      | some x =>
        cases b with
        | none => simp at hb
        | some b =>
          simp only [Option.map_some, Option.some.injEq] at hb
          show (HM.read x >>= fun a => (Pure.pure (some a) : HM α _)) H = _
          rw [hbind_ok (show HM.read x H = (H, .ok b) by rw [HM.read, hb])]; rfl
    have hstep : toAbH .sdss m iv H = (HM.lift (sdssAbCorrect a b abfixDefault) >>= fun r => alloc r.maggies >>= fun m =>
        match r.ivar with
        | none => (Pure.pure (m, none) : HM α (View × Option View))
        | some v => alloc v >>= fun v => Pure.pure (m, some v)) H := by
      show (HM.read m >>= fun a => HM.readOpt iv >>= fun b => HM.lift (sdssAbCorrect a b abfixDefault) >>= fun r => alloc r.maggies >>= fun m =>
        match r.ivar with
        | none => (Pure.pure (m, none) : HM α (View × Option View))
        | some v => alloc v >>= fun v => Pure.pure (m, some v)) H = _
      rw [hbind_ok (show HM.read m H = (H, .ok a) by rw [HM.read, ha]), hbind_ok hro]
    rw [hstep]
    cases hr : sdssAbCorrect a b abfixDefault with
    | error er => exact Or.inl ⟨H, er, rfl, hr, rfl⟩
    | ok r =>
      obtain ⟨rm, riv⟩ := r
      cases riv with
      | none =>
        refine Or.inr ⟨H ++ [⟨true, rm⟩], ⟨H.length, none⟩, none, ⟨rm, none⟩, rfl, hr, ?_, rfl, by simp, ?_, fun h => by cases h⟩
        · simp [View.get]
        · intro i hi _
          rw [List.getElem?_append_left hi]
      | some rv =>
        refine Or.inr ⟨H ++ [⟨true, rm⟩] ++ [⟨true, rv⟩], ⟨H.length, none⟩, some ⟨(H ++ [(⟨true, rm⟩ : Cell α)]).length, none⟩, ⟨rm, some rv⟩, rfl, hr, ?_, ?_, by simp, ?_,
          fun h => by cases h⟩
        · simp [View.get]
        · simp [View.get]
        · intro i hi _
          rw [List.append_assoc, List.getElem?_append_left hi]
  | gst =>
    obtain ⟨hmi, hii⟩ := hg rfl
    have e0 : toAbH .gst m iv H = (HM.lift (slice27 a) >>= fun sm =>
      match iv with
      | none => HM.lift (.error .typeError)
      | some iv => HM.read iv >>= fun b => HM.lift (slice27 b) >>= fun siv => HM.lift (sdssAbCorrect sm (some siv) abfixDefault) >>= fun r =>
        match r.ivar with
        | none => HM.lift (.error .unmodelled)
        | some riv => write m (putSlice27 a r.maggies) >>= fun _ => HM.read iv >>= fun b => write iv (putSlice27 b riv) >>= fun _ =>
          (Pure.pure (m, some iv) : HM α (View × Option View))) H :=
      hbind_ok (show HM.read m H = (H, .ok a) by rw [HM.read, ha])
    rw [e0]
    cases hs : slice27 a with
    | error er => exact Or.inl ⟨H, er, rfl, by simp [toAb, hs], rfl⟩
    | ok sm =>
      cases iv with
      | none =>
        cases b with
        | some b => simp at hb
        | none => exact Or.inl ⟨H, _, rfl, by simp [toAb, hs], rfl⟩
      | some iv =>
        cases b with
        | none => simp at hb
        | some b =>
          simp only [Option.map_some, Option.some.injEq] at hb
          obtain ⟨hi1, hi2⟩ := hii iv rfl
          have hi3 := hiv iv rfl
          have e1 : ∀ f : NDA α → HM α (View × Option View), (HM.read iv >>= f) H = f b H :=
            fun f => hbind_ok (show HM.read iv H = (H, .ok b) by rw [HM.read, hb])
          show (_ ∨ _)
          rw [show (HM.lift (.ok sm) >>= fun sm => _ : HM α (View × Option View)) H = (HM.read iv >>= fun b => HM.lift (slice27 b) >>= fun siv => HM.lift (sdssAbCorrect sm (some siv) abfixDefault) >>= fun r =>
            match r.ivar with
            | none => HM.lift (.error .unmodelled)
            | some riv => write m (putSlice27 a r.maggies) >>= fun _ => HM.read iv >>= fun b => write iv (putSlice27 b riv) >>= fun _ =>
              (Pure.pure (m, some iv) : HM α (View × Option View))) H from rfl, e1]
          cases hs2 : slice27 b with
          | error er => exact Or.inl ⟨H, er, rfl, by simp [toAb, hs, hs2], rfl⟩
          | ok siv =>
            rw [hlift_ok]
            cases hr : sdssAbCorrect sm (some siv) abfixDefault with
            | error er => exact Or.inl ⟨H, er, rfl, by simp [toAb, hs, hs2, hr], rfl⟩
            | ok r =>
              obtain ⟨rm, riv⟩ := r
              cases riv with
              | none => exact Or.inl ⟨H, .unmodelled, rfl, by simp [toAb, hs, hs2, hr], rfl⟩
              | some riv =>
                refine Or.inr ⟨(H.modify m.ref (m.put (putSlice27 a rm))).modify iv.ref (iv.put (putSlice27 b riv)), m, some iv,
                  ⟨putSlice27 a rm, some (putSlice27 b riv)⟩, ?_, by simp [toAb, hs, hs2, hr], ?_, ?_, by simp, ?_, ?_⟩
                · show (HM.read iv >>= fun b => write iv (putSlice27 b riv) >>= fun _ =>
                    (Pure.pure (m, some iv) : HM α (View × Option View))) (H.modify m.ref (m.put (putSlice27 a rm))) = _
                  rw [hbind_ok (show HM.read iv (H.modify m.ref (m.put (putSlice27 a rm))) = (_, .ok b) by
                    rw [HM.read, get_modify_ne hi2, hb])]
                  rfl
                · rw [get_modify_ne (Ne.symm hi2), get_modify_put hmi hm]
                · rw [Option.map_some, get_modify_put hi1 (by simpa using hi3)]; rfl
                · intro i hi hne
                  obtain ⟨n1, n2⟩ := hne rfl
                  have n2 := n2 iv rfl
                  rw [List.getElem?_modify, List.getElem?_modify]
                  simp [Ne.symm n1, Ne.symm n2]
                · intro _
                  refine ⟨rfl, rfl, ?_⟩
                  intro i hi
                  rw [List.getElem?_modify, List.getElem?_modify]
                  have : ∀ (v : View) (s : NDA α) (c : Cell α), (v.put s c).isF32 = c.isF32 := by
                    intro v s c
                    unfold View.put
                    split <;> rfl
                  rw [List.getElem?_eq_getElem hi]
                  by_cases h1 : m.ref = i <;> by_cases h2 : iv.ref = i <;> simp [h1, h2, this]

/-- `_process_inputs` after the tests on the tables -/
def finish (F : Fitter α) (az : Bool × List α) (m iv c : Option (NDA α)) : Py (Inp α) :=
  match F.abcorrect, m with
  | true, some m => toAb F.cls m iv >>= fun r => .ok ⟨az.1, az.2, some r.maggies.rows, r.ivar.map NDA.rows, c.map NDA.rows⟩
  | _, _ => .ok ⟨az.1, az.2, m.map NDA.rows, iv.map NDA.rows, c.map NDA.rows⟩

def finishH (F : Fitter α) (az : Bool × List α) (m iv c : Option View) : HM α (Inp α) :=
  match F.abcorrect, m with
  | true, some m => toAbH F.cls m iv >>= fun r => HM.read r.1 >>= fun a => HM.readOpt r.2 >>= fun b => HM.readOpt c >>= fun c =>
      Pure.pure ⟨az.1, az.2, some a.rows, b.map NDA.rows, c.map NDA.rows⟩
  | _, m => HM.readOpt m >>= fun a => HM.readOpt iv >>= fun b => HM.readOpt c >>= fun c =>
      Pure.pure ⟨az.1, az.2, a.map NDA.rows, b.map NDA.rows, c.map NDA.rows⟩

theorem processInputs_finish (F : Fitter α) (z : NDA α) (m iv c : Option (NDA α)) :
    processInputs F (some z) m iv c = (redshiftsOf (z.map f32) >>= fun az =>
      checkTable az.1 az.2.length F.responses.length m >>= fun m => checkTable az.1 az.2.length F.responses.length iv >>= fun iv =>
      checkTable az.1 az.2.length F.templates.nsed c >>= fun c => finish F az m iv c) := by
  unfold processInputs
  cases z with
  | scalar z =>
    simp only [Option.map_some, NDA.map, redshiftsOf, ok_bind]
    refine congrArg₂ _ rfl (funext fun m => congrArg₂ _ rfl (funext fun iv => congrArg₂ _ rfl (funext fun c => ?_)))
    unfold finish
    cases F.abcorrect <;> cases m <;> rfl
  | arr lead n rows =>
    cases lead with
    | nil =>
      simp only [Option.map_some, NDA.map, redshiftsOf, ok_bind]
      refine congrArg₂ _ rfl (funext fun m => congrArg₂ _ rfl (funext fun iv => congrArg₂ _ rfl (funext fun c => ?_)))
      unfold finish
      cases F.abcorrect <;> cases m <;> rfl
    | cons d t => rfl

theorem processH_finish (F : Fitter α) (z : View) (m iv c : Option View) :
    processH F (some z) m iv c = (toF32 z >>= fun zv => HM.read zv >>= fun za => HM.lift (redshiftsOf za) >>= fun az =>
      tableH az.1 az.2.length F.responses.length m >>= fun m => tableH az.1 az.2.length F.responses.length iv >>= fun iv =>
      tableH az.1 az.2.length F.templates.nsed c >>= fun c => finishH F az m iv c) := by
  unfold processH
  simp only
  refine congrArg₂ _ rfl (funext fun zv => congrArg₂ _ rfl (funext fun za => congrArg₂ _ rfl (funext fun az => congrArg₂ _ rfl (funext fun m =>
    congrArg₂ _ rfl (funext fun iv => congrArg₂ _ rfl (funext fun c => ?_))))))
  unfold finishH
  cases F.abcorrect <;> cases m <;> rfl

theorem checkTable_val {array : Bool} {n w : Nat} {v a : Option (NDA α)} (h : checkTable array n w v = .ok a) : a = v.map (NDA.map f32) := by
  cases v with
  | none => cases h; rfl
  | some v =>
    unfold checkTable at h
    dsimp only at h
    by_cases hs : (v.map f32).shape = (if array then [n, w] else [w])
    · rw [if_pos hs] at h; cases h; rfl
    · rw [if_neg hs] at h; cases h

/-- The part of `_process_inputs` before the correction: it raises what `processInputs` raises, or reaches the correction with the
tested values, in the caller's own arrays if they are 32-bit floats and in new ones otherwise. -/
theorem tables_step (F : Fitter α) {h : Heap α} {z : View} {m iv c : Option View} (hz : ArgOk h (some z)) (hm : ArgOk h m) (hiv : ArgOk h iv)
    (hc : ArgOk h c) (ext : Heap α) :
    (∃ e er, processH F (some z) m iv c (h ++ ext) = (h ++ e, .error er) ∧
      processInputs F (argVal h (some z)) (argVal h m) (argVal h iv) (argVal h c) = .error er) ∨
    ∃ e az m' iv' c' a b d, processH F (some z) m iv c (h ++ ext) = finishH F az m' iv' c' (h ++ e) ∧
      processInputs F (argVal h (some z)) (argVal h m) (argVal h iv) (argVal h c) = finish F az a b d ∧
      m'.map (fun x => x.get (h ++ e)) = a.map .ok ∧ iv'.map (fun x => x.get (h ++ e)) = b.map .ok ∧ c'.map (fun x => x.get (h ++ e)) = d.map .ok ∧
      (∀ x ∈ m', x.ref < (h ++ e).length) ∧ (∀ x ∈ iv', x.ref < (h ++ e).length) ∧ (∀ x ∈ c', x.ref < (h ++ e).length) ∧
      ((∀ x ∈ m, ∃ c, h[x.ref]? = some c ∧ c.isF32 = true) → m' = m) ∧ ((∀ x ∈ iv, ∃ c, h[x.ref]? = some c ∧ c.isF32 = true) → iv' = iv) ∧
      ((∀ x ∈ m, ∃ c, h[x.ref]? = some c ∧ c.isF32 = false) → ∀ x ∈ m', h.length ≤ x.ref ∧ x.idx = none) ∧
      ((∀ x ∈ iv, ∃ c, h[x.ref]? = some c ∧ c.isF32 = false) → ∀ x ∈ iv', h.length ≤ x.ref ∧ x.idx = none ∧ ∀ y ∈ m', y.ref ≠ x.ref) ∧
      (∀ x ∈ c', (x ∈ c ∧ x.ref < h.length) ∨ (∀ y ∈ m', y.ref ≠ x.ref) ∧ ∀ y ∈ iv', y.ref ≠ x.ref) ∧
      b = (argVal h iv).map (NDA.map f32) := by
  obtain ⟨hz1, za, hza⟩ := hz z rfl
  rw [processH_finish, argVal_some hza, processInputs_finish]
  obtain ⟨e0, z', g1, g2, _, _, _⟩ := toF32_step hz1 hza ext
  have g2' := g2 []
  rw [List.append_nil] at g2'
  rw [hbind_ok g1, hbind_ok (show HM.read z' _ = _ by rw [HM.read, g2'])]
  cases hr : redshiftsOf (za.map f32) with
  | error er => exact Or.inl ⟨ext ++ e0, er, by rw [← List.append_assoc]; rfl, rfl⟩
  | ok az =>
    rw [hlift_ok, ok_bind]
    rw [List.append_assoc]
    rcases tableH_step (array := az.1) (n := az.2.length) (w := F.responses.length) hm (ext ++ e0) with ⟨e1, er, k1, k2⟩ | ⟨e1, m', a, k1, k2, k3, k4, k5, k6⟩
    · refine Or.inl ⟨_, er, by rw [hbind_err k1, List.append_assoc], by rw [k2]; rfl⟩
    rw [hbind_ok k1, k2, ok_bind, List.append_assoc h]
    rcases tableH_step (array := az.1) (n := az.2.length) (w := F.responses.length) hiv (ext ++ e0 ++ e1) with ⟨e2, er, l1, l2⟩ | ⟨e2, iv', b, l1, l2, l3, l4, l5, l6⟩
    · refine Or.inl ⟨_, er, by rw [hbind_err l1, List.append_assoc], by rw [l2]; rfl⟩
    rw [hbind_ok l1, l2, ok_bind, List.append_assoc h]
    rcases tableH_step (array := az.1) (n := az.2.length) (w := F.templates.nsed) hc (ext ++ e0 ++ e1 ++ e2) with ⟨e3, er, n1, n2⟩ | ⟨e3, c', d, n1, n2, n3, n4, n5, n6⟩
    · refine Or.inl ⟨_, er, by rw [hbind_err n1, List.append_assoc], by rw [n2]; rfl⟩
    rw [hbind_ok n1, n2, ok_bind, List.append_assoc h]
    refine Or.inr ⟨_, az, m', iv', c', a, b, d, rfl, rfl, ?_, ?_, ?_, ?_, ?_, ?_, k5, l5, ?_, ?_, ?_, checkTable_val l2⟩
    · have := k3 (e2 ++ e3)
      simpa only [List.append_assoc] using this
    · have := l3 e3
      simpa only [List.append_assoc] using this
    · have := n3 []
      simpa only [List.append_assoc, List.append_nil] using this
    · intro x hx; have := k4 x hx; simp only [List.length_append] at this ⊢; omega
    · intro x hx; have := l4 x hx; simp only [List.length_append] at this ⊢; omega
    · intro x hx; have := n4 x hx; simp only [List.length_append] at this ⊢; omega
    · intro hh x hx
      have := k6 hh x hx
      simp only [List.length_append] at this
      exact ⟨by omega, this.2⟩
    · intro hh x hx
      have := l6 hh x hx
      simp only [List.length_append] at this
      refine ⟨by omega, this.2, ?_⟩
      intro y hy
      have := k4 y hy
      simp only [List.length_append] at this
      omega
    · intro x hx
      cases c with
      | none =>
        rw [n5 (by simp)] at hx
        cases hx
      | some c =>
        obtain ⟨⟨cell, h1, _⟩, _⟩ := hc c rfl
        cases hcell : cell.isF32 with
        | true =>
          rw [n5 (by intro x hx; cases hx; exact ⟨cell, h1, hcell⟩)] at hx
          cases hx
          exact Or.inl ⟨rfl, (List.getElem?_eq_some_iff.mp h1).1⟩
        | false =>
          have q := (n6 (by intro x hx; cases hx; exact ⟨cell, h1, hcell⟩) x hx).1
          simp only [List.length_append] at q
          refine Or.inr ⟨fun y hy => ?_, fun y hy => ?_⟩
          · have := k4 y hy
            simp only [List.length_append] at this
            omega
          · have := l4 y hy
            simp only [List.length_append] at this
            omega

theorem readOpt_ok {v : Option View} {a : Option (NDA α)} {H : Heap α} (h : v.map (fun x => x.get H) = a.map .ok) :
    HM.readOpt v H = (H, .ok a) := by
  cases v with
  | none =>
    cases a with
    | none => rfl
    | some a => simp at h
  | some v =>
    cases a with
    | none => simp at h
    | some a =>
      simp only [Option.map_some, Option.some.injEq] at h
      show (HM.read v >>= fun a => (Pure.pure (some a) : HM α _)) H = _
      rw [hbind_ok (show HM.read v H = (H, .ok a) by rw [HM.read, h])]; rfl

theorem kept {h H : Heap α} (hl : h.length ≤ H.length) (hk : ∀ i < h.length, H[i]? = h[i]?) : ∃ e, H = h ++ e := by
  refine ⟨H.drop h.length, ?_⟩
  conv_lhs => rw [← List.take_append_drop h.length H]
  congr 1
  apply List.ext_getElem?
  intro i
  rw [List.getElem?_take]
  split
  · rename_i hi; exact hk i hi
  · rename_i hi; rw [List.getElem?_eq_none (by omega)]

/-- A call that cannot write into the caller's maggies `m` and inverse variances `iv`: the object does not correct, or is not of the
combined class, or the arrays are not 32-bit floats. -/
def Safe (h : Heap α) (F : Fitter α) (m iv : Option View) : Prop :=
  F.abcorrect = false ∨ F.cls ≠ .gst ∨
    ((∀ x ∈ m, ∃ c, h[x.ref]? = some c ∧ c.isF32 = false) ∧ ∀ x ∈ iv, ∃ c, h[x.ref]? = some c ∧ c.isF32 = false)

theorem get_kept {H H' : Heap α} {v : View} (h : H'[v.ref]? = H[v.ref]?) : v.get H' = v.get H := by
  unfold View.get; rw [h]

theorem process_reads (F : Fitter α) {h : Heap α} {z m iv c : Option View} (hz : ArgOk h z) (hm : ArgOk h m) (hiv : ArgOk h iv)
    (hc : ArgOk h c) (hs : Safe h F m iv) :
    Reads h (processH F z m iv c) (processInputs F (argVal h z) (argVal h m) (argVal h iv) (argVal h c)) := by
  intro ext
  cases z with
  | none => exact ⟨ext, rfl⟩
  | some z =>
    rcases tables_step F hz hm hiv hc ext with ⟨e, er, h1, h2⟩ | ⟨e, az, m', iv', c', a, b, d, h1, h2, g1, g2, g3, b1, b2, b3, _, _, f1, f2, f3, _⟩
    · exact ⟨e, by rw [h1, h2]⟩
    · rw [h1, h2]
      unfold finishH finish
      have plainCase : ∀ (m' : Option View) (a : Option (NDA α)), m'.map (fun x => x.get (h ++ e)) = a.map .ok →
          (HM.readOpt m' >>= fun a => HM.readOpt iv' >>= fun b => HM.readOpt c' >>= fun c =>
            (Pure.pure ⟨az.1, az.2, a.map NDA.rows, b.map NDA.rows, c.map NDA.rows⟩ : HM α (Inp α))) (h ++ e) =
          (h ++ e, .ok ⟨az.1, az.2, a.map NDA.rows, b.map NDA.rows, d.map NDA.rows⟩) := by
        intro m' a ha
        rw [hbind_ok (readOpt_ok ha), hbind_ok (readOpt_ok g2), hbind_ok (readOpt_ok g3)]; rfl
      cases hab : F.abcorrect with
      | false => exact ⟨e, plainCase m' a g1⟩
      | true =>
        cases m' with
        | none =>
          cases a with
          | some a => simp at g1
          | none => exact ⟨e, plainCase none none rfl⟩
        | some m' =>
          cases a with
          | none => simp at g1
          | some a =>
            simp only [Option.map_some, Option.some.injEq] at g1
            simp only
            have fresh : F.cls = .gst → (h.length ≤ m'.ref ∧ m'.idx = none) ∧ ∀ x ∈ iv', h.length ≤ x.ref ∧ x.idx = none ∧ m'.ref ≠ x.ref := by
              intro hg
              rcases hs with hs | hs | ⟨s1, s2⟩
              · rw [hab] at hs; cases hs
              · exact absurd hg hs
              · refine ⟨f1 s1 m' rfl, fun x hx => ?_⟩
                obtain ⟨q1, q2, q3⟩ := f2 s2 x hx
                exact ⟨q1, q2, q3 m' rfl⟩
            rcases toAbH_step F.cls m' iv' (h ++ e) a b g1 g2 (b1 m' rfl) b2 (fun hg => ⟨(fresh hg).1.2, fun x hx =>
                ⟨((fresh hg).2 x hx).2.1, Ne.symm ((fresh hg).2 x hx).2.2⟩⟩) with ⟨H', er, t1, t2, t3⟩ | ⟨H', m2, iv2, r, t1, t2, t3, t4, t5, t6, t7⟩
            · exact ⟨e, by rw [hbind_err t1, t2, t3]; rfl⟩
            · rw [hbind_ok t1, hbind_ok (show HM.read (m2, iv2).1 H' = (H', .ok r.maggies) by rw [HM.read, t3]), hbind_ok (readOpt_ok t4)]
              have hc' : c'.map (fun x => x.get H') = d.map .ok := by
                rw [← g3]
                cases c' with
                | none => rfl
                | some x =>
                  simp only [Option.map_some, Option.some.injEq]
                  apply get_kept
                  refine t6 _ (b3 x rfl) ?_
                  intro hg
                  obtain ⟨⟨q1, q2⟩, q3⟩ := fresh hg
                  rcases f3 x rfl with ⟨_, hx⟩ | ⟨x1, x2⟩
                  · refine ⟨by omega, fun y hy => ?_⟩
                    have := (q3 y hy).1; omega
                  · exact ⟨Ne.symm (x1 m' rfl), fun y hy => Ne.symm (x2 y hy)⟩
              rw [hbind_ok (readOpt_ok hc')]
              obtain ⟨e', he'⟩ := kept (h := h) (H := H') (by simp only [List.length_append] at t5; omega) (by
                intro i hi
                rw [t6 i (by simp; omega), List.getElem?_append_left hi]
                intro hg
                obtain ⟨⟨q1, q2⟩, q3⟩ := fresh hg
                refine ⟨by omega, fun y hy => ?_⟩
                have := (q3 y hy).1; omega)
              refine ⟨e', ?_⟩
              rw [t2, ← he']; rfl

theorem Reads.congr {β : Type} {h : Heap α} {x : HM α β} {p q : Py β} (hx : Reads h x p) (e : p = q) : Reads h x q := e ▸ hx

theorem Reads.mapList {β γ : Type} {h : Heap α} {f : β → HM α γ} {g : β → Py γ} : ∀ (l : List β), (∀ b ∈ l, Reads h (f b) (g b)) →
    Reads h (HM.mapList f l) (l.mapM g) := by
  intro l
  induction l with
  | nil => intro _; exact Reads.pure h []
  | cons b t ih =>
    intro hf
    rw [List.mapM_cons]
    exact (hf b (by simp)).bind (fun c _ => (ih (fun x hx => hf x (by simp [hx]))).bind (fun cs _ => Reads.pure h (c :: cs)))

theorem safe_none {h : Heap α} (F : Fitter α) : Safe h F none none := Or.inr (Or.inr ⟨by simp, by simp⟩)

theorem argOk_none {h : Heap α} : ArgOk h none := by intro w hw; cases hw

theorem absmag_reads (K : Kc α) {h : Heap α} {z m iv c d : Option View} (hz : ArgOk h z) (hm : ArgOk h m) (hiv : ArgOk h iv) (hc : ArgOk h c)
    (hd : ArgOk h d) (hs : Safe h K.toFitter m iv) (bs : α) (r l k : Bool) :
    Reads h (K.absmagH m iv z c bs d r l k) (K.absmag (argVal h m) (argVal h iv) (argVal h z) (argVal h c) bs (argVal h d) r l k) :=
  (process_reads K.toFitter hz hm hiv hc hs).bind (fun _ _ => Reads.bind (q := fun d => K.absmagI _ bs d r l k) (Reads.readOpt hd) (fun _ _ => Reads.lift h _))

theorem derived_reads (K : Kc α) {h : Heap α} {z c d : Option View} (hz : ArgOk h z) (hc : ArgOk h c) (hd : ArgOk h d) (g : Reg α) (bs : α) :
    Reads h (K.derivedH g z c bs d) (K.derived g (argVal h z) (argVal h c) bs (argVal h d)) :=
  (process_reads K.toFitter hz argOk_none argOk_none hc (safe_none _)).bind
    (fun _ _ => Reads.bind (q := fun d => K.derivedI g _ bs d) (Reads.readOpt hd) (fun _ _ => Reads.lift h _))

theorem argVal_isNone {h : Heap α} {z : Option View} (hz : ArgOk h z) : (argVal h z).isNone = z.isNone := by
  cases z with
  | none => rfl
  | some z =>
    obtain ⟨_, a, ha⟩ := hz z rfl
    rw [argVal_some ha]; rfl

theorem fit_reads (nnls : Nnls α) (F : Fitter α) {h : Heap α} {z m iv : Option View} (hz : ArgOk h z) (hm : ArgOk h m) (hiv : ArgOk h iv)
    (hs : Safe h F m iv) (mc : Nat) (noise : Nat → Nat → Nat → α) :
    Reads h (F.fitCoeffsH nnls z m iv mc noise) (F.fitCoeffs nnls (argVal h z) (argVal h m) (argVal h iv) mc noise) := by
  unfold Fitter.fitCoeffsH Fitter.fitCoeffs
  rw [argVal_isNone hz]
  cases z with
  | none => exact Reads.lift h _
  | some z =>
    simp only [Option.isNone_some, Bool.false_eq_true, if_false]
    exact (process_reads F hz hm hiv argOk_none hs).bind (fun _ _ => Reads.lift h _)

theorem Reads.step {β γ : Type} {h : Heap α} {x : HM α β} {b : β} {f : β → HM α γ} {p : Py γ} (hx : Reads h x (.ok b))
    (hf : Reads h (f b) p) : Reads h (x >>= f) p := by
  have := Reads.bind hx (q := fun _ => p) (fun c hc => by cases hc; exact hf)
  exact this

theorem Reads.readV {h : Heap α} {v : View} {a : NDA α} (hv : v.ref < h.length) (ha : v.get h = .ok a) : Reads h (HM.read v) (.ok a) :=
  (Reads.read hv).congr ha

/-- an array that exists, with all its slices -/
def RefOk (h : Heap α) (r : Nat) : Prop := ∀ k, ViewOk h ⟨r, some k⟩

theorem sample_read {β : Type} {h : Heap α} {r : Nat} {a : NDA α} (hr : RefOk h r) (ha : (⟨r, none⟩ : View).get h = .ok a) (k : Nat)
    {f : HM α β} {g : NDA α → Py β} (hf : ∀ s, ArgOk h (some ⟨r, some k⟩) → argVal h (some ⟨r, some k⟩) = some s → Reads h f (g s)) :
    Reads h (HM.read ⟨r, some k⟩ >>= fun _ => f) (a.lastIdx k >>= g) := by
  have hl := (hr k).lt
  have hv : (⟨r, some k⟩ : View).get h = a.lastIdx k := by
    simp only [View.get, List.getElem?_eq_getElem hl] at ha ⊢
    cases ha; rfl
  refine Reads.bind ((Reads.read hl).congr hv) (fun s hs => ?_)
  refine hf s ?_ (argVal_some (hv.trans hs))
  intro w hw; cases hw
  exact ⟨hr k, s, hv.trans hs⟩

theorem absmagMc_reads (K : Kc α) {h : Heap α} {mm cm : Nat} {z iv d : Option View} (hz : ArgOk h z) (hiv : ArgOk h iv)
    (hd : ArgOk h d) (hm : RefOk h mm) (hc : RefOk h cm) {am ac : NDA α} (gm : (⟨mm, none⟩ : View).get h = .ok am)
    (gc : (⟨cm, none⟩ : View).get h = .ok ac) (hs : Safe h K.toFitter (some ⟨mm, none⟩) iv) (bs : α) (r kk : Bool) :
    Reads h (K.absmagMcH mm iv z cm bs d r kk) (K.absmagMc am (argVal h iv) (argVal h z) ac bs (argVal h d) r kk) := by
  unfold Kc.absmagMcH Kc.absmagMc
  refine Reads.step (Reads.readV (hc 0).lt gc) (Reads.bind (Reads.lift h _) (fun mc _ => Reads.step (Reads.readV (hm 0).lt gm) ?_))
  cases am with
  | scalar x => by_cases h0 : mc = 0 <;> simp only [h0, if_true, if_false] <;> exact Reads.lift h _
  | arr slot ncol rows =>
    refine (Reads.mapList (List.range mc) (fun k _ => ?_)).bind (fun outs _ => Reads.pure h _)
    refine sample_read hm gm k (fun m am' vm => sample_read hc gc k (fun c ac' vc => ?_))
    have := absmag_reads K hz am' hiv ac' hd ?_ bs r false kk
    · rw [vm, vc] at this
      exact this.bind (fun out _ => Reads.lift h _)
    · rcases hs with hs | hs | ⟨s1, s2⟩
      · exact Or.inl hs
      · exact Or.inr (Or.inl hs)
      · refine Or.inr (Or.inr ⟨?_, s2⟩)
        intro x hx; cases hx; exact s1 ⟨mm, none⟩ rfl

theorem derivedMc_reads (K : Kc α) {h : Heap α} {cm : Nat} {z d : Option View} (hz : ArgOk h z) (hd : ArgOk h d) (hc : RefOk h cm) {ac : NDA α}
    (gc : (⟨cm, none⟩ : View).get h = .ok ac) (g : Reg α) (bs : α) :
    Reads h (K.derivedMcH g z cm bs d) (K.derivedMc g (argVal h z) ac bs (argVal h d)) := by
  unfold Kc.derivedMcH Kc.derivedMc
  refine Reads.step (Reads.readV (hc 0).lt gc) (Reads.bind (Reads.lift h _) (fun mc _ => ?_))
  refine (Reads.mapList (List.range mc) (fun k _ => ?_)).bind (fun ds _ => ?_)
  · refine sample_read hc gc k (fun c ac' vc => ?_)
    have := derived_reads K hz ac' hd g bs
    rwa [vc] at this
  · by_cases h0 : mc = 0
    · simp only [h0, if_true]; exact Reads.pure h _
    · simp only [h0, if_false]; exact Reads.pure h _

/-- the values seen through a view -/
def viewVal (h : Heap α) (v : View) : NDA α := (argVal h (some v)).getD (.scalar (lit 0))

theorem viewVal_get {h : Heap α} {v : View} {a : NDA α} (ha : v.get h = .ok a) : viewVal h v = a := by
  rw [viewVal, argVal_some ha]; rfl

/-- What a call returns if nothing but the values of its arguments matters: the methods of `Verif.Model` on the values that the arrays have
in `h`. -/
def Kc.callV (nnls : Nnls α) (K : Kc α) (h : Heap α) : Call α → Py (Res α)
  | .fit z m iv mc noise => K.toFitter.fitCoeffs nnls (argVal h z) (argVal h m) (argVal h iv) mc noise >>= fun r => .ok (.fit r)
  | .asinh z mag err ext noise => K.fitCoeffsAsinh nnls (argVal h (some z)) (viewVal h mag) (some (viewVal h err)) (argVal h ext) noise >>=
      fun r => .ok (.fit r)
  | .reconstruct z c bs => K.toFitter.reconstruct (argVal h z) (argVal h c) bs >>= fun r => .ok (.arr r)
  | .reconstructOut z c bs => K.reconstructOut (argVal h z) (argVal h c) bs >>= fun r => .ok (.arr r)
  | .kcorrect z c bs => K.kcorrect (argVal h z) (argVal h c) bs >>= fun r => .ok (.arr r)
  | .absmag m iv z c bs d r l k => K.absmag (argVal h m) (argVal h iv) (argVal h z) (argVal h c) bs (argVal h d) r l k >>= fun r => .ok (.ret r)
  | .absmagMc mm iv z cm bs d r kk =>
      K.absmagMc (viewVal h ⟨mm, none⟩) (argVal h iv) (argVal h z) (viewVal h ⟨cm, none⟩) bs (argVal h d) r kk >>= fun r => .ok (.ret r)
  | .derived g z c bs d => K.derived g (argVal h z) (argVal h c) bs (argVal h d) >>= fun r => .ok (.derived r)
  | .derivedMc g z cm bs d => K.derivedMc g (argVal h z) (viewVal h ⟨cm, none⟩) bs (argVal h d) >>= fun r => .ok (.derivedMc r)

/-- The arguments of the call are arrays of the caller, and if the object is a `KcorrectGST` with `abcorrect`, the maggies and inverse
variances are not arrays of 32-bit floats.  `fit_coeffs_asinh` is a method of `KcorrectSDSS` only. -/
def CallOk (h : Heap α) (K : Kc α) : Call α → Prop
  | .fit z m iv _ _ => ArgOk h z ∧ ArgOk h m ∧ ArgOk h iv ∧ Safe h K.toFitter m iv
  | .asinh z mag err ext _ => ArgOk h (some z) ∧ ArgOk h (some mag) ∧ ArgOk h (some err) ∧ ArgOk h ext ∧ K.cls = .sdss ∧
      ∀ r, asinhToMaggies (viewVal h mag) (some (viewVal h err)) (argVal h ext) = .ok r →
        r.maggies.map f32 = r.maggies ∧ ∀ v ∈ r.ivar, v.map f32 = v
  | .reconstruct z c _ => ArgOk h z ∧ ArgOk h c
  | .reconstructOut z c _ => ArgOk h z ∧ ArgOk h c
  | .kcorrect z c _ => ArgOk h z ∧ ArgOk h c
  | .absmag m iv z c _ d _ _ _ => ArgOk h z ∧ ArgOk h m ∧ ArgOk h iv ∧ ArgOk h c ∧ ArgOk h d ∧ Safe h K.toFitter m iv
  | .absmagMc mm iv z cm _ d _ _ => ArgOk h z ∧ ArgOk h iv ∧ ArgOk h d ∧ RefOk h mm ∧ RefOk h cm ∧ Safe h K.toFitter (some ⟨mm, none⟩) iv
  | .derived _ z c _ d => ArgOk h z ∧ ArgOk h c ∧ ArgOk h d
  | .derivedMc _ z cm _ d => ArgOk h z ∧ ArgOk h d ∧ RefOk h cm

theorem RefOk.get {h : Heap α} {r : Nat} (hr : RefOk h r) : (⟨r, none⟩ : View).get h = .ok (viewVal h ⟨r, none⟩) := by
  have hl : r < h.length := (hr 0).lt
  have : (⟨r, none⟩ : View).get h = .ok h[r].val := by simp [View.get, hl]
  rw [viewVal_get this, this]

theorem ArgOk.get {h : Heap α} {v : View} (hv : ArgOk h (some v)) : v.get h = .ok (viewVal h v) := by
  obtain ⟨_, a, ha⟩ := hv v rfl
  rw [viewVal_get ha, ha]

theorem ArgOk.append {h : Heap α} {v : Option View} (hv : ArgOk h v) (e : Heap α) : ArgOk (h ++ e) v ∧ argVal (h ++ e) v = argVal h v := by
  cases v with
  | none => exact ⟨argOk_none, rfl⟩
  | some v =>
    obtain ⟨hok, a, ha⟩ := hv v rfl
    have hg : v.get (h ++ e) = v.get h := get_append hok.lt e
    refine ⟨?_, by simp only [argVal, Option.bind_some, hg]⟩
    intro w hw; cases hw
    obtain ⟨c, hc, h2⟩ := hok
    refine ⟨⟨c, ?_, ?_⟩, a, hg.trans ha⟩
    · rw [List.getElem?_append_left (List.getElem?_eq_some_iff.mp hc).1]; exact hc
    · intro a' ha'; exact h2 a' (hg.symm.trans ha')

theorem ArgOk.last {h : Heap α} {a : NDA α} (ha : a.map f32 = a) :
    ArgOk (h ++ [⟨true, a⟩]) (some ⟨h.length, none⟩) ∧ argVal (h ++ [⟨true, a⟩]) (some ⟨h.length, none⟩) = some a := by
  have hg : (⟨h.length, none⟩ : View).get (h ++ [⟨true, a⟩]) = .ok a := by simp [View.get]
  refine ⟨?_, argVal_some hg⟩
  intro w hw; cases hw
  refine ⟨⟨⟨true, a⟩, by simp, ?_⟩, a, hg⟩
  intro a' ha' _
  rw [hg] at ha'; cases ha'; exact ha

theorem asinh_ivar {a e : NDA α} {x : Option (NDA α)} {r : AbOut α} (h : asinhToMaggies a (some e) x = .ok r) : ∃ v, r.ivar = some v := by
  unfold asinhToMaggies at h
  simp only [bind_ok_iff, require_ok_iff] at h
  obtain ⟨_, h1, _, _, h⟩ := h
  have h1 := h1 (e.map f32) rfl
  cases a with
  | scalar y => cases h
  | arr lead ncol rows =>
    cases e with
    | scalar y => simp [NDA.map, NDA.shape] at h1
    | arr lead' ncol' rows' =>
      simp only [NDA.map, Option.map_some, bind_ok_iff, pure_py] at h
      obtain ⟨_, _, h⟩ := h
      cases h
      exact ⟨_, rfl⟩

theorem asinh_reads (nnls : Nnls α) (K : Kc α) {h : Heap α} {z mag err : View} {ext : Option View} {noise : Nat → Nat → Nat → α}
    (hc : CallOk h K (.asinh z mag err ext noise)) :
    Reads h (K.callH nnls (.asinh z mag err ext noise)) (K.callV nnls h (.asinh z mag err ext noise)) := by
  obtain ⟨hz, hm, he, hx, hcl, hr⟩ := hc
  have hzs : (argVal h (some z)).isNone = false := argVal_isNone hz
  unfold Kc.callH
  refine Reads.step (Reads.readV (hm mag rfl).1.lt hm.get) (Reads.step (Reads.readV (he err rfl).1.lt he.get)
    (Reads.step (Reads.readOpt hx) ?_))
  simp only [Kc.callV, Kc.fitCoeffsAsinh, hzs, Bool.false_eq_true, if_false, bind_assoc]
  refine Reads.bind (Reads.lift h _) (fun r hrr => ?_)
  obtain ⟨v, hv⟩ := asinh_ivar hrr
  obtain ⟨r1, r2⟩ := hr r hrr
  rw [hv]
  intro ext
  obtain ⟨o1, v1⟩ := ArgOk.last (h := h ++ ext) r1
  obtain ⟨o2, v2⟩ := ArgOk.last (h := h ++ ext ++ [⟨true, r.maggies⟩]) (r2 v hv)
  obtain ⟨o3, v3⟩ := o1.append [⟨true, v⟩]
  obtain ⟨o4, v4⟩ := hz.append (ext ++ [⟨true, r.maggies⟩] ++ [⟨true, v⟩])
  simp only [← List.append_assoc] at o4 v4
  have := (fit_reads nnls K.toFitter o4 o3 o2 (Or.inr (Or.inl (by rw [hcl]; simp))) 0 noise).bind (q := fun r => .ok (Res.fit r)) (fun r _ => Reads.pure _ (Res.fit r))
  obtain ⟨e', he'⟩ := this []
  rw [v4, v3, v1, v2, List.append_nil] at he'
  refine ⟨ext ++ [⟨true, r.maggies⟩] ++ [⟨true, v⟩] ++ e', ?_⟩
  simp only [← List.append_assoc]
  exact he'

/-- One call that is `CallOk`. -/
theorem call_reads (nnls : Nnls α) (K : Kc α) {h : Heap α} {c : Call α} (hc : CallOk h K c) : Reads h (K.callH nnls c) (K.callV nnls h c) := by
  cases c with
  | fit z m iv mc noise =>
    obtain ⟨hz, hm, hiv, hs⟩ := hc
    exact (fit_reads nnls K.toFitter hz hm hiv hs mc noise).bind (fun r _ => Reads.pure h _)
  | asinh z mag err ext noise => exact asinh_reads nnls K hc
  | reconstruct z c bs =>
    simp only [Kc.callV, Fitter.reconstruct, reconstructWith, bind_assoc]
    exact (process_reads K.toFitter hc.1 argOk_none argOk_none hc.2 (safe_none _)).bind
      (fun i _ => (Reads.lift h _).bind (fun r _ => Reads.pure h _))
  | reconstructOut z c bs =>
    simp only [Kc.callV, Kc.reconstructOut, reconstructWith, bind_assoc]
    exact (process_reads K.toFitter hc.1 argOk_none argOk_none hc.2 (safe_none _)).bind
      (fun i _ => (Reads.lift h _).bind (fun r _ => Reads.pure h _))
  | kcorrect z c bs =>
    simp only [Kc.callV, Kc.kcorrect, bind_assoc]
    exact (process_reads K.toFitter hc.1 argOk_none argOk_none hc.2 (safe_none _)).bind
      (fun i _ => (Reads.lift h _).bind (fun r _ => Reads.pure h _))
  | absmag m iv z c bs d r l k =>
    obtain ⟨hz, hm, hiv, hcc, hd, hs⟩ := hc
    exact (absmag_reads K hz hm hiv hcc hd hs bs r l k).bind (fun r _ => Reads.pure h _)
  | absmagMc mm iv z cm bs d r kk =>
    obtain ⟨hz, hiv, hd, hm, hcm, hs⟩ := hc
    exact (absmagMc_reads K hz hiv hd hm hcm hm.get hcm.get hs bs r kk).bind (fun r _ => Reads.pure h _)
  | derived g z c bs d => exact (derived_reads K hc.1 hc.2.1 hc.2.2 g bs).bind (fun r _ => Reads.pure h _)
  | derivedMc g z cm bs d =>
    obtain ⟨hz, hd, hcm⟩ := hc
    exact (derivedMc_reads K hz hd hcm hcm.get g bs).bind (fun r _ => Reads.pure h _)

/-- C87 for every history of calls, on any objects, in any order, whether or not calls raise: no array of the caller changes (the heap
afterwards is the caller's arrays followed by temporary ones), and every call returns what it would return on the values that the arrays
had before the first one.  Missing: `KcorrectGST` with `abcorrect=True` and maggies or inverse variances of dtype float32 (`Safe`), for
which it is false (`C87_false`). -/
theorem C87_unchanged_partial (nnls : Nnls α) (calls : List (Kc α × Call α)) (h : Heap α) (hc : ∀ x ∈ calls, CallOk h x.1 x.2) :
    (∃ tmp, (runCalls nnls calls h).1 = h ++ tmp) ∧ (runCalls nnls calls h).2 = calls.map (fun x => x.1.callV nnls h x.2) := by
  suffices H : ∀ ext, (∃ tmp, (runCalls nnls calls (h ++ ext)).1 = h ++ tmp) ∧
      (runCalls nnls calls (h ++ ext)).2 = calls.map (fun x => x.1.callV nnls h x.2) by
    have := H []
    rwa [List.append_nil] at this
  induction calls with
  | nil => intro ext; exact ⟨⟨ext, rfl⟩, rfl⟩
  | cons x t ih =>
    intro ext
    obtain ⟨K, c⟩ := x
    obtain ⟨e, he⟩ := call_reads nnls K (hc (K, c) (by simp)) ext
    obtain ⟨i1, i2⟩ := ih (fun x hx => hc x (by simp [hx])) e
    unfold runCalls
    simp only [he]
    exact ⟨i1, by rw [i2]; rfl⟩

/-- `KcorrectGST` with `abcorrect=True` and arrays of dtype float32: checking the input changes them. -/
theorem gst_step (F : Fitter α) (hg : F.cls = .gst) (hab : F.abcorrect = true) {H : Heap α} {z m iv : View} {c : Option View} {a b : NDA α}
    (hz : ArgOk H (some z)) (hm : ArgOk H (some m)) (hiv : ArgOk H (some iv)) (hc : ArgOk H c) (hmi : m.idx = none) (hivi : iv.idx = none)
    (hne : iv.ref ≠ m.ref) (hma : H[m.ref]? = some ⟨true, a⟩) (hib : H[iv.ref]? = some ⟨true, b⟩)
    (hcr : ∀ x ∈ c, x.ref ≠ m.ref ∧ x.ref ≠ iv.ref) {i : Inp α}
    (hi : processInputs F (argVal H (some z)) (some a) (some b) (argVal H c) = .ok i) :
    ∃ H' r w, processH F (some z) (some m) (some iv) c H = (H', .ok i) ∧ toAb .gst a (some b) = .ok r ∧ r.ivar = some w ∧
      H'[m.ref]? = some ⟨true, r.maggies⟩ ∧ H'[iv.ref]? = some ⟨true, w⟩ ∧ H.length ≤ H'.length ∧
      ∀ j < H.length, j ≠ m.ref → j ≠ iv.ref → H'[j]? = H[j]? := by
  have gm : m.get H = .ok a := by simp [View.get, hma, hmi]
  have gi : iv.get H = .ok b := by simp [View.get, hib, hivi]
  have hi' := hi
  rw [← argVal_some gm, ← argVal_some gi] at hi
  have lm := (List.getElem?_eq_some_iff.mp hma).1
  have li := (List.getElem?_eq_some_iff.mp hib).1
  rcases tables_step F hz hm hiv hc [] with ⟨e, er, h1, h2⟩ | ⟨e, az, m', iv', c', a', b', d, h1, h2, g1, g2, g3, b1, b2, b3, s1, s2, _, _, f3, _⟩
  · rw [hi] at h2; cases h2
  · have hm' := s1 (by intro x hx; cases hx; exact ⟨_, hma, rfl⟩)
    have hiv' := s2 (by intro x hx; cases hx; exact ⟨_, hib, rfl⟩)
    subst hm'; subst hiv'
    rw [List.append_nil] at h1
    have ea : a' = some a := by
      rw [Option.map_some, get_append lm, gm] at g1
      cases a' with
      | none => simp at g1
      | some a' => simp only [Option.map_some, Option.some.injEq, Except.ok.injEq] at g1; rw [g1]
    have eb : b' = some b := by
      rw [Option.map_some, get_append li, gi] at g2
      cases b' with
      | none => simp at g2
      | some b' => simp only [Option.map_some, Option.some.injEq, Except.ok.injEq] at g2; rw [g2]
    subst ea; subst eb
    rw [hi] at h2
    unfold finish at h2
    rw [hab] at h2
    simp only at h2
    rcases toAbH_step F.cls m (some iv) (H ++ e) a (some b) (by rw [get_append lm, gm]) g2 (b1 m rfl) b2
      (fun _ => ⟨hmi, fun x hx => by cases hx; exact ⟨hivi, hne⟩⟩) with ⟨H', er, t1, t2, t3⟩ | ⟨H', m2, iv2, r, t1, t2, t3, t4, t5, t6, t7⟩
    · rw [t2] at h2; cases h2
    · obtain ⟨rfl, rfl, t8⟩ := t7 hg
      rw [t2, ok_bind] at h2
      have hkeep : ∀ j < H.length, j ≠ m2.ref → j ≠ iv.ref → H'[j]? = H[j]? := by
        intro j hj j1 j2
        rw [t6 j (by simp; omega) (fun _ => ⟨j1, fun x hx => by cases hx; exact j2⟩), List.getElem?_append_left hj]
      have hc' : c'.map (fun x => x.get H') = d.map .ok := by
        rw [← g3]
        cases hcc : c' with
        | none => rfl
        | some x =>
          subst hcc
          simp only [Option.map_some, Option.some.injEq]
          apply get_kept
          refine t6 _ (b3 x rfl) (fun _ => ?_)
          rcases f3 x rfl with ⟨hx, _⟩ | ⟨x1, x2⟩
          · obtain ⟨q1, q2⟩ := hcr x hx
            exact ⟨q1, fun y hy => by cases hy; exact q2⟩
          · exact ⟨Ne.symm (x1 _ rfl), fun y hy => Ne.symm (x2 y hy)⟩
      obtain ⟨w, hw⟩ : ∃ w, r.ivar = some w := by
        cases hr : r.ivar with
        | none => rw [hr] at t4; simp at t4
        | some w => exact ⟨w, rfl⟩
      have cellOf : ∀ (v : View) (x : NDA α), v.idx = none → v.ref < H.length → (H[v.ref]?.map Cell.isF32) = some true → v.get H' = .ok x → H'[v.ref]? = some ⟨true, x⟩ := by
        intro v x hv hl hf hx
        have h7 := t8 v.ref (by simp; omega)
        rw [List.getElem?_append_left hl, hf] at h7
        cases hH : H'[v.ref]? with
        | none => rw [hH] at h7; simp at h7
        | some cl =>
          rw [hH] at h7
          simp only [View.get, hH, hv, Except.ok.injEq] at hx
          simp only [Option.map_some, Option.some.injEq] at h7
          cases cl; simp only at hx h7; rw [hx, h7]
      refine ⟨H', r, w, ?_, by rw [← hg]; exact t2, hw, cellOf m2 _ hmi lm (by rw [hma]; rfl) t3, cellOf iv _ hivi li (by rw [hib]; rfl) ?_, ?_, hkeep⟩
      · rw [h1]
        unfold finishH
        rw [hab]
        simp only
        rw [hbind_ok t1, hbind_ok (show HM.read (m2, some iv).1 H' = (H', .ok r.maggies) by rw [HM.read, t3]), hbind_ok (readOpt_ok t4),
          hbind_ok (readOpt_ok hc'), h2]
        rfl
      · rw [hw] at t4; simpa using t4
      · simp only [List.length_append] at t5; omega

theorem ArgOk.agree {h H : Heap α} {v : Option View} (hv : ArgOk h v) (he : ∀ x ∈ v, H[x.ref]? = h[x.ref]?) : ArgOk H v ∧ argVal H v = argVal h v := by
  cases v with
  | none => exact ⟨argOk_none, rfl⟩
  | some v =>
    have hg : v.get H = v.get h := get_kept (he v rfl)
    refine ⟨?_, by simp only [argVal, Option.bind_some, hg]⟩
    intro w hw; cases hw
    obtain ⟨⟨c, hc, h2⟩, a, ha⟩ := hv v rfl
    exact ⟨⟨c, (he v rfl).trans hc, fun a' ha' => h2 a' (hg.symm.trans ha')⟩, a, hg.trans ha⟩

end generic

/-! ### `KcorrectGST` with float32 arrays -/

/-- A call of `fit_coeffs` or `absmag` with redshifts `z`, maggies `m` and inverse variances `iv`, and any other arguments that are neither
of the two last arrays. -/
def GstCall (h : Heap ℝ) (K : Kc ℝ) (z m iv : View) (a b : NDA ℝ) : Call ℝ → Prop
  | .fit z' m' iv' _ _ => z' = some z ∧ m' = some m ∧ iv' = some iv ∧
      ShapesMatch K.responses.length K.templates.nsed (argVal h (some z)) (some a) (some b) none
  | .absmag m' iv' z' c _ d _ _ _ => z' = some z ∧ m' = some m ∧ iv' = some iv ∧ ArgOk h c ∧ ArgOk h d ∧
      (∀ x ∈ c, x.ref ≠ m.ref ∧ x.ref ≠ iv.ref) ∧ (∀ x ∈ d, x.ref ≠ m.ref ∧ x.ref ≠ iv.ref) ∧
      ShapesMatch K.responses.length K.templates.nsed (argVal h (some z)) (some a) (some b) (argVal h c)
  | _ => False

/-- `H` are the arrays `h` (and temporary ones), except that the maggies have been corrected `k` times and the inverse variances too. -/
def Drift (h H : Heap ℝ) (m iv : View) (a b : NDA ℝ) (k : Nat) : Prop :=
  h.length ≤ H.length ∧ (∀ j < h.length, j ≠ m.ref → j ≠ iv.ref → H[j]? = h[j]?) ∧
    ∃ a' b', H[m.ref]? = some ⟨true, a'⟩ ∧ H[iv.ref]? = some ⟨true, b'⟩ ∧ a'.WF ∧ b'.WF ∧ a'.shape = a.shape ∧ b'.shape = b.shape ∧
      (∀ r j, entry a' r j = (entry a r j).map (fun x => x * gstFactor j ^ k)) ∧
      (∀ r j, entry b' r j = (entry b r j).map (fun x => x / gstFactor j ^ (2 * k)))

theorem shapes_congr {nb nt : Nat} {z c : Option (NDA ℝ)} {a b a' b' : NDA ℝ} (ha : a'.shape = a.shape) (hb : b'.shape = b.shape)
    (h : ShapesMatch nb nt z (some a) (some b) c) : ShapesMatch nb nt z (some a') (some b') c := by
  obtain ⟨y, hy, h⟩ := h
  refine ⟨y, hy, ?_⟩
  rcases h with ⟨h1, h2, h3, h4⟩ | ⟨n, h1, h2, h3, h4⟩
  · exact Or.inl ⟨h1, by intro x hx; cases hx; rw [ha]; exact h2 a rfl, by intro x hx; cases hx; rw [hb]; exact h3 b rfl, h4⟩
  · exact Or.inr ⟨n, h1, by intro x hx; cases hx; rw [ha]; exact h2 a rfl, by intro x hx; cases hx; rw [hb]; exact h3 b rfl, h4⟩

theorem shapes_last {nb nt : Nat} {z c : Option (NDA ℝ)} {a b : NDA ℝ} (h : ShapesMatch nb nt z (some a) (some b) c) :
    b.shape = a.shape ∧ lastAxis a nb := by
  obtain ⟨y, hy, h⟩ := h
  rcases h with ⟨h1, h2, h3, h4⟩ | ⟨n, h1, h2, h3, h4⟩ <;> rw [h3 b rfl, lastAxis, h2 a rfl] <;> exact ⟨rfl, rfl⟩

/-- one processing of the input -/
theorem drift_process {K : Kc ℝ} (hg : K.cls = .gst) (hab : K.abcorrect = true) (hn : 7 ≤ K.responses.length) {h H : Heap ℝ} {z m iv : View}
    {c : Option View} {a b : NDA ℝ} {k : Nat} (hz : ArgOk h (some z)) (hzw : ∀ x ∈ argVal h (some z), x.WF) (hzm : z.ref ≠ m.ref ∧ z.ref ≠ iv.ref)
    (hmi : m.idx = none) (hivi : iv.idx = none) (hne : iv.ref ≠ m.ref) (hc : ArgOk h c) (hcr : ∀ x ∈ c, x.ref ≠ m.ref ∧ x.ref ≠ iv.ref)
    (hs : ShapesMatch K.responses.length K.templates.nsed (argVal h (some z)) (some a) (some b) (argVal h c)) (hd : Drift h H m iv a b k) :
    ∃ H' i, processH K.toFitter (some z) (some m) (some iv) c H = (H', .ok i) ∧
      processInputs K.toFitter (argVal H (some z)) (argVal H (some m)) (argVal H (some iv)) (argVal H c) = .ok i ∧ Drift h H' m iv a b (k + 1) := by
  obtain ⟨d1, d2, a', b', d3, d4, d5, d6, d7, d8, d9, d10⟩ := hd
  have gm : m.get H = .ok a' := by simp [View.get, d3, hmi]
  have gi : iv.get H = .ok b' := by simp [View.get, d4, hivi]
  have hkeep : ∀ {v : Option View}, ArgOk h v → (∀ x ∈ v, x.ref ≠ m.ref ∧ x.ref ≠ iv.ref) → ArgOk H v ∧ argVal H v = argVal h v := by
    intro v hv hr
    exact hv.agree (fun x hx => d2 _ (hv x hx).1.lt (hr x hx).1 (hr x hx).2)
  obtain ⟨kz, vz⟩ := hkeep hz (by intro x hx; cases hx; exact hzm)
  obtain ⟨kc, vc⟩ := hkeep hc hcr
  have hs' := shapes_congr d7 d8 hs
  obtain ⟨e1, e2⟩ := shapes_last hs'
  have heff := process_eff K.toFitter (argVal h (some z)) a' (some b') (argVal h c) hzw hs'
  obtain ⟨out, w, c1, c2, c3, c4, c5, c6, c7⟩ := C88_gst_partial a' b' d5 d6 e1 _ e2 hn
  have hcls : K.toFitter.abCls = .gst := by rw [Fitter.abCls, hab, hg]; rfl
  rw [hcls, c1, ok_bind] at heff
  have hok : ∃ i, processInputs K.toFitter.plain (argVal h (some z)) (some out) (some w) (argVal h c) = .ok i := by
    exact C53_match_accepted K.toFitter.plain (Or.inl rfl) _ _ _ _ hzw (shapes_congr c4 (c5.trans e1.symm) hs')
  obtain ⟨i, hi⟩ := hok
  have hi2 : processInputs K.toFitter (argVal H (some z)) (some a') (some b') (argVal H c) = .ok i := by
    rw [vz, vc, heff]; exact hi
  obtain ⟨H', r, w', p1, p2, p3, p4, p5, p6, p7⟩ := gst_step K.toFitter hg hab kz
    (by intro x hx; cases hx; exact ⟨⟨_, d3, fun y _ _ => map_f32_real y⟩, a', gm⟩)
    (by intro x hx; cases hx; exact ⟨⟨_, d4, fun y _ _ => map_f32_real y⟩, b', gi⟩) kc hmi hivi hne d3 d4 hcr hi2
  rw [c1] at p2
  cases p2
  cases p3
  refine ⟨H', i, p1, by rw [argVal_some gm, argVal_some gi]; exact hi2, by omega, ?_, out, w, p4, p5, c2, c3, c4.trans d7, (c5.trans e1.symm).trans d8, ?_, ?_⟩
  · intro j hj j1 j2
    rw [p7 j (by omega) j1 j2, d2 j hj j1 j2]
  · intro r j
    rw [c6, d9, Option.map_map]
    congr 1
    funext x
    simp only [Function.comp]
    ring
  · intro r j
    rw [c7, d10, Option.map_map]
    congr 1
    funext x
    simp only [Function.comp]
    rw [div_div, ← pow_add]
    ring_nf

/-- one call -/
theorem drift_call (nnls : Nnls ℝ) {K : Kc ℝ} (hg : K.cls = .gst) (hab : K.abcorrect = true) (hn : 7 ≤ K.responses.length) {h H : Heap ℝ} {z m iv : View}
    {a b : NDA ℝ} {k : Nat} (hz : ArgOk h (some z)) (hzw : ∀ x ∈ argVal h (some z), x.WF) (hzm : z.ref ≠ m.ref ∧ z.ref ≠ iv.ref)
    (hmi : m.idx = none) (hivi : iv.idx = none) (hne : iv.ref ≠ m.ref) {c : Call ℝ} (hc : GstCall h K z m iv a b c) (hd : Drift h H m iv a b k) :
    ∃ H', K.callH nnls c H = (H', K.callV nnls H c) ∧ Drift h H' m iv a b (k + 1) := by
  cases c with
  | fit z' m' iv' mc noise =>
    obtain ⟨rfl, rfl, rfl, hs⟩ := hc
    obtain ⟨H', i, p1, p2, p3⟩ := drift_process hg hab hn hz hzw hzm hmi hivi hne argOk_none (by simp) hs hd
    refine ⟨H', ?_, p3⟩
    have p2' : processInputs K.toFitter (argVal H (some z)) (argVal H (some m)) (argVal H (some iv)) none = .ok i := p2
    have hzs : (argVal H (some z)).isNone = false := by
      have hok := hz.agree (H := H) (fun x hx => by cases hx; exact hd.2.1 _ (hz z rfl).1.lt hzm.1 hzm.2)
      exact argVal_isNone hok.1
    have e1 : K.toFitter.fitCoeffsH nnls (some z) (some m) (some iv) mc noise H = (H', Fitter.fitCoeffsI nnls K.toFitter i mc noise) := by
      unfold Fitter.fitCoeffsH
      simp only [Option.isNone_some, Bool.false_eq_true, if_false]
      rw [hbind_ok p1]; rfl
    have e2 : K.toFitter.fitCoeffs nnls (argVal H (some z)) (argVal H (some m)) (argVal H (some iv)) mc noise =
        Fitter.fitCoeffsI nnls K.toFitter i mc noise := by
      unfold Fitter.fitCoeffs
      simp only [hzs, Bool.false_eq_true, if_false, p2', ok_bind]
    show (K.toFitter.fitCoeffsH nnls (some z) (some m) (some iv) mc noise >>= fun r => pure (Res.fit r)) H =
      (H', K.toFitter.fitCoeffs nnls (argVal H (some z)) (argVal H (some m)) (argVal H (some iv)) mc noise >>= fun r => .ok (.fit r))
    rw [e2]
    cases hf : Fitter.fitCoeffsI nnls K.toFitter i mc noise with
    | error e => rw [hbind_err (by rw [e1, hf])]; rfl
    | ok r => rw [hbind_ok (by rw [e1, hf])]; rfl
  | absmag m' iv' z' c bs d r l kk =>
    obtain ⟨rfl, rfl, rfl, oc, od, rc, rd, hs⟩ := hc
    obtain ⟨H', i, p1, p2, p3⟩ := drift_process hg hab hn hz hzw hzm hmi hivi hne oc rc hs hd
    refine ⟨H', ?_, p3⟩
    have agree : ∀ {G : Heap ℝ} {n : Nat}, Drift h G m iv a b n → ArgOk G d ∧ argVal G d = argVal h d := fun hG =>
      od.agree (fun x hx => hG.2.1 _ (od x hx).1.lt (rd x hx).1 (rd x hx).2)
    have hro : HM.readOpt d H' = (H', .ok (argVal H d)) := by
      obtain ⟨o, v⟩ := agree p3
      obtain ⟨e, he⟩ := Reads.readOpt o []
      rw [(agree hd).2, ← v]
      cases d with
      | none => rfl
      | some d =>
        obtain ⟨_, x, hx⟩ := o d rfl
        show (HM.read d >>= fun x => pure (some x)) H' = _
        rw [hbind_ok (show HM.read d H' = (H', .ok x) by rw [HM.read, hx]), argVal_some hx]; rfl
    have e1 : K.absmagH (some m) (some iv) (some z) c bs d r l kk H = (H', K.absmagI i bs (argVal H d) r l kk) := by
      unfold Kc.absmagH
      rw [hbind_ok p1, hbind_ok hro]; rfl
    have e2 : K.absmag (argVal H (some m)) (argVal H (some iv)) (argVal H (some z)) (argVal H c) bs (argVal H d) r l kk =
        K.absmagI i bs (argVal H d) r l kk := by
      unfold Kc.absmag
      rw [p2, ok_bind]
    show (K.absmagH (some m) (some iv) (some z) c bs d r l kk >>= fun r => pure (Res.ret r)) H =
      (H', K.absmag (argVal H (some m)) (argVal H (some iv)) (argVal H (some z)) (argVal H c) bs (argVal H d) r l kk >>= fun r => .ok (.ret r))
    rw [e2]
    cases hf : K.absmagI i bs (argVal H d) r l kk with
    | error e => rw [hbind_err (by rw [e1, hf])]; rfl
    | ok r => rw [hbind_ok (by rw [e1, hf])]; rfl
  | asinh => exact hc.elim
  | reconstruct => exact hc.elim
  | reconstructOut => exact hc.elim
  | kcorrect => exact hc.elim
  | absmagMc => exact hc.elim
  | derived => exact hc.elim
  | derivedMc => exact hc.elim

/-- What happens in the case that `C87_unchanged_partial` leaves out: a `KcorrectGST` object with `abcorrect=True`, maggies and inverse
variances of dtype float32.  Every call of `fit_coeffs` or `absmag` multiplies the caller's maggies by the AB factors and divides the
inverse variances by their squares, so after any `n` calls they have been corrected `n` times; no other array changes. -/
theorem C87_compounds (nnls : Nnls ℝ) (K : Kc ℝ) (hg : K.cls = .gst) (hab : K.abcorrect = true) (hn : 7 ≤ K.responses.length) (h : Heap ℝ)
    (z m iv : View) (a b : NDA ℝ) (hz : ArgOk h (some z)) (hzw : ∀ x ∈ argVal h (some z), x.WF) (hzm : z.ref ≠ m.ref ∧ z.ref ≠ iv.ref)
    (hmi : m.idx = none) (hivi : iv.idx = none) (hne : iv.ref ≠ m.ref) (hm : h[m.ref]? = some ⟨true, a⟩) (hiv : h[iv.ref]? = some ⟨true, b⟩)
    (ha : a.WF) (hb : b.WF) (calls : List (Call ℝ)) (hc : ∀ c ∈ calls, GstCall h K z m iv a b c) :
    Drift h (runCalls nnls (calls.map (fun c => (K, c))) h).1 m iv a b calls.length := by
  suffices H : ∀ G k, Drift h G m iv a b k → Drift h (runCalls nnls (calls.map (fun c => (K, c))) G).1 m iv a b (k + calls.length) by
    have := H h 0 ⟨le_refl _, fun _ _ _ _ => rfl, a, b, hm, hiv, ha, hb, rfl, rfl, by intro r j; simp, by intro r j; simp⟩
    rwa [Nat.zero_add] at this
  induction calls with
  | nil => intro G k hG; exact hG
  | cons c t ih =>
    intro G k hG
    obtain ⟨G', g1, g2⟩ := drift_call nnls hg hab hn hz hzw hzm hmi hivi hne (hc c (by simp)) hG
    have := ih (fun x hx => hc x (by simp [hx])) G' (k + 1) g2
    rw [List.map_cons, runCalls, g1]
    rw [List.length_cons, show k + (t.length + 1) = k + 1 + t.length by omega]
    exact this

theorem Drift.vec {h H : Heap ℝ} {m iv : View} {a b : List ℝ} {k : Nat} (hd : Drift h H m iv (.vec a) (.vec b) k) (hmi : m.idx = none) (hivi : iv.idx = none) :
    argVal H (some m) = some (.vec (a.mapIdx (fun j x => x * gstFactor j ^ k))) ∧
      argVal H (some iv) = some (.vec (b.mapIdx (fun j x => x / gstFactor j ^ (2 * k)))) := by
  have hent : ∀ (l : List ℝ) (j : Nat), entry (NDA.vec l) 0 j = l[j]? := fun _ _ => rfl
  have hsh : ∀ l : List ℝ, (NDA.vec l).shape = [l.length] := fun _ => rfl
  obtain ⟨_, _, a', b', d3, d4, d5, d6, d7, d8, d9, d10⟩ := hd
  refine ⟨?_, ?_⟩
  · rw [argVal_some (show m.get H = .ok a' by simp [View.get, d3, hmi])]
    congr 1
    apply vec_ext d5 (by rw [d7, hsh]; simp)
    intro j
    rw [d9, hent, List.getElem?_mapIdx]
  · rw [argVal_some (show iv.get H = .ok b' by simp [View.get, d4, hivi])]
    congr 1
    apply vec_ext d6 (by rw [d8, hsh]; simp)
    intro j
    rw [d10, hent, List.getElem?_mapIdx]

theorem gstFactor_pos (j : Nat) : 0 < gstFactor j := Real.rpow_pos_of_pos (by norm_num) _

theorem mag_drift (x : ℝ) (hx : 0 < x) (j k : Nat) : mag (x * gstFactor j ^ k) = mag x + k * gstOffset j := by
  induction k with
  | zero => simp
  | succ k ih =>
    have h1 : 0 < x * gstFactor j ^ k := mul_pos hx (pow_pos (gstFactor_pos j) k)
    have := mag_factor .gst j _ h1
    rw [show abFactor .gst j = gstFactor j from rfl] at this
    rw [pow_succ, ← mul_assoc, this, ih, show abOffset .gst j = gstOffset j from rfl]
    push_cast; ring

theorem runCalls_at {α : Type} [Arith α] (nnls : Nnls α) : ∀ (l : List (Kc α × Call α)) (h : Heap α) (n : Nat) (x : Kc α × Call α), l[n]? = some x →
    (runCalls nnls l h).2[n]? = some (x.1.callH nnls x.2 (runCalls nnls (l.take n) h).1).2 := by
  intro l
  induction l with
  | nil => intro h n x hx; simp at hx
  | cons y t ih =>
    intro h n x hx
    obtain ⟨K, c⟩ := y
    cases n with
    | zero => simp only [List.getElem?_cons_zero, Option.some.injEq] at hx; subst hx; rfl
    | succ n =>
      rw [List.getElem?_cons_succ] at hx
      rw [runCalls, List.take_succ_cons, runCalls]
      simp only [List.getElem?_cons_succ]
      exact ih _ n x hx

/-- The absolute magnitudes of one object drift: after `n` calls with the same arrays, `absmag` returns `n` times the AB offset more than the
first time, in every band with positive flux and inverse variance. -/
theorem C87_drift (nnls : Nnls ℝ) (K : Kc ℝ) (hg : K.cls = .gst) (hab : K.abcorrect = true) (hn : 7 ≤ K.responses.length) (A Ao : AMat ℝ)
    (hA : K.Amatrix = some A) (hAo : K.AmatrixOut = some Ao) (z : ℝ) (m iv c : List ℝ) (hm : m.length = K.responses.length)
    (hiv : iv.length = K.responses.length) (hc : c.length = K.templates.nsed) (bs : ℝ) (k : NDA ℝ)
    (hk : K.kcorrect (some (.scalar z)) (some (.vec c)) bs = .ok k) (n : Nat) (f : Bool) :
    ∃ first last,
      (runCalls nnls (List.replicate (n + 1) (K, .absmag (some ⟨0, none⟩) (some ⟨1, none⟩) (some ⟨2, none⟩) (some ⟨3, none⟩) bs none false false false))
        [⟨true, .vec m⟩, ⟨true, .vec iv⟩, ⟨f, .scalar z⟩, ⟨f, .vec c⟩]).2[0]? = some (.ok (.ret (.one first))) ∧
      (runCalls nnls (List.replicate (n + 1) (K, .absmag (some ⟨0, none⟩) (some ⟨1, none⟩) (some ⟨2, none⟩) (some ⟨3, none⟩) bs none false false false))
        [⟨true, .vec m⟩, ⟨true, .vec iv⟩, ⟨f, .scalar z⟩, ⟨f, .vec c⟩]).2[n]? = some (.ok (.ret (.one last))) ∧
      ∀ (j i : Nat) mv v kv, K.imap[j]? = some i → m[i]? = some mv → iv[i]? = some v → 0 < mv → 0 < v → entry k 0 j = some kv →
        ∃ x, entry first 0 j = some x ∧ entry last 0 j = some (x + n * gstOffset i) := by
  generalize hcall : (Call.absmag (some ⟨0, none⟩) (some ⟨1, none⟩) (some ⟨2, none⟩) (some ⟨3, none⟩) bs none false false false : Call ℝ) = call
  generalize hh : ([⟨true, .vec m⟩, ⟨true, .vec iv⟩, ⟨f, .scalar z⟩, ⟨f, .vec c⟩] : Heap ℝ) = h
  have o2 : ArgOk h (some ⟨2, none⟩) := by
    subst hh; intro w hw; cases hw; exact ⟨⟨_, rfl, fun y _ _ => map_f32_real y⟩, _, rfl⟩
  have o3 : ArgOk h (some ⟨3, none⟩) := by
    subst hh; intro w hw; cases hw; exact ⟨⟨_, rfl, fun y _ _ => map_f32_real y⟩, _, rfl⟩
  have v2 : argVal h (some ⟨2, none⟩) = some (.scalar z) := by subst hh; rfl
  have v3 : argVal h (some ⟨3, none⟩) = some (.vec c) := by subst hh; rfl
  have hgc : GstCall h K ⟨2, none⟩ ⟨0, none⟩ ⟨1, none⟩ (.vec m) (.vec iv) call := by
    subst hcall
    refine ⟨rfl, rfl, rfl, o3, argOk_none, by intro x hx; cases hx; simp, by simp, ?_⟩
    rw [v2, v3]
    exact shapes_one z m iv (some c) hm hiv (by intro l hl; cases hl; exact hc)
  have hwf : ∀ l : List ℝ, (NDA.vec l).WF := fun l => ⟨by simp, by simp⟩
  have hcls : K.abCls = .gst := by show Fitter.abCls _ = _; rw [Fitter.abCls, hab, hg]; rfl
  have hr : AbReady K.abCls K.responses.length := by rw [hcls]; exact hn
  -- the call after `q` calls
  have key : ∀ q : Nat, q ≤ n → ∃ out, (runCalls nnls (List.replicate (n + 1) (K, call)) h).2[q]? = some (.ok (.ret (.one out))) ∧
      K.absmag (some (.vec (m.mapIdx (fun j x => x * gstFactor j ^ q)))) (some (.vec (iv.mapIdx (fun j x => x / gstFactor j ^ (2 * q)))))
        (some (.scalar z)) (some (.vec c)) bs none false false false = .ok (.one out) := by
    intro q hq
    have hd := C87_compounds nnls K hg hab hn h ⟨2, none⟩ ⟨0, none⟩ ⟨1, none⟩ (.vec m) (.vec iv) o2 (by rw [v2]; intro x hx; cases hx; trivial)
      (by simp) rfl rfl (by simp) (by subst hh; rfl) (by subst hh; rfl) (hwf m) (hwf iv) (List.replicate q call)
      (by intro x hx; rw [List.eq_of_mem_replicate hx]; exact hgc)
    rw [List.map_replicate, List.length_replicate] at hd
    obtain ⟨e1, e2⟩ := hd.vec rfl rfl
    have hag : ∀ v : View, ArgOk h (some v) → v.ref ≠ 0 → v.ref ≠ 1 → argVal (runCalls nnls (List.replicate q (K, call)) h).1 (some v) = argVal h (some v) :=
      fun v ov h0 h1 => (ov.agree (fun x hx => by cases hx; exact hd.2.1 _ (ov v rfl).1.lt h0 h1)).2
    have e3 := hag _ o2 (by simp) (by simp)
    have e4 := hag _ o3 (by simp) (by simp)
    obtain ⟨H', g1, _⟩ := drift_call nnls hg hab hn o2 (by rw [v2]; intro x hx; cases hx; trivial) (by simp) rfl rfl (by simp) hgc hd
    have hat := runCalls_at nnls (List.replicate (n + 1) (K, call)) h q (K, call) (by rw [List.getElem?_replicate, if_pos (by omega)])
    rw [List.take_replicate, min_eq_left (by omega)] at hat
    rw [hat, g1]
    obtain ⟨out, ho⟩ := (C70_corrected_partial K hr A Ao hA hAo z (m.mapIdx (fun j x => x * gstFactor j ^ q))
      (iv.mapIdx (fun j x => x / gstFactor j ^ (2 * q))) c (by rw [List.length_mapIdx]; exact hm) (by rw [List.length_mapIdx]; exact hiv) hc bs none (by simp)).1.mpr ⟨k, hk⟩
    refine ⟨out, ?_, ho⟩
    subst hcall
    simp only [Kc.callV]
    rw [e1, e2, e3, e4, v2, v3]
    have ho' : K.absmag (some (.vec (m.mapIdx (fun j x => x * gstFactor j ^ q)))) (some (.vec (iv.mapIdx (fun j x => x / gstFactor j ^ (2 * q)))))
        (some (.scalar z)) (some (.vec c)) bs (argVal (runCalls nnls (List.replicate q (K, .absmag (some ⟨0, none⟩) (some ⟨1, none⟩) (some ⟨2, none⟩)
          (some ⟨3, none⟩) bs none false false false)) h).1 none) false false false = .ok (.one out) := ho
    rw [ho']; rfl
  obtain ⟨first, f1, f2⟩ := key 0 (by omega)
  obtain ⟨last, l1, l2⟩ := key n (le_refl n)
  refine ⟨first, last, f1, l1, ?_⟩
  intro j i mv v kv hj hmi hvi h0 hv hkv
  have form : ∀ (q : Nat) (out : NDA ℝ), K.absmag (some (.vec (m.mapIdx (fun j x => x * gstFactor j ^ q)))) (some (.vec (iv.mapIdx (fun j x => x / gstFactor j ^ (2 * q)))))
        (some (.scalar z)) (some (.vec c)) bs none false false false = .ok (.one out) → out.shape = k.shape ∧ ∀ kv, entry k 0 j = some kv →
        entry out 0 j = some (mag mv + q * gstOffset i + gstOffset i - dmSpec K.distmod z none - kv) := by
    intro q out ho
    obtain ⟨s1, s2⟩ := (C70_corrected_partial K hr A Ao hA hAo z (m.mapIdx (fun j x => x * gstFactor j ^ q))
      (iv.mapIdx (fun j x => x / gstFactor j ^ (2 * q))) c (by rw [List.length_mapIdx]; exact hm) (by rw [List.length_mapIdx]; exact hiv) hc bs none (by simp)).2 out k ho hk
    refine ⟨s1, fun kv hkv => ?_⟩
    rw [s2 j i (mv * gstFactor i ^ q) (v / gstFactor i ^ (2 * q)) kv hj (by rw [List.getElem?_mapIdx, hmi]; rfl) (by rw [List.getElem?_mapIdx, hvi]; rfl) hkv,
      if_pos ⟨mul_pos h0 (pow_pos (gstFactor_pos i) q), div_pos hv (pow_pos (gstFactor_pos i) _)⟩, mag_drift mv h0, hcls]
    rfl
  refine ⟨_, (form 0 first f2).2 kv hkv, ?_⟩
  rw [(form n last l2).2 kv hkv]
  congr 1
  push_cast
  ring

/-! ### A concrete object -/

noncomputable def demoAm7 : AMat ℝ := ⟨[0, 1], [[[1], [1], [1], [1], [1], [1], [1]], [[2], [2], [2], [1], [1], [1], [1]]], 7, 1⟩

theorem demoAm7_good : demoAm7.Good :=
  ⟨by simp [demoAm7], by simp [demoAm7], by simp [demoAm7], by simp [demoAm7, Shaped]⟩

theorem demoAm7_at0 : demoAm7.at 0 = .ok [[1], [1], [1], [1], [1], [1], [1]] := at_node (k := 0) demoAm7_good (by simp [demoAm7])

/-- `KcorrectGST(responses=['F', 'N', 'u', 'g', 'r', 'i', 'z'], abcorrect=True, redshift_range=[0., 1.], nredshift=2)` with one template -/
noncomputable def demoGst : Kc ℝ :=
  ⟨{ Fitter.mk' .gst [['F'], ['N'], ['u'], ['g'], ['r'], ['i'], ['z']] (.template demoTmpl5) 0 1 2 true with Amatrix := some demoAm7, redshifts := [0, 1] },
    [['F'], ['N'], ['u'], ['g'], ['r'], ['i'], ['z']], [['F'], ['N'], ['u'], ['g'], ['r'], ['i'], ['z']], some demoAm7, [0, 1, 2, 3, 4, 5, 6], fun z => z⟩

theorem demoGst_k : ∃ k kv, demoGst.kcorrect (some (.scalar 0)) (some (.vec [1])) 0 = .ok k ∧ entry k 0 2 = some kv := by
  rw [kcorrect_real (K := demoGst) (A := demoAm7) (Ao := demoAm7) rfl rfl 0 [1] rfl]
  unfold kReal
  rw [demoAm7_at0]
  simp only [ok_bind, kRow]
  split
  · exact ⟨_, _, rfl, rfl⟩
  · exact ⟨_, _, rfl, rfl⟩

/-- C87 is false: two calls of `absmag` on a `KcorrectGST` object with the same float32 arrays (maggies and inverse variances of 1 in every
band) change the array of maggies, and the second returns a u magnitude that is 0.036 mag brighter than the first. -/
theorem C87_false (nnls : Nnls ℝ) :
    ∃ (K : Kc ℝ) (c : Call ℝ) (h : Heap ℝ),
      (∃ first second x, (runCalls nnls [(K, c), (K, c)] h).2 = [.ok (.ret (.one first)), .ok (.ret (.one second))] ∧
        entry first 0 2 = some x ∧ entry second 0 2 = some (x - 0.036)) ∧
      h[0]? = some ⟨true, .vec [1, 1, 1, 1, 1, 1, 1]⟩ ∧
      ∃ a, (runCalls nnls [(K, c), (K, c)] h).1[0]? = some ⟨true, a⟩ ∧ entry a 0 2 ≠ some 1 := by
  obtain ⟨k, kv, hk, hkv⟩ := demoGst_k
  refine ⟨demoGst, .absmag (some ⟨0, none⟩) (some ⟨1, none⟩) (some ⟨2, none⟩) (some ⟨3, none⟩) 0 none false false false,
    [⟨true, .vec [1, 1, 1, 1, 1, 1, 1]⟩, ⟨true, .vec [1, 1, 1, 1, 1, 1, 1]⟩, ⟨false, .scalar 0⟩, ⟨false, .vec [1]⟩], ?_, rfl, ?_⟩
  · obtain ⟨first, last, h1, h2, h3⟩ := C87_drift nnls demoGst rfl rfl (by show 7 ≤ 7; omega) demoAm7 demoAm7 rfl rfl 0 [1, 1, 1, 1, 1, 1, 1] [1, 1, 1, 1, 1, 1, 1] [1]
      rfl rfl rfl 0 k hk 1 false
    obtain ⟨x, hx1, hx2⟩ := h3 2 2 1 1 kv rfl rfl rfl one_pos one_pos hkv
    refine ⟨first, last, x, ?_, hx1, ?_⟩
    · simp only [List.replicate, runCalls] at h1 h2 ⊢
      simp only [List.getElem?_cons_zero, List.getElem?_cons_succ, Option.some.injEq] at h1 h2
      rw [h1, h2]
    · rw [hx2]
      have : gstOffset 2 = -0.036 := by simp [gstOffset]
      rw [this]
      congr 1
      push_cast
      ring
  · have hd := C87_compounds nnls demoGst rfl rfl (by show 7 ≤ 7; omega)
      [⟨true, .vec [1, 1, 1, 1, 1, 1, 1]⟩, ⟨true, .vec [1, 1, 1, 1, 1, 1, 1]⟩, ⟨false, .scalar 0⟩, ⟨false, .vec [1]⟩] ⟨2, none⟩ ⟨0, none⟩ ⟨1, none⟩
      (.vec [1, 1, 1, 1, 1, 1, 1]) (.vec [1, 1, 1, 1, 1, 1, 1]) (by intro w hw; cases hw; exact ⟨⟨_, rfl, fun y _ _ => map_f32_real y⟩, _, rfl⟩)
      (by intro x hx; cases hx; trivial) (by simp) rfl rfl (by simp) rfl rfl ⟨by simp, by simp⟩ ⟨by simp, by simp⟩
      [.absmag (some ⟨0, none⟩) (some ⟨1, none⟩) (some ⟨2, none⟩) (some ⟨3, none⟩) 0 none false false false,
        .absmag (some ⟨0, none⟩) (some ⟨1, none⟩) (some ⟨2, none⟩) (some ⟨3, none⟩) 0 none false false false]
      (by
        intro c hc
        have : c = .absmag (some ⟨0, none⟩) (some ⟨1, none⟩) (some ⟨2, none⟩) (some ⟨3, none⟩) 0 none false false false := by simpa using hc
        subst this
        refine ⟨rfl, rfl, rfl, ?_, argOk_none, by intro x hx; cases hx; simp, by simp, ?_⟩
        · intro w hw; cases hw; exact ⟨⟨_, rfl, fun y _ _ => map_f32_real y⟩, _, rfl⟩
        · exact shapes_one 0 [1, 1, 1, 1, 1, 1, 1] [1, 1, 1, 1, 1, 1, 1] (some [1]) rfl rfl (by intro l hl; cases hl; rfl))
    obtain ⟨_, _, a, b, d3, _, _, _, _, _, d9, _⟩ := hd
    refine ⟨a, d3, ?_⟩
    rw [d9]
    show some (1 * gstFactor 2 ^ 2) ≠ some 1
    have h1 : (1 : ℝ) < gstFactor 2 := by
      unfold gstFactor
      apply Real.one_lt_rpow (by norm_num)
      simp only [gstOffset]; norm_num
    intro h
    simp only [Option.some.injEq, one_mul] at h
    nlinarith

/-! ### Not vacuous -/

/-- C87_unchanged_partial: a fit and absolute magnitudes of the SDSS object with `abcorrect` and float32 arrays, then absolute magnitudes of the
GST object with float64 arrays. -/
example : ∀ x ∈ ([(demoSdss, .fit (some ⟨2, none⟩) (some ⟨0, none⟩) (some ⟨0, none⟩) 0 (fun _ _ _ => 0)),
      (demoSdss, .absmag (some ⟨0, none⟩) (some ⟨0, none⟩) (some ⟨2, none⟩) (some ⟨3, none⟩) 0 none true true true),
      (demoGst, .absmag (some ⟨1, none⟩) (some ⟨1, none⟩) (some ⟨2, none⟩) (some ⟨3, none⟩) 0 none false false false),
      (demoSdss, .derivedMc (fun _ => none) (some ⟨2, none⟩) 4 0 none)] : List (Kc ℝ × Call ℝ)),
    CallOk [⟨true, .vec [1, 1, 1, 1, 1]⟩, ⟨false, .vec [1, 1, 1, 1, 1, 1, 1]⟩, ⟨false, .scalar 0⟩, ⟨false, .vec [1]⟩, ⟨false, .arr [1] 3 [[1, 1, 1]]⟩] x.1 x.2 := by
  intro x hx
  have ok : ∀ (r : Nat), r < 5 → ArgOk [⟨true, .vec [1, 1, 1, 1, 1]⟩, ⟨false, .vec [1, 1, 1, 1, 1, 1, 1]⟩, ⟨false, .scalar 0⟩, ⟨false, .vec [(1 : ℝ)]⟩,
      ⟨false, .arr [1] 3 [[1, 1, 1]]⟩] (some ⟨r, none⟩) := by
    intro r hr w hw; cases hw
    interval_cases r <;> exact ⟨⟨_, rfl, fun y _ _ => map_f32_real y⟩, _, rfl⟩
  simp only [List.mem_cons, List.not_mem_nil, or_false] at hx
  rcases hx with rfl | rfl | rfl | rfl
  · exact ⟨ok 2 (by omega), ok 0 (by omega), ok 0 (by omega), Or.inr (Or.inl (by simp [demoSdss, Fitter.mk']))⟩
  · exact ⟨ok 2 (by omega), ok 0 (by omega), ok 0 (by omega), ok 3 (by omega), argOk_none, Or.inr (Or.inl (by simp [demoSdss, Fitter.mk']))⟩
  · refine ⟨ok 2 (by omega), ok 1 (by omega), ok 1 (by omega), ok 3 (by omega), argOk_none, Or.inr (Or.inr ⟨?_, ?_⟩)⟩ <;>
    · intro w hw; cases hw; exact ⟨_, rfl, rfl⟩
  · exact ⟨ok 2 (by omega), argOk_none, fun k => ⟨_, rfl, fun y _ _ => map_f32_real y⟩⟩

end KC
