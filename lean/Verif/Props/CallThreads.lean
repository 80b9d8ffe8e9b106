import Verif.Props.Heap
import Verif.Model.CallThreads

/-! # C169: threads that share arrays -/

namespace KC
open Spec

section generic
variable {α : Type} [Arith α]

/-! ### A call in one piece and step by step -/

theorem pbind_done {β γ : Type} (b : β) (g : β → Prog α γ) : ((Prog.done (.ok b) : Prog α β) >>= g) = g b := rfl

theorem run_bind {β γ : Type} (p : Prog α β) (g : β → Prog α γ) : (p >>= g).run = (p.run >>= fun b => (g b).run : HM α γ) := by
  funext h
  rw [hbind]
  show (p.bind g).run h = _
  induction p generalizing h with
  | done r => cases r <;> rfl
  | act f k ih => exact ih h (f h)

theorem run_pure {β : Type} (b : β) : (pure b : Prog α β).run = (pure b : HM α β) := rfl

theorem run_atomic {β : Type} (x : HM α β) : (Prog.atomic x).run = x := rfl

theorem run_lift {β : Type} (x : Py β) : (Prog.lift x : Prog α β).run = HM.lift x := rfl

theorem run_readOpt (v : Option View) : (Prog.readOpt v : Prog α _).run = HM.readOpt v := by
  cases v with
  | none => rfl
  | some v => simp only [Prog.readOpt, HM.readOpt, run_bind, run_atomic, run_pure]

theorem run_mapList {β γ : Type} {f : β → Prog α γ} {g : β → HM α γ} (hf : ∀ b, (f b).run = g b) :
    ∀ l, (Prog.mapList f l).run = HM.mapList g l
  | [] => rfl
  | b :: t => by simp only [Prog.mapList, HM.mapList, run_bind, run_pure, hf, run_mapList hf t]

theorem run_table (array : Bool) (n w : Nat) (v : Option View) : (tableP array n w v : Prog α _).run = tableH array n w v := by
  cases v with
  | none => rfl
  | some v =>
    simp only [tableP, tableH, run_bind, run_atomic]
    congr 1; funext v; congr 1; funext a
    split <;> split <;> rfl

theorem run_toAb (cls : Cls) (m : View) (iv : Option View) : (toAbP cls m iv : Prog α _).run = toAbH cls m iv := by
  cases cls with
  | base => rfl
  | sdss =>
    simp only [toAbP, toAbH, run_bind, run_atomic, run_lift, run_readOpt]
    congr 1; funext a; congr 1; funext b; congr 1; funext r; congr 1; funext m
    cases r.ivar with
    | none => rfl
    | some v => simp only [run_bind, run_atomic, run_pure]
  | gst =>
    simp only [toAbP, toAbH, run_bind, run_atomic, run_lift]
    funext H
    rw [hbind, hbind]
    cases ha : m.get H with
    | error e => simp only [HM.read, ha]
    | ok a =>
      simp only [HM.read, ha]
      rw [hbind, hbind]
      cases hs : slice27 a with
      | error e => rfl
      | ok sm =>
        simp only [HM.lift]
        cases iv with
        | none => rfl
        | some iv =>
          simp only [run_bind, run_atomic, run_lift]
          rw [hbind, hbind]
          cases hb : iv.get H with
          | error e => simp only [HM.read, hb]
          | ok b =>
            simp only [HM.read, hb]
            rw [hbind, hbind]
            cases hs' : slice27 b with
            | error e => rfl
            | ok siv =>
              simp only [HM.lift]
              rw [hbind, hbind]
              cases hr : sdssAbCorrect sm (some siv) abfixDefault with
              | error e => rfl
              | ok r =>
                simp only [HM.lift]
                cases r.ivar with
                | none => rfl
                | some riv =>
                  simp only [run_bind, run_atomic, run_pure]
                  have e : putH m r.maggies H = HM.write m (putSlice27 a r.maggies) H := by
                    unfold putH; rw [hbind]; simp only [HM.read, ha]
                  rw [hbind, hbind, e]
                  simp only [HM.write, putH]
                  rw [hbind, hbind, hbind]
                  simp only [HM.read]
                  cases iv.get (List.modify H m.ref (m.put (putSlice27 a r.maggies))) <;> rfl

theorem run_process (F : Fitter α) (z m iv c : Option View) : (processP F z m iv c).run = processH F z m iv c := by
  cases z with
  | none => rfl
  | some z =>
    simp only [processP, processH, run_bind, run_atomic, run_lift, run_table]
    congr 1; funext z; congr 1; funext za; congr 1; funext az; congr 1; funext m; congr 1; funext iv; congr 1; funext c
    split
    · simp only [run_bind, run_atomic, run_readOpt, run_toAb, run_pure]
      simp only [*]
    · simp only [run_bind, run_readOpt, run_pure]

theorem run_absmag (K : Kc α) (m iv z c : Option View) (bs : α) (d : Option View) (r l k : Bool) :
    (K.absmagP m iv z c bs d r l k).run = K.absmagH m iv z c bs d r l k := by
  simp only [Kc.absmagP, Kc.absmagH, run_bind, run_process, run_readOpt, run_lift]

theorem run_derived (K : Kc α) (g : Reg α) (z c : Option View) (bs : α) (d : Option View) :
    (K.derivedP g z c bs d).run = K.derivedH g z c bs d := by
  simp only [Kc.derivedP, Kc.derivedH, run_bind, run_process, run_readOpt, run_lift]

theorem run_fit (nnls : Nnls α) (F : Fitter α) (z m iv : Option View) (mc : Nat) (noise : Nat → Nat → Nat → α) :
    (F.fitCoeffsP nnls z m iv mc noise).run = F.fitCoeffsH nnls z m iv mc noise := by
  unfold Fitter.fitCoeffsP Fitter.fitCoeffsH
  split
  · rfl
  · simp only [run_bind, run_process, run_lift]

theorem run_absmagMc (K : Kc α) (mm : Nat) (iv z : Option View) (cm : Nat) (bs : α) (d : Option View) (r kk : Bool) :
    (K.absmagMcP mm iv z cm bs d r kk).run = K.absmagMcH mm iv z cm bs d r kk := by
  simp only [Kc.absmagMcP, Kc.absmagMcH, run_bind, run_atomic, run_lift]
  congr 1; funext ca; congr 1; funext mc; congr 1; funext ma
  cases ma with
  | scalar => rfl
  | arr slot ncol rows =>
    rw [run_bind, run_mapList (g := fun k => do
      let _ ← HM.read ⟨mm, some k⟩
      let _ ← HM.read ⟨cm, some k⟩
      let out ← K.absmagH (some ⟨mm, some k⟩) iv z (some ⟨cm, some k⟩) bs d r false kk
      HM.lift (out.list.mapM (bcastFlat slot)))
      (by intro k; simp only [run_bind, run_atomic, run_lift, run_absmag])]
    rfl

theorem run_derivedMc (K : Kc α) (g : Reg α) (z : Option View) (cm : Nat) (bs : α) (d : Option View) :
    (K.derivedMcP g z cm bs d).run = K.derivedMcH g z cm bs d := by
  simp only [Kc.derivedMcP, Kc.derivedMcH, run_bind, run_atomic, run_lift]
  congr 1; funext ca; congr 1; funext mc
  rw [run_mapList (g := fun k => do
    let _ ← HM.read ⟨cm, some k⟩
    K.derivedH g z (some ⟨cm, some k⟩) bs d) (by intro k; simp only [run_bind, run_atomic, run_derived])]
  congr 1; funext ds
  split <;> rfl

/-- Without other threads, the steps of a call do what the call does. -/
theorem run_call (nnls : Nnls α) (K : Kc α) (c : Call α) : (K.callP nnls c).run = K.callH nnls c := by
  cases c with
  | fit => simp only [Kc.callP, Kc.callH, run_bind, run_fit, run_pure]
  | asinh =>
    simp only [Kc.callP, Kc.callH, run_bind, run_atomic, run_readOpt, run_lift]
    congr 1; funext a; congr 1; funext e; congr 1; funext x; congr 1; funext r; congr 1; funext m
    cases r.ivar with
    | none => rfl
    | some v => simp only [run_bind, run_atomic, run_fit, run_pure]
  | reconstruct => simp only [Kc.callP, Kc.callH, run_bind, run_process, run_lift, run_pure]
  | reconstructOut => simp only [Kc.callP, Kc.callH, run_bind, run_process, run_lift, run_pure]
  | kcorrect => simp only [Kc.callP, Kc.callH, run_bind, run_process, run_lift, run_pure]
  | absmag => simp only [Kc.callP, Kc.callH, run_bind, run_absmag, run_pure]
  | absmagMc => simp only [Kc.callP, Kc.callH, run_bind, run_absmagMc, run_pure]
  | derived => simp only [Kc.callP, Kc.callH, run_bind, run_derived, run_pure]
  | derivedMc => simp only [Kc.callP, Kc.callH, run_bind, run_derivedMc, run_pure]

/-! ### What a program reads and writes -/

/-- the dtype of array `r` of the caller is `float32` -/
def isF32At (h : Heap α) (r : Nat) : Prop := ∃ c, h[r]? = some c ∧ c.isF32 = true

/-- `B` and `B'` are states of the caller's arrays `h` (as many, of the same dtypes) in which the arrays `S` have the same values. -/
structure Agree (h : Heap α) (S : Nat → Prop) (B B' : Heap α) : Prop where
  len : B.length = h.length
  len' : B'.length = h.length
  dt : ∀ r : Nat, (B[r]?).map (·.isF32) = (h[r]?).map (·.isF32)
  dt' : ∀ r : Nat, (B'[r]?).map (·.isF32) = (h[r]?).map (·.isF32)
  eq : ∀ r, S r → B[r]? = B'[r]?

/-- Whatever the temporary arrays `loc`, one step of `x` does the same in two states that agree on `S`, and changes arrays `W` only. -/
def FrameH {β : Type} (h : Heap α) (S W : Nat → Prop) (Q : β → Prop) (x : HM α β) : Prop :=
  ∀ loc B B', Agree h S B B' → ∃ C C' loc' r, x (B ++ loc) = (C ++ loc', r) ∧ x (B' ++ loc) = (C' ++ loc', r) ∧ Agree h S C C' ∧
    (∀ i, ¬ W i → C[i]? = B[i]? ∧ C'[i]? = B'[i]?) ∧ ∀ b, r = .ok b → Q b

/-- The same for every step of a program. -/
def Frame {β : Type} (h : Heap α) (S W : Nat → Prop) (Q : β → Prop) : Prog α β → Prop
  | .done r => ∀ b, r = .ok b → Q b
  | .act f k => ∀ loc B B', Agree h S B B' → (∃ C C' loc', f (B ++ loc) = C ++ loc' ∧ f (B' ++ loc) = C' ++ loc' ∧ Agree h S C C' ∧
      ∀ i, ¬ W i → C[i]? = B[i]? ∧ C'[i]? = B'[i]?) ∧ k (B ++ loc) = k (B' ++ loc) ∧ Frame h S W Q (k (B ++ loc))

variable {h : Heap α} {S W : Nat → Prop}

theorem Frame.bind {β γ : Type} {Q : β → Prop} {Q' : γ → Prop} {p : Prog α β} {g : β → Prog α γ} (hp : Frame h S W Q p)
    (hg : ∀ b, Q b → Frame h S W Q' (g b)) : Frame h S W Q' (p >>= g) := by
  show Frame h S W Q' (p.bind g)
  induction p with
  | done r =>
    cases r with
    | error e => intro b hb; cases hb
    | ok b => exact hg b (hp b rfl)
  | act f k ih =>
    intro loc B B' hB
    obtain ⟨h1, h2, h3⟩ := hp loc B B' hB
    exact ⟨h1, by simp only [h2], ih _ h3⟩

theorem Frame.atomic {β : Type} {Q : β → Prop} {x : HM α β} (hx : FrameH h S W Q x) : Frame h S W Q (Prog.atomic x) := by
  intro loc B B' hB
  obtain ⟨C, C', loc', r, h1, h2, h3, h4, h5⟩ := hx loc B B' hB
  refine ⟨⟨C, C', loc', congrArg Prod.fst h1, congrArg Prod.fst h2, h3, h4⟩, ?_, ?_⟩
  · exact congrArg Prog.done ((congrArg Prod.snd h1).trans (congrArg Prod.snd h2).symm)
  · show Frame h S W Q (Prog.done (x (B ++ loc)).2)
    rw [h1]
    exact h5

theorem Frame.pure {β : Type} {Q : β → Prop} {b : β} (hb : Q b) : Frame h S W Q (Pure.pure b) := by
  intro b' e; cases e; exact hb

theorem Frame.lift {β : Type} {x : Py β} : Frame h S W (fun _ => True) (Prog.lift x) := fun _ _ => trivial

theorem Frame.error {β : Type} {Q : β → Prop} {e : PyErr} : Frame h S W Q (Prog.lift (.error e)) := by
  intro b e; cases e

theorem Frame.mono {β : Type} {Q Q' : β → Prop} {p : Prog α β} (hp : Frame h S W Q p) (hQ : ∀ b, Q b → Q' b) : Frame h S W Q' p := by
  induction p with
  | done r => exact fun b hb => hQ b (hp b hb)
  | act f k ih =>
    intro loc B B' hB
    obtain ⟨h1, h2, h3⟩ := hp loc B B' hB
    exact ⟨h1, h2, ih _ h3⟩

/-- a view of one of the arrays `S` or of a temporary array -/
def VOk (h : Heap α) (S : Nat → Prop) (v : View) : Prop := S v.ref ∨ h.length ≤ v.ref

theorem vok_cell {v : View} (hv : VOk h S v) {B B' : Heap α} (hB : Agree h S B B') (loc : Heap α) :
    (B ++ loc)[v.ref]? = (B' ++ loc)[v.ref]? := by
  rw [List.getElem?_append, List.getElem?_append, hB.len, hB.len']
  split
  · rcases hv with hv | hv
    · exact hB.eq _ hv
    · omega
  · rfl

theorem vok_get {v : View} (hv : VOk h S v) {B B' : Heap α} (hB : Agree h S B B') (loc : Heap α) : v.get (B ++ loc) = v.get (B' ++ loc) :=
  get_kept (vok_cell hv hB loc)

theorem frame_read {v : View} (hv : VOk h S v) : FrameH h S W (fun _ => True) (HM.read v) := by
  intro loc B B' hB
  exact ⟨B, B', loc, _, rfl, by rw [HM.read, vok_get hv hB], hB, fun _ _ => ⟨rfl, rfl⟩, fun _ _ => trivial⟩

theorem frame_alloc (a : NDA α) : FrameH h S W (fun v => h.length ≤ v.ref) (HM.alloc a) := by
  intro loc B B' hB
  refine ⟨B, B', loc ++ [⟨true, a⟩], .ok ⟨(B ++ loc).length, none⟩, ?_, ?_, hB, fun _ _ => ⟨rfl, rfl⟩, ?_⟩
  · rw [HM.alloc, List.append_assoc]
  · rw [HM.alloc, List.append_assoc]
    simp [hB.len, hB.len']
  · intro v e
    cases e
    simp [hB.len]

/-- what `np.float32` returns: the array itself if it has that dtype, or a temporary one -/
theorem frame_toF32 {v : View} (hv : VOk h S v) :
    FrameH h S W (fun v' => h.length ≤ v'.ref ∨ (v' = v ∧ isF32At h v.ref)) (HM.toF32 v) := by
  intro loc B B' hB
  have e := vok_cell hv hB loc
  have e2 := vok_get hv hB loc
  cases hc : (B ++ loc)[v.ref]? with
  | none =>
    refine ⟨B, B', loc, .error .unmodelled, ?_, ?_, hB, fun _ _ => ⟨rfl, rfl⟩, ?_⟩
    · simp only [HM.toF32, hc]
    · rw [e] at hc; simp only [HM.toF32, hc]
    · intro b hb; cases hb
  | some c =>
    have hc' : (B' ++ loc)[v.ref]? = some c := by rw [← e]; exact hc
    by_cases h32 : c.isF32 = true
    · refine ⟨B, B', loc, .ok v, ?_, ?_, hB, fun _ _ => ⟨rfl, rfl⟩, ?_⟩
      · simp only [HM.toF32, hc, h32, if_true]
      · simp only [HM.toF32, hc', h32, if_true]
      · intro b hb
        cases hb
        by_cases hl : v.ref < h.length
        · refine Or.inr ⟨rfl, ?_⟩
          rw [List.getElem?_append_left (by rw [hB.len]; exact hl)] at hc
          have := hB.dt v.ref
          rw [hc] at this
          obtain ⟨d, hd⟩ : ∃ d, h[v.ref]? = some d := ⟨_, List.getElem?_eq_getElem hl⟩
          rw [hd] at this
          simp only [Option.map_some, Option.some.injEq] at this
          exact ⟨d, hd, by rw [← this]; exact h32⟩
        · exact Or.inl (by omega)
    · cases hg : v.get (B ++ loc) with
      | error er =>
        refine ⟨B, B', loc, .error er, ?_, ?_, hB, fun _ _ => ⟨rfl, rfl⟩, ?_⟩
        · simp [HM.toF32, hc, h32, hg]
        · rw [e2] at hg; simp [HM.toF32, hc', h32, hg]
        · intro b hb; cases hb
      | ok a =>
        obtain ⟨C, C', loc', r, h1, h2, h3, h4, h5⟩ := frame_alloc (W := W) (a.map f32) loc B B' hB
        refine ⟨C, C', loc', r, ?_, ?_, h3, h4, fun b hb => Or.inl (h5 b hb)⟩
        · simp only [HM.toF32, hc, h32, hg]; exact h1
        · rw [e2] at hg; simp only [HM.toF32, hc', h32, hg]; exact h2

theorem modify_left {β : Type} {l m : List β} {i : Nat} (hi : i < l.length) (f : β → β) : (l ++ m).modify i f = l.modify i f ++ m := by
  apply List.ext_getElem?
  intro j
  by_cases hj : j < l.length
  · rw [List.getElem?_modify, List.getElem?_append_left hj, List.getElem?_append_left (by simpa using hj), List.getElem?_modify]
  · have : i ≠ j := by omega
    simp [List.getElem?_append, hj, this]

theorem modify_right {β : Type} {l m : List β} {i : Nat} (hi : l.length ≤ i) (f : β → β) : (l ++ m).modify i f = l ++ m.modify (i - l.length) f := by
  apply List.ext_getElem?
  intro j
  by_cases hj : j < l.length
  · have : i ≠ j := by omega
    simp [List.getElem?_append, hj, this]
  · have : (i - l.length = j - l.length) ↔ i = j := by omega
    simp [List.getElem?_modify, List.getElem?_append, hj, this]

/-- Assigning to a slice of an array `W` or of a temporary one. -/
theorem frame_put {v : View} (hv : VOk h S v) (hw : W v.ref ∨ h.length ≤ v.ref) (s : NDA α) : FrameH h S W (fun _ => True) (putH v s) := by
  intro loc B B' hB
  have e := vok_get hv hB loc
  unfold putH
  rw [hbind, hbind]
  simp only [HM.read, ← e]
  cases hg : v.get (B ++ loc) with
  | error er => exact ⟨B, B', loc, .error er, rfl, rfl, hB, fun _ _ => ⟨rfl, rfl⟩, fun _ _ => trivial⟩
  | ok a =>
    simp only [HM.write]
    have hput : ∀ c : Cell α, (v.put (putSlice27 a s) c).isF32 = c.isF32 := by
      intro c; unfold View.put; cases v.idx <;> rfl
    by_cases hl : v.ref < h.length
    · have hW : W v.ref := by
        rcases hw with hw | hw
        · exact hw
        · omega
      have mod : ∀ D : Heap α, D.length = h.length → (D ++ loc).modify v.ref (v.put (putSlice27 a s)) = D.modify v.ref (v.put (putSlice27 a s)) ++ loc := by
        intro D hD
        exact modify_left (by omega) _
      refine ⟨_, _, loc, .ok (), by rw [mod B hB.len], by rw [mod B' hB.len'], ⟨?_, ?_, ?_, ?_, ?_⟩, ?_, fun _ _ => trivial⟩
      · simp [hB.len]
      · simp [hB.len']
      · intro r
        rw [← hB.dt r, List.getElem?_modify]
        cases B[r]? <;> simp; split <;> simp [hput]
      · intro r
        rw [← hB.dt' r, List.getElem?_modify]
        cases B'[r]? <;> simp; split <;> simp [hput]
      · intro r hr
        rw [List.getElem?_modify, List.getElem?_modify, hB.eq r hr]
      · intro i hi
        have : v.ref ≠ i := fun e => hi (e ▸ hW)
        simp [this]
    · have mod : ∀ D : Heap α, D.length = h.length → (D ++ loc).modify v.ref (v.put (putSlice27 a s)) =
          D ++ loc.modify (v.ref - h.length) (v.put (putSlice27 a s)) := by
        intro D hD
        rw [modify_right (by omega), hD]
      exact ⟨B, B', _, .ok (), by rw [mod B hB.len], by rw [mod B' hB.len'], hB, fun _ _ => ⟨rfl, rfl⟩, fun _ _ => trivial⟩

theorem frame_readOpt {v : Option View} (hv : ∀ x ∈ v, VOk h S x) : Frame h S W (fun _ => True) (Prog.readOpt v) := by
  cases v with
  | none => exact Frame.pure trivial
  | some v => exact (Frame.atomic (frame_read (hv v rfl))).bind (fun _ _ => Frame.pure trivial)

theorem frame_mapList {β γ : Type} {f : β → Prog α γ} (hf : ∀ b, Frame h S W (fun _ => True) (f b)) :
    ∀ l, Frame h S W (fun _ => True) (Prog.mapList f l)
  | [] => Frame.pure trivial
  | b :: t => (hf b).bind (fun _ _ => (frame_mapList hf t).bind (fun _ _ => Frame.pure trivial))

/-- a checked table: a temporary array, or the caller's if its dtype is `float32` -/
def TOk (h : Heap α) (v v' : Option View) : Prop := ∀ x' ∈ v', h.length ≤ x'.ref ∨ (x' ∈ v ∧ isF32At h x'.ref)

theorem TOk.vok {v v' : Option View} (ht : TOk h v v') (hv : ∀ x ∈ v, VOk h S x) : ∀ x ∈ v', VOk h S x := by
  intro x hx
  rcases ht x hx with h1 | ⟨h1, _⟩
  · exact Or.inr h1
  · exact hv x h1

theorem frame_table {array : Bool} {n w : Nat} {v : Option View} (hv : ∀ x ∈ v, VOk h S x) : Frame h S W (TOk h v) (tableP array n w v) := by
  cases v with
  | none => exact Frame.pure (by intro x hx; cases hx)
  | some v =>
    refine (Frame.atomic (frame_toF32 (hv v rfl))).bind (fun v' hv' => ?_)
    have ok : TOk h (some v) (some v') := by
      intro x hx
      cases hx
      rcases hv' with h1 | ⟨h1, h2⟩
      · exact Or.inl h1
      · subst h1; exact Or.inr ⟨rfl, h2⟩
    refine (Frame.atomic (frame_read (ok.vok hv v' rfl))).bind (fun a _ => ?_)
    split
    · split
      · exact Frame.pure ok
      · exact Frame.error
    · split
      · exact Frame.pure ok
      · exact Frame.error

theorem frame_toAb {cls : Cls} {m : View} {iv : Option View} (hm : VOk h S m) (hiv : ∀ x ∈ iv, VOk h S x)
    (hw : cls = .gst → (W m.ref ∨ h.length ≤ m.ref) ∧ ∀ x ∈ iv, W x.ref ∨ h.length ≤ x.ref) :
    Frame h S W (fun r => VOk h S r.1 ∧ ∀ x ∈ r.2, VOk h S x) (toAbP cls m iv) := by
  cases cls with
  | base => exact Frame.pure ⟨hm, hiv⟩
  | sdss =>
    refine (Frame.atomic (frame_read hm)).bind (fun a _ => (frame_readOpt hiv).bind (fun b _ => Frame.lift.bind (fun r _ =>
      (Frame.atomic (frame_alloc _)).bind (fun m' hm' => ?_))))
    cases r.ivar with
    | none => exact Frame.pure ⟨Or.inr hm', by intro x hx; cases hx⟩
    | some v => exact (Frame.atomic (frame_alloc _)).bind (fun v' hv' => Frame.pure ⟨Or.inr hm', by intro x hx; cases hx; exact Or.inr hv'⟩)
  | gst =>
    refine (Frame.atomic (frame_read hm)).bind (fun a _ => Frame.lift.bind (fun sm _ => ?_))
    cases iv with
    | none => exact Frame.error
    | some iv =>
      refine (Frame.atomic (frame_read (hiv iv rfl))).bind (fun b _ => Frame.lift.bind (fun siv _ => Frame.lift.bind (fun r _ => ?_)))
      cases r.ivar with
      | none => exact Frame.error
      | some riv =>
        exact (Frame.atomic (frame_put hm (hw rfl).1 _)).bind (fun _ _ => (Frame.atomic (frame_put (hiv iv rfl) ((hw rfl).2 iv rfl) _)).bind
          (fun _ _ => Frame.pure ⟨hm, hiv⟩))

/-- `_process_inputs` writes into the caller's arrays only if they are `float32` photometry given to a `KcorrectGST` with `abcorrect`. -/
theorem frame_process {F : Fitter α} {z m iv c : Option View} (hz : ∀ x ∈ z, VOk h S x) (hm : ∀ x ∈ m, VOk h S x) (hiv : ∀ x ∈ iv, VOk h S x)
    (hc : ∀ x ∈ c, VOk h S x)
    (hw : F.cls = .gst → F.abcorrect = true → (∀ x ∈ m, isF32At h x.ref → W x.ref) ∧ ∀ x ∈ iv, isF32At h x.ref → W x.ref) :
    Frame h S W (fun _ => True) (processP F z m iv c) := by
  cases z with
  | none => exact Frame.error
  | some z =>
    refine (Frame.atomic (frame_toF32 (hz z rfl))).bind (fun z' hz' => ?_)
    have hz2 : VOk h S z' := by
      rcases hz' with h1 | ⟨h1, _⟩
      · exact Or.inr h1
      · subst h1; exact hz _ rfl
    refine (Frame.atomic (frame_read hz2)).bind (fun za _ => Frame.lift.bind (fun az _ => (frame_table hm).bind (fun m' hm' =>
      (frame_table hiv).bind (fun iv' hiv' => (frame_table hc).bind (fun c' hc' => ?_)))))
    split
    · rename_i hab
      have hw' := fun hg => hw hg hab
      refine (frame_toAb (hm'.vok hm _ rfl) (hiv'.vok hiv) (fun hg => ⟨?_, ?_⟩)).bind (fun r hr => (Frame.atomic (frame_read hr.1)).bind (fun a _ =>
        (frame_readOpt hr.2).bind (fun b _ => (frame_readOpt (hc'.vok hc)).bind (fun c _ => Frame.pure trivial))))
      · rcases hm' _ rfl with h1 | ⟨h1, h2⟩
        · exact Or.inr h1
        · exact Or.inl ((hw' hg).1 _ h1 h2)
      · intro x hx
        rcases hiv' x hx with h1 | ⟨h1, h2⟩
        · exact Or.inr h1
        · exact Or.inl ((hw' hg).2 _ h1 h2)
    · exact (frame_readOpt (hm'.vok hm)).bind (fun a _ => (frame_readOpt (hiv'.vok hiv)).bind (fun b _ =>
        (frame_readOpt (hc'.vok hc)).bind (fun c _ => Frame.pure trivial)))

end generic

/-! ### Specification -/

namespace Spec
variable {α : Type}

/-- the arrays that a call is given -/
def callArgs : Call α → List Nat
  | .fit z m iv _ _ => (z.toList ++ m.toList ++ iv.toList).map (·.ref)
  | .asinh z mag err ext _ => ([z, mag, err] ++ ext.toList).map (·.ref)
  | .reconstruct z c _ => (z.toList ++ c.toList).map (·.ref)
  | .reconstructOut z c _ => (z.toList ++ c.toList).map (·.ref)
  | .kcorrect z c _ => (z.toList ++ c.toList).map (·.ref)
  | .absmag m iv z c _ d _ _ _ => (m.toList ++ iv.toList ++ z.toList ++ c.toList ++ d.toList).map (·.ref)
  | .absmagMc mm iv z cm _ d _ _ => mm :: cm :: (iv.toList ++ z.toList ++ d.toList).map (·.ref)
  | .derived _ z c _ d => (z.toList ++ c.toList ++ d.toList).map (·.ref)
  | .derivedMc _ z cm _ d => cm :: (z.toList ++ d.toList).map (·.ref)

/-- the arrays that it is given as maggies or inverse variances -/
def callPhotometry : Call α → List Nat
  | .fit _ m iv _ _ => (m.toList ++ iv.toList).map (·.ref)
  | .absmag m iv _ _ _ _ _ _ _ => (m.toList ++ iv.toList).map (·.ref)
  | .absmagMc mm iv _ _ _ _ _ _ => mm :: (iv.toList).map (·.ref)
  | _ => []

/-- The call may change array `r` of the caller's arrays `h`: it is a call of a `KcorrectGST` object with `abcorrect=True`, `r` is given as
maggies or inverse variances, and its dtype is `float32`. -/
def MayChange (h : Heap α) (x : Kc α × Call α) (r : Nat) : Prop :=
  x.1.cls = .gst ∧ x.1.abcorrect = true ∧ r ∈ callPhotometry x.2 ∧ ∃ c, h[r]? = some c ∧ c.isF32 = true

/-- No thread is given an array that another one may change. -/
def NoRace (h : Heap α) (calls : Nat → List (Kc α × Call α)) : Prop :=
  ∀ t u, t ≠ u → ∀ x ∈ calls t, ∀ r, MayChange h x r → ∀ y ∈ calls u, r ∉ callArgs y.2

end Spec

section generic
variable {α : Type} [Arith α] {h : Heap α} {S W : Nat → Prop}

local macro "argmem" : tactic => `(tactic| (intro x hx; exact List.mem_map.mpr ⟨x, by simp [Option.mem_def.mp hx], rfl⟩))

theorem frame_absmag {K : Kc α} {z m iv c d : Option View} {bs : α} {r l k : Bool} (hz : ∀ x ∈ z, VOk h S x) (hm : ∀ x ∈ m, VOk h S x)
    (hiv : ∀ x ∈ iv, VOk h S x) (hc : ∀ x ∈ c, VOk h S x) (hd : ∀ x ∈ d, VOk h S x)
    (hw : K.cls = .gst → K.abcorrect = true → (∀ x ∈ m, isF32At h x.ref → W x.ref) ∧ ∀ x ∈ iv, isF32At h x.ref → W x.ref) :
    Frame h S W (fun _ => True) (K.absmagP m iv z c bs d r l k) :=
  (frame_process hz hm hiv hc hw).bind (fun _ _ => (frame_readOpt hd).bind (fun _ _ => Frame.lift))

theorem frame_derived {K : Kc α} {g : Reg α} {z c d : Option View} {bs : α} (hz : ∀ x ∈ z, VOk h S x)
    (hc : ∀ x ∈ c, VOk h S x) (hd : ∀ x ∈ d, VOk h S x) : Frame h S W (fun _ => True) (K.derivedP g z c bs d) :=
  (frame_process hz (by intro x hx; cases hx) (by intro x hx; cases hx) hc
    (fun _ _ => ⟨(by intro x hx; cases hx), (by intro x hx; cases hx)⟩)).bind (fun _ _ => (frame_readOpt hd).bind (fun _ _ => Frame.lift))

theorem frame_fit {nnls : Nnls α} {F : Fitter α} {z m iv : Option View} {mc : Nat} {noise : Nat → Nat → Nat → α} (hz : ∀ x ∈ z, VOk h S x)
    (hm : ∀ x ∈ m, VOk h S x) (hiv : ∀ x ∈ iv, VOk h S x)
    (hw : F.cls = .gst → F.abcorrect = true → (∀ x ∈ m, isF32At h x.ref → W x.ref) ∧ ∀ x ∈ iv, isF32At h x.ref → W x.ref) :
    Frame h S W (fun _ => True) (F.fitCoeffsP nnls z m iv mc noise) := by
  unfold Fitter.fitCoeffsP
  split
  · exact Frame.error
  · exact (frame_process hz hm hiv (by intro x hx; cases hx) hw).bind (fun _ _ => Frame.lift)

theorem frame_call (nnls : Nnls α) (K : Kc α) (c : Call α) (hS : ∀ r ∈ callArgs c, S r) (hW : ∀ r, MayChange h (K, c) r → W r) :
    Frame h S W (fun _ => True) (K.callP nnls c) := by
  have non : ∀ x ∈ (none : Option View), VOk h S x := by intro x hx; cases hx
  have nonw : K.cls = .gst → K.abcorrect = true → (∀ x ∈ (none : Option View), isF32At h x.ref → W x.ref) ∧
      ∀ x ∈ (none : Option View), isF32At h x.ref → W x.ref := fun _ _ => ⟨(by intro x hx; cases hx), (by intro x hx; cases hx)⟩
  have arg : ∀ v : Option View, (∀ x ∈ v, x.ref ∈ callArgs c) → ∀ x ∈ v, VOk h S x := fun v hv x hx => Or.inl (hS _ (hv x hx))
  have pho : ∀ m iv : Option View, (∀ x ∈ m, x.ref ∈ callPhotometry c) → (∀ x ∈ iv, x.ref ∈ callPhotometry c) → K.cls = .gst →
      K.abcorrect = true → (∀ x ∈ m, isF32At h x.ref → W x.ref) ∧ ∀ x ∈ iv, isF32At h x.ref → W x.ref :=
    fun m iv hm hiv hg hab => ⟨fun x hx h32 => hW _ ⟨hg, hab, hm x hx, h32⟩, fun x hx h32 => hW _ ⟨hg, hab, hiv x hx, h32⟩⟩
  cases c with
  | fit z m iv mc noise =>
    exact (frame_fit (arg z (by argmem)) (arg m (by argmem)) (arg iv (by argmem)) (pho m iv (by argmem) (by argmem))).bind
      (fun r _ => Frame.pure trivial)
  | asinh z mag err ext noise =>
    refine (Frame.atomic (frame_read (arg (some mag) (by intro x hx; cases hx; simp [callArgs]) mag rfl))).bind (fun a _ =>
      (Frame.atomic (frame_read (arg (some err) (by intro x hx; cases hx; simp [callArgs]) err rfl))).bind (fun e _ =>
      (frame_readOpt (arg ext (by argmem))).bind (fun x _ => Frame.lift.bind (fun r _ =>
      (Frame.atomic (frame_alloc _)).bind (fun m hm => ?_)))))
    cases r.ivar with
    | none => exact Frame.error
    | some v =>
      refine (Frame.atomic (frame_alloc _)).bind (fun iv hiv => ?_)
      have loc32 : ∀ x : View, h.length ≤ x.ref → isF32At h x.ref → W x.ref := by
        rintro x hx ⟨c, hc, _⟩
        rw [List.getElem?_eq_none hx] at hc
        cases hc
      exact (frame_fit (arg (some z) (by intro x hx; cases hx; simp [callArgs])) (by intro x hx; cases hx; exact Or.inr hm) (by intro x hx; cases hx; exact Or.inr hiv)
        (fun _ _ => ⟨by intro x hx; cases hx; exact loc32 _ hm, by intro x hx; cases hx; exact loc32 _ hiv⟩)).bind (fun r _ => Frame.pure trivial)
  | reconstruct z c bs =>
    exact (frame_process (arg z (by argmem)) non non (arg c (by argmem)) nonw).bind
      (fun i _ => Frame.lift.bind (fun r _ => Frame.pure trivial))
  | reconstructOut z c bs =>
    exact (frame_process (arg z (by argmem)) non non (arg c (by argmem)) nonw).bind
      (fun i _ => Frame.lift.bind (fun r _ => Frame.pure trivial))
  | kcorrect z c bs =>
    exact (frame_process (arg z (by argmem)) non non (arg c (by argmem)) nonw).bind
      (fun i _ => Frame.lift.bind (fun r _ => Frame.pure trivial))
  | absmag m iv z c bs d r l k =>
    exact (frame_absmag (arg z (by argmem)) (arg m (by argmem)) (arg iv (by argmem)) (arg c (by argmem)) (arg d (by argmem))
      (pho m iv (by argmem) (by argmem))).bind (fun r _ => Frame.pure trivial)
  | absmagMc mm iv z cm bs d r kk =>
    refine Frame.bind (Q := fun _ => True) ?_ (fun r _ => Frame.pure trivial)
    have hcm : ∀ k, VOk h S ⟨cm, k⟩ := fun k => arg (some ⟨cm, k⟩) (by intro x hx; cases hx; simp [callArgs]) _ rfl
    have hmm : ∀ k, VOk h S ⟨mm, k⟩ := fun k => arg (some ⟨mm, k⟩) (by intro x hx; cases hx; simp [callArgs]) _ rfl
    refine (Frame.atomic (frame_read (hcm none))).bind (fun ca _ => Frame.lift.bind (fun mc _ => (Frame.atomic (frame_read (hmm none))).bind (fun ma _ => ?_)))
    cases ma with
    | scalar => exact Frame.error
    | arr slot ncol rows =>
      refine (frame_mapList (fun k => ?_) _).bind (fun outs _ => Frame.pure trivial)
      exact (Frame.atomic (frame_read (hmm _))).bind (fun _ _ => (Frame.atomic (frame_read (hcm _))).bind (fun _ _ =>
        (frame_absmag (arg z (fun x hx => List.mem_cons_of_mem _ (List.mem_cons_of_mem _ (List.mem_map.mpr ⟨x, by simp [Option.mem_def.mp hx], rfl⟩)))) (by intro x hx; cases hx; exact hmm _) (arg iv (fun x hx => List.mem_cons_of_mem _ (List.mem_cons_of_mem _ (List.mem_map.mpr ⟨x, by simp [Option.mem_def.mp hx], rfl⟩))))
          (by intro x hx; cases hx; exact hcm _) (arg d (fun x hx => List.mem_cons_of_mem _ (List.mem_cons_of_mem _ (List.mem_map.mpr ⟨x, by simp [Option.mem_def.mp hx], rfl⟩))))
          (pho _ iv (by intro x hx; cases hx; exact List.mem_cons_self)
            (fun x hx => List.mem_cons_of_mem _ (List.mem_map.mpr ⟨x, by simp [Option.mem_def.mp hx], rfl⟩)))).bind (fun out _ => Frame.lift)))
  | derived g z c bs d =>
    exact (frame_derived (arg z (by argmem)) (arg c (by argmem)) (arg d (by argmem))).bind (fun r _ => Frame.pure trivial)
  | derivedMc g z cm bs d =>
    refine Frame.bind (Q := fun _ => True) ?_ (fun r _ => Frame.pure trivial)
    have hcm : ∀ k, VOk h S ⟨cm, k⟩ := fun k => arg (some ⟨cm, k⟩) (by intro x hx; cases hx; simp [callArgs]) _ rfl
    refine (Frame.atomic (frame_read (hcm none))).bind (fun ca _ => Frame.lift.bind (fun mc _ => (frame_mapList (fun k => ?_) _).bind (fun ds _ => ?_)))
    · exact (Frame.atomic (frame_read (hcm _))).bind (fun _ _ =>
        frame_derived (arg z (fun x hx => List.mem_cons_of_mem _ (List.mem_map.mpr ⟨x, by simp [Option.mem_def.mp hx], rfl⟩))) (by intro x hx; cases hx; exact hcm _)
          (arg d (fun x hx => List.mem_cons_of_mem _ (List.mem_map.mpr ⟨x, by simp [Option.mem_def.mp hx], rfl⟩))))
    · split
      · exact Frame.pure trivial
      · exact Frame.pure trivial

/-! ### Threads -/

/-- what becomes of the heap, and the results, if thread `s` goes on alone from the arrays `B` -/
def ShThread.fin (nnls : Nnls α) (B : Heap α) (s : ShThread α) : Heap α × List (Py (Res α)) :=
  match s.cur with
  | none => ((runCalls nnls s.todo (B ++ s.loc)).1, s.out ++ (runCalls nnls s.todo (B ++ s.loc)).2)
  | some p => ((runCalls nnls s.todo (p.run (B ++ s.loc)).1).1, s.out ++ (p.run (B ++ s.loc)).2 :: (runCalls nnls s.todo (p.run (B ++ s.loc)).1).2)

/-- steps of calls in one piece -/
def callsLen (nnls : Nnls α) : List (Kc α × Call α) → Heap α → Nat
  | [], _ => 0
  | (K, c) :: t, H => callsLen nnls t (K.callH nnls c H).1 + (K.callP nnls c).len H + 2

/-- the steps that it makes -/
def ShThread.left (nnls : Nnls α) (B : Heap α) (s : ShThread α) : Nat :=
  match s.cur with
  | none => callsLen nnls s.todo (B ++ s.loc)
  | some p => callsLen nnls s.todo (p.run (B ++ s.loc)).1 + p.len (B ++ s.loc) + 1

/-- a thread that reads `S` and writes `W` -/
structure FrameT (h : Heap α) (S W : Nat → Prop) (s : ShThread α) : Prop where
  args : ∀ x ∈ s.todo, ∀ r ∈ callArgs x.2, S r
  change : ∀ x ∈ s.todo, ∀ r, MayChange h x r → W r
  cur : ∀ p ∈ s.cur, Frame h S W (fun _ => True) p

theorem Agree.left {B B' : Heap α} (hB : Agree h S B B') : Agree h S B B := ⟨hB.len, hB.len, hB.dt, hB.dt, fun _ _ => rfl⟩

/-- A step of a thread is the same in two states that agree on what it reads; it goes on towards the result that it has alone. -/
theorem step_frame (nnls : Nnls α) {s : ShThread α} (hs : FrameT h S W s) {B B' : Heap α} (hB : Agree h S B B') :
    ∃ C C' s', s.step nnls B = (C, s') ∧ s.step nnls B' = (C', s') ∧ Agree h S C C' ∧ (∀ i, ¬ W i → C[i]? = B[i]?) ∧ FrameT h S W s' ∧
      s'.fin nnls C' = s.fin nnls B' ∧ s'.left nnls C' = s.left nnls B' - 1 := by
  obtain ⟨todo, cur, loc, out⟩ := s
  cases cur with
  | none =>
    cases todo with
    | nil => exact ⟨B, B', _, rfl, rfl, hB, fun _ _ => rfl, hs, rfl, rfl⟩
    | cons x t =>
      obtain ⟨K, c⟩ := x
      refine ⟨B, B', ⟨t, some (K.callP nnls c), loc, out⟩, rfl, rfl, hB, fun _ _ => rfl,
        ⟨fun x hx => hs.args x (by simp [hx]), fun x hx => hs.change x (by simp [hx]), ?_⟩, ?_, ?_⟩
      · intro p hp
        cases hp
        exact frame_call nnls K c (hs.args (K, c) (by simp)) (hs.change (K, c) (by simp))
      · simp only [ShThread.fin, runCalls, run_call]
      · simp only [ShThread.left, callsLen, run_call]
        omega
  | some p =>
    have hp := hs.cur p rfl
    cases p with
    | done r =>
      refine ⟨B, B', ⟨todo, none, loc, out ++ [r]⟩, rfl, rfl, hB, fun _ _ => rfl, ⟨hs.args, hs.change, by intro p hp; cases hp⟩, ?_, ?_⟩
      · simp only [ShThread.fin, Prog.run, List.append_assoc, List.singleton_append]
      · simp only [ShThread.left, Prog.run, Prog.len]
        omega
    | act f k =>
      obtain ⟨⟨C, C', loc', h1, h2, h3, h4⟩, h5, h6⟩ := hp loc B B' hB
      refine ⟨C, C', ⟨todo, some (k (B ++ loc)), loc', out⟩, ?_, ?_, h3, fun i hi => (h4 i hi).1, ⟨hs.args, hs.change, ?_⟩, ?_, ?_⟩
      · simp only [ShThread.step, h1]
        rw [List.take_left' (by rw [hB.len, h3.len]), List.drop_left' (by rw [hB.len, h3.len])]
      · simp only [ShThread.step, h2]
        rw [List.take_left' (by rw [hB.len', h3.len']), List.drop_left' (by rw [hB.len', h3.len']), h5]
      · intro q hq
        cases hq
        exact h6
      · simp only [ShThread.fin, Prog.run, ← h2, h5]
      · simp only [ShThread.left, Prog.run, Prog.len, ← h2, h5]
        omega

/-- the arrays that a thread is given -/
def argsOf (l : List (Kc α × Call α)) (r : Nat) : Prop := ∃ x ∈ l, r ∈ callArgs x.2

/-- those that it may change -/
def changedBy (h : Heap α) (l : List (Kc α × Call α)) (r : Nat) : Prop := ∃ x ∈ l, MayChange h x r

/-- Every thread is on the way to what it does alone. -/
theorem run_frame (nnls : Nnls α) (h : Heap α) (calls : Nat → List (Kc α × Call α)) (hno : NoRace h calls) (t : Nat) :
    ∀ (sched : List Nat) (w : ShWorld α), (∀ u, FrameT h (argsOf (calls u)) (changedBy h (calls u)) (w.th u)) →
      ∀ B, Agree h (argsOf (calls t)) w.base B → ∃ B', Agree h (argsOf (calls t)) (w.run nnls sched).base B' ∧
        ((w.run nnls sched).th t).fin nnls B' = (w.th t).fin nnls B ∧
        ((w.run nnls sched).th t).left nnls B' = (w.th t).left nnls B - sched.count t := by
  intro sched
  induction sched with
  | nil => intro w _ B hB; exact ⟨B, hB, rfl, rfl⟩
  | cons u sched ih =>
    intro w hw B hB
    by_cases hu : u = t
    · subst hu
      obtain ⟨C, C', s', h1, h2, h3, _, h5, h6, h7⟩ := step_frame nnls (hw u) hB
      have e : w.step nnls u = ⟨C, fun v => if v = u then s' else w.th v⟩ := by simp only [ShWorld.step, h1]
      obtain ⟨B', i1, i2, i3⟩ := ih (w.step nnls u) (by
        rw [e]; intro v
        by_cases hv : v = u
        · subst hv; simpa using h5
        · simpa [hv] using hw v) C' (by rw [e]; exact h3)
      refine ⟨B', i1, i2.trans ?_, i3.trans ?_⟩
      · rw [e]; simpa using h6
      · rw [e, List.count_cons_self]; simp only [if_true]; rw [h7]; omega
    · have hdt : Agree h (argsOf (calls u)) w.base w.base := ⟨hB.len, hB.len, hB.dt, hB.dt, fun _ _ => rfl⟩
      obtain ⟨C, C', s', h1, h2, h3, h4, h5, _, _⟩ := step_frame nnls (hw u) hdt
      have e : w.step nnls u = ⟨C, fun v => if v = u then s' else w.th v⟩ := by simp only [ShWorld.step, h1]
      obtain ⟨B', i1, i2, i3⟩ := ih (w.step nnls u) (by
        rw [e]; intro v
        by_cases hv : v = u
        · subst hv; simpa using h5
        · simpa [hv] using hw v) B (by
        rw [e]
        refine ⟨h3.len, hB.len', h3.dt, hB.dt', fun r hr => ?_⟩
        rw [← hB.eq r hr]
        refine h4 r ?_
        rintro ⟨x, hx, hr'⟩
        obtain ⟨y, hy, hr⟩ := hr
        exact hno u t hu x hx r hr' y hy hr)
      have hth : (w.step nnls u).th t = w.th t := by rw [e]; simp [Ne.symm hu]
      rw [hth] at i2 i3
      refine ⟨B', i1, i2, i3.trans ?_⟩
      rw [List.count_cons_of_ne hu]

theorem start_frame (h : Heap α) (calls : Nat → List (Kc α × Call α)) (u : Nat) :
    FrameT h (argsOf (calls u)) (changedBy h (calls u)) ((ShWorld.start h calls).th u) :=
  ⟨fun x hx r hr => ⟨x, hx, hr⟩, fun x hx r hr => ⟨x, hx, hr⟩, by intro p hp; cases hp⟩

theorem start_agree (h : Heap α) (S : Nat → Prop) : Agree h S h h := ⟨rfl, rfl, fun _ => rfl, fun _ => rfl, fun _ _ => rfl⟩

/-- a thread that has no step left has made all its calls -/
theorem left_done {nnls : Nnls α} {B : Heap α} {s : ShThread α} (hl : s.left nnls B = 0) : s.fin nnls B = (B ++ s.loc, s.out) := by
  obtain ⟨todo, cur, loc, out⟩ := s
  cases cur with
  | some p => simp [ShThread.left] at hl
  | none =>
    cases todo with
    | cons x t => simp [ShThread.left, callsLen] at hl
    | nil => simp [ShThread.fin, runCalls]

theorem out_prefix (nnls : Nnls α) (B : Heap α) (s : ShThread α) : s.out <+: (s.fin nnls B).2 := by
  obtain ⟨todo, cur, loc, out⟩ := s
  cases cur <;> exact List.prefix_append _ _

/-- An array that no thread may change keeps its values. -/
theorem run_base (nnls : Nnls α) (h : Heap α) (calls : Nat → List (Kc α × Call α)) (r : Nat) (hr : ∀ u, ¬ changedBy h (calls u) r) :
    ∀ (sched : List Nat) (w : ShWorld α), (∀ u, FrameT h (argsOf (calls u)) (changedBy h (calls u)) (w.th u)) →
      (∀ S, Agree h S w.base w.base) → (w.run nnls sched).base[r]? = w.base[r]? := by
  intro sched
  induction sched with
  | nil => intro w _ _; rfl
  | cons u sched ih =>
    intro w hw hB
    obtain ⟨C, C', s', h1, _, h3, h4, h5, _, _⟩ := step_frame nnls (hw u) (hB (argsOf (calls u)))
    have e : w.step nnls u = ⟨C, fun v => if v = u then s' else w.th v⟩ := by simp only [ShWorld.step, h1]
    have := ih (w.step nnls u) (by
      rw [e]; intro v
      by_cases hv : v = u
      · subst hv; simpa using h5
      · simpa [hv] using hw v) (by rw [e]; exact fun S => ⟨h3.len, h3.len, h3.dt, h3.dt, fun _ _ => rfl⟩)
    refine this.trans ?_
    rw [e]
    exact h4 r (hr u)

/-- C169 for every schedule and any number of threads, each making its list of calls on the same objects and arrays as the others, in steps
that are single accesses to arrays.  If no thread is given a float32 array of photometry that another one passes to a `KcorrectGST` object
with `abcorrect=True` (`NoRace`), then at every moment the results of a thread are those of its calls made alone (`runCalls`), as far as it
has come; after enough of its own steps, whatever the others do, it has all of them and has left its arrays as it does alone; and an array
that no thread may change keeps its values.  Missing: arrays that are shared and may be changed, for which it is false (`C169_false`). -/
theorem C169_alone_partial (nnls : Nnls α) (h : Heap α) (calls : Nat → List (Kc α × Call α)) (hno : NoRace h calls) :
    (∀ t, ∃ N, ∀ sched,
      (((ShWorld.start h calls).run nnls sched).th t).out <+: (runCalls nnls (calls t) h).2 ∧
      (N ≤ sched.count t → (((ShWorld.start h calls).run nnls sched).th t).out = (runCalls nnls (calls t) h).2 ∧
        ∀ x ∈ calls t, ∀ r ∈ callArgs x.2, r < h.length →
          ((ShWorld.start h calls).run nnls sched).base[r]? = (runCalls nnls (calls t) h).1[r]?)) ∧
    ∀ r, (∀ t, ∀ x ∈ calls t, ¬ MayChange h x r) → ∀ sched, ((ShWorld.start h calls).run nnls sched).base[r]? = h[r]? := by
  constructor
  · intro t
    refine ⟨callsLen nnls (calls t) h, fun sched => ?_⟩
    obtain ⟨B, h1, h2, h3⟩ := run_frame nnls h calls hno t sched (ShWorld.start h calls) (start_frame h calls) h (start_agree h _)
    have hfin : ((ShWorld.start h calls).th t).fin nnls h = runCalls nnls (calls t) h := by
      simp [ShWorld.start, ShThread.fin]
    have hleft : ((ShWorld.start h calls).th t).left nnls h = callsLen nnls (calls t) h := by
      simp [ShWorld.start, ShThread.left]
    rw [hfin] at h2
    rw [hleft] at h3
    refine ⟨?_, fun hN => ?_⟩
    · rw [← h2]; exact out_prefix nnls B _
    · have hd := left_done (h3.trans (by omega))
      rw [hd] at h2
      rw [← h2]
      refine ⟨rfl, fun x hx r hr hl => ?_⟩
      rw [h1.eq r ⟨x, hx, hr⟩]
      show B[r]? = (B ++ _)[r]?
      rw [List.getElem?_append_left (by rw [h1.len']; exact hl)]
  · intro r hr sched
    exact run_base nnls h calls r (by rintro u ⟨x, hx, h1⟩; exact hr u x hx h1) sched _ (start_frame h calls) (fun S => start_agree h S)

/-- a call that is `CallOk` changes nothing -/
theorem callOk_mayChange {K : Kc α} {c : Call α} (hc : CallOk h K c) (r : Nat) : ¬ MayChange h (K, c) r := by
  rintro ⟨hg, hab, hr, d, hd, h32⟩
  have main : ∀ m iv : Option View, Safe h K.toFitter m iv → r ∈ (m.toList ++ iv.toList).map (·.ref) → False := by
    intro m iv hs hr
    rcases hs with hs | hs | hs
    · rw [hab] at hs; cases hs
    · exact hs hg
    · obtain ⟨x, hx, rfl⟩ := List.mem_map.mp hr
      have : ∃ c, h[x.ref]? = some c ∧ c.isF32 = false := by
        rcases List.mem_append.mp hx with h1 | h1
        · exact hs.1 x (Option.mem_toList.mp h1)
        · exact hs.2 x (Option.mem_toList.mp h1)
      obtain ⟨c, h1, h2⟩ := this
      rw [hd] at h1
      cases h1
      rw [h32] at h2; cases h2
  cases c with
  | fit z m iv mc noise => exact main m iv hc.2.2.2 hr
  | absmag m iv z c bs d r l k => exact main m iv hc.2.2.2.2.2 hr
  | absmagMc mm iv z cm bs d r kk => exact main (some ⟨mm, none⟩) iv hc.2.2.2.2.2 (by simpa [callPhotometry] using hr)
  | _ => cases hr

/-- C169 when no call can change anything (any class except `KcorrectGST` with `abcorrect=True` and float32 photometry): at every moment of
every schedule the caller's arrays are as they were, and every result is that of the method on the values in them. -/
theorem C169_unchanged (nnls : Nnls α) (h : Heap α) (calls : Nat → List (Kc α × Call α)) (hc : ∀ t, ∀ x ∈ calls t, CallOk h x.1 x.2)
    (sched : List Nat) :
    (∀ r, r < h.length → ((ShWorld.start h calls).run nnls sched).base[r]? = h[r]?) ∧
    ∀ t, (((ShWorld.start h calls).run nnls sched).th t).out <+: (calls t).map (fun x => x.1.callV nnls h x.2) := by
  have hno : NoRace h calls := fun t u _ x hx r hr => (callOk_mayChange (hc t x hx) r hr).elim
  obtain ⟨h1, h2⟩ := C169_alone_partial nnls h calls hno
  refine ⟨fun r _ => h2 r (fun t x hx => callOk_mayChange (hc t x hx) r) sched, fun t => ?_⟩
  obtain ⟨N, hN⟩ := h1 t
  rw [← (C87_unchanged_partial nnls (calls t) h (hc t)).2]
  exact (hN sched).1

/-- a thread by itself -/
theorem solo (nnls : Nnls α) (t n : Nat) : ∀ (w : ShWorld α), (∀ x ∈ (w.th t).cur, Frame h (fun _ => True) (fun _ => True) (fun _ => True) x) →
    Agree h (fun _ => True) w.base w.base →
    Agree h (fun _ => True) (w.run nnls (List.replicate n t)).base (w.run nnls (List.replicate n t)).base ∧
    (∀ u, u ≠ t → (w.run nnls (List.replicate n t)).th u = w.th u) ∧
    ((w.run nnls (List.replicate n t)).th t).fin nnls (w.run nnls (List.replicate n t)).base = (w.th t).fin nnls w.base ∧
    ((w.run nnls (List.replicate n t)).th t).left nnls (w.run nnls (List.replicate n t)).base = (w.th t).left nnls w.base - n := by
  induction n with
  | zero => intro w _ hB; exact ⟨hB, fun _ _ => rfl, rfl, rfl⟩
  | succ n ih =>
    intro w hw hB
    obtain ⟨C, C', s', h1, h2, h3, _, h5, h6, h7⟩ := step_frame nnls (S := fun _ => True) (W := fun _ => True)
      ⟨fun _ _ _ _ => trivial, fun _ _ _ _ => trivial, hw⟩ hB
    have hCC : C = C' := by rw [h1] at h2; exact (Prod.mk.inj h2).1
    subst hCC
    have e : w.step nnls t = ⟨C, fun v => if v = t then s' else w.th v⟩ := by simp only [ShWorld.step, h1]
    obtain ⟨i1, i2, i3, i4⟩ := ih (w.step nnls t) (by rw [e]; simpa using h5.cur) (by rw [e]; exact h3)
    refine ⟨i1, fun u hu => (i2 u hu).trans (by rw [e]; simp [hu]), i3.trans (by rw [e]; simpa using h6), i4.trans ?_⟩
    rw [e]
    simp only [if_true]
    rw [h7]
    omega

end generic
/-! ### Two threads with the same float32 photometry -/

/-- absolute magnitudes of the galaxy in arrays 0 (maggies), 1 (inverse variances), 2 (redshift) and 3 (coefficients) -/
def gstCall : Call ℝ := .absmag (some ⟨0, none⟩) (some ⟨1, none⟩) (some ⟨2, none⟩) (some ⟨3, none⟩) 0 none false false false

/-- maggies and inverse variances of 1 in all seven bands, dtype float32 -/
def gstHeap : Heap ℝ := [⟨true, .vec [1, 1, 1, 1, 1, 1, 1]⟩, ⟨true, .vec [1, 1, 1, 1, 1, 1, 1]⟩, ⟨false, .scalar 0⟩, ⟨false, .vec [1]⟩]

theorem gstHeap_call : GstCall gstHeap demoGst ⟨2, none⟩ ⟨0, none⟩ ⟨1, none⟩ (.vec [1, 1, 1, 1, 1, 1, 1]) (.vec [1, 1, 1, 1, 1, 1, 1]) gstCall := by
  refine ⟨rfl, rfl, rfl, ?_, argOk_none, by intro x hx; cases hx; simp, by simp, ?_⟩
  · intro w hw; cases hw; exact ⟨⟨_, rfl, fun y _ _ => map_f32_real y⟩, _, rfl⟩
  · exact shapes_one 0 [1, 1, 1, 1, 1, 1, 1] [1, 1, 1, 1, 1, 1, 1] (some [1]) rfl rfl (by intro l hl; cases hl; rfl)

theorem gstHeap_drift : Drift gstHeap gstHeap ⟨0, none⟩ ⟨1, none⟩ (.vec [1, 1, 1, 1, 1, 1, 1]) (.vec [1, 1, 1, 1, 1, 1, 1]) 0 :=
  ⟨le_refl _, fun _ _ _ _ => rfl, _, _, rfl, rfl, ⟨by simp, by simp⟩, ⟨by simp, by simp⟩, rfl, rfl, by intro r j; simp, by intro r j; simp⟩

theorem gstHeap_step (nnls : Nnls ℝ) {H : Heap ℝ} {k : Nat}
    (hd : Drift gstHeap H ⟨0, none⟩ ⟨1, none⟩ (.vec [1, 1, 1, 1, 1, 1, 1]) (.vec [1, 1, 1, 1, 1, 1, 1]) k) :
    ∃ H', demoGst.callH nnls gstCall H = (H', demoGst.callV nnls H gstCall) ∧
      Drift gstHeap H' ⟨0, none⟩ ⟨1, none⟩ (.vec [1, 1, 1, 1, 1, 1, 1]) (.vec [1, 1, 1, 1, 1, 1, 1]) (k + 1) :=
  drift_call nnls rfl rfl (by show 7 ≤ 7; omega) (by intro w hw; cases hw; exact ⟨⟨_, rfl, fun y _ _ => map_f32_real y⟩, _, rfl⟩)
    (by intro x hx; cases hx; trivial) (by simp) rfl rfl (by simp) gstHeap_call hd

theorem drift_prefix {B loc : Heap ℝ} {m iv : View} {a b : NDA ℝ} {k : Nat} (hl : B.length = gstHeap.length) (hm : m.ref < gstHeap.length)
    (hiv : iv.ref < gstHeap.length) (hd : Drift gstHeap (B ++ loc) m iv a b k) : Drift gstHeap B m iv a b k := by
  obtain ⟨_, h2, a', b', h3, h4, h5⟩ := hd
  refine ⟨hl.ge, fun j hj h0 h1 => ?_, a', b', ?_, ?_, h5⟩
  · rw [← h2 j hj h0 h1, List.getElem?_append_left (by omega)]
  · rw [← h3, List.getElem?_append_left (by omega)]
  · rw [← h4, List.getElem?_append_left (by omega)]

theorem gst_callV (nnls : Nnls ℝ) {B loc : Heap ℝ} (hl : 4 ≤ B.length) : demoGst.callV nnls (B ++ loc) gstCall = demoGst.callV nnls B gstCall := by
  have e : ∀ r < 4, argVal (B ++ loc) (some ⟨r, none⟩) = argVal B (some ⟨r, none⟩) := by
    intro r hr
    simp only [argVal, Option.bind_some]
    rw [get_append (by show r < B.length; omega)]
  simp only [gstCall, Kc.callV]
  rw [e 0 (by omega), e 1 (by omega), e 2 (by omega), e 3 (by omega)]
  rfl

/-- C169 is false: two threads ask the same `KcorrectGST` object for the absolute magnitudes of the same galaxy in the same float32 arrays.
If thread 1 comes first, it gets one u magnitude; if it comes after thread 0, it gets one that is 0.036 mag brighter. -/
theorem C169_false (nnls : Nnls ℝ) : ∃ (h : Heap ℝ) (K : Kc ℝ) (c : Call ℝ) (early late : List Nat) (first second : NDA ℝ) (x : ℝ),
    (((ShWorld.start h (fun _ => [(K, c)])).run nnls early).th 1).out = [.ok (.ret (.one first))] ∧
    (((ShWorld.start h (fun _ => [(K, c)])).run nnls late).th 1).out = [.ok (.ret (.one second))] ∧
    entry first 0 2 = some x ∧ entry second 0 2 = some (x - 0.036) := by
  obtain ⟨k, kv, hk, hkv⟩ := demoGst_k
  obtain ⟨first, last, h1, h2, h3⟩ := C87_drift nnls demoGst rfl rfl (by show 7 ≤ 7; omega) demoAm7 demoAm7 rfl rfl 0 [1, 1, 1, 1, 1, 1, 1] [1, 1, 1, 1, 1, 1, 1] [1]
    rfl rfl rfl 0 k hk 1 false
  obtain ⟨x, hx1, hx2⟩ := h3 2 2 1 1 kv rfl rfl rfl one_pos one_pos hkv
  obtain ⟨H1, c1, d1⟩ := gstHeap_step nnls gstHeap_drift
  obtain ⟨H2, c2, d2⟩ := gstHeap_step nnls d1
  have r1 : demoGst.callV nnls gstHeap gstCall = .ok (.ret (.one first)) := by
    have e : (runCalls nnls (List.replicate (1 + 1) (demoGst, gstCall)) gstHeap).2[0]? = some (demoGst.callV nnls gstHeap gstCall) := by
      simp only [List.replicate, runCalls, c1, List.getElem?_cons_zero]
    exact Option.some.inj (e.symm.trans h1)
  have r2 : demoGst.callV nnls H1 gstCall = .ok (.ret (.one last)) := by
    have e : (runCalls nnls (List.replicate (1 + 1) (demoGst, gstCall)) gstHeap).2[1]? = some (demoGst.callV nnls H1 gstCall) := by
      simp only [List.replicate, runCalls, c1, c2, List.getElem?_cons_zero, List.getElem?_cons_succ]
    exact Option.some.inj (e.symm.trans h2)
  set w := ShWorld.start gstHeap (fun _ => [(demoGst, gstCall)]) with hw
  have start0 : ∀ t, (w.th t).fin nnls gstHeap = (H1, [.ok (.ret (.one first))]) := by
    intro t; simp [hw, ShWorld.start, ShThread.fin, runCalls, c1, r1]
  have left0 : ∀ t, (w.th t).left nnls gstHeap = callsLen nnls [(demoGst, gstCall)] gstHeap := by
    intro t; simp [hw, ShWorld.start, ShThread.left]
  have run0 : ∀ t, ∃ B loc, (w.run nnls (List.replicate (callsLen nnls [(demoGst, gstCall)] gstHeap) t)).base = B ∧ B ++ loc = H1 ∧
      B.length = 4 ∧ ((w.run nnls (List.replicate (callsLen nnls [(demoGst, gstCall)] gstHeap) t)).th t).out = [.ok (.ret (.one first))] ∧
      Agree gstHeap (fun _ => True) B B ∧
      ∀ u, u ≠ t → (w.run nnls (List.replicate (callsLen nnls [(demoGst, gstCall)] gstHeap) t)).th u = w.th u := by
    intro t
    obtain ⟨i1, i2, i3, i4⟩ := solo nnls t (callsLen nnls [(demoGst, gstCall)] gstHeap) w (by intro x hx; cases hx) (start_agree gstHeap _)
    have hd := left_done (i4.trans (by rw [show w.base = gstHeap from rfl, left0 t]; omega))
    rw [hd, show w.base = gstHeap from rfl, start0 t] at i3
    exact ⟨_, _, rfl, congrArg Prod.fst i3, i1.len, congrArg Prod.snd i3, i1, i2⟩
  obtain ⟨B, loc, hB, hBl, hlen, _, hag, hoth⟩ := run0 0
  obtain ⟨_, _, _, _, _, hearly, _, _⟩ := run0 1
  have dB := drift_prefix (B := B) (loc := loc) (m := ⟨0, none⟩) (iv := ⟨1, none⟩) (by rw [hlen]; rfl) (by show 0 < 4; omega) (by show 1 < 4; omega) (by rw [hBl]; exact d1)
  obtain ⟨H3, c3, _⟩ := gstHeap_step nnls dB
  have r3 : demoGst.callV nnls B gstCall = .ok (.ret (.one last)) := by
    rw [← gst_callV nnls (loc := loc) (by omega), hBl]; exact r2
  refine ⟨gstHeap, demoGst, gstCall, List.replicate (callsLen nnls [(demoGst, gstCall)] gstHeap) 1,
    List.replicate (callsLen nnls [(demoGst, gstCall)] gstHeap) 0 ++ List.replicate (callsLen nnls [(demoGst, gstCall)] B) 1,
    first, last, x, hearly, ?_, hx1, ?_⟩
  · set w' := w.run nnls (List.replicate (callsLen nnls [(demoGst, gstCall)] gstHeap) 0) with hw'
    have hth : w'.th 1 = w.th 1 := hoth 1 (by omega)
    have e : w.run nnls (List.replicate (callsLen nnls [(demoGst, gstCall)] gstHeap) 0 ++ List.replicate (callsLen nnls [(demoGst, gstCall)] B) 1) =
        w'.run nnls (List.replicate (callsLen nnls [(demoGst, gstCall)] B) 1) := by
      rw [hw']; simp only [ShWorld.run, List.foldl_append]
    show ((w.run nnls _).th 1).out = _
    rw [e]
    obtain ⟨i1, i2, i3, i4⟩ := solo nnls 1 (callsLen nnls [(demoGst, gstCall)] B) w' (by rw [hth]; intro x hx; cases hx) (by rw [hB]; exact hag)
    have hl : (w'.th 1).left nnls w'.base = callsLen nnls [(demoGst, gstCall)] B := by
      rw [hth, hB]; simp [hw, ShWorld.start, ShThread.left]
    have hf : ((w'.th 1).fin nnls w'.base).2 = [.ok (.ret (.one last))] := by
      rw [hth, hB]; simp [hw, ShWorld.start, ShThread.fin, runCalls, c3, r3]
    have hd := left_done (i4.trans (by rw [hl]; omega))
    rw [hd] at i3
    rw [← hf, ← i3]
  · rw [hx2]
    have : gstOffset 2 = -0.036 := by simp [gstOffset]
    rw [this]
    congr 1
    push_cast
    ring

/-! ### Not vacuous -/

/-- C169_alone_partial: thread 0 corrects its own float32 arrays 0 and 1 with the GST object, thread 1 those of 2 and 3, and the others fit
float64 arrays with the same object; redshift and coefficients are shared by all. -/
example : NoRace [⟨true, .vec [1, 1, 1, 1, 1, 1, 1]⟩, ⟨true, .vec [1, 1, 1, 1, 1, 1, 1]⟩, ⟨true, .vec [2, 2, 2, 2, 2, 2, 2]⟩,
      ⟨true, .vec [1, 1, 1, 1, 1, 1, 1]⟩, ⟨false, .vec [3, 3, 3, 3, 3, 3, 3]⟩, ⟨false, .scalar 0⟩, ⟨true, .vec [1]⟩]
    (fun t => if t = 0 then [(demoGst, (.absmag (some ⟨0, none⟩) (some ⟨1, none⟩) (some ⟨5, none⟩) (some ⟨6, none⟩) 0 none false false false : Call ℝ))]
      else if t = 1 then [(demoGst, .absmag (some ⟨2, none⟩) (some ⟨3, none⟩) (some ⟨5, none⟩) (some ⟨6, none⟩) 0 none false false false)]
      else [(demoGst, .fit (some ⟨5, none⟩) (some ⟨4, none⟩) (some ⟨4, none⟩) 0 (fun _ _ _ => 0))]) := by
  intro t u htu x hx r hr y hy hmem
  obtain ⟨_, _, hp, c, hc, h32⟩ := hr
  simp only at hx hy
  split at hx <;> (try split at hx) <;> split at hy <;> (try split at hy) <;> simp only [List.mem_singleton] at hx hy <;> subst hx <;> subst hy <;>
    simp [callPhotometry, callArgs] at hp hmem <;>
    first
    | omega
    | (subst hp; simp at hc; subst hc; simp at h32)

/-- C169_unchanged: every thread fits the same float32 arrays with the SDSS object that corrects them, and then asks for absolute magnitudes. -/
example : ∀ t : Nat, ∀ x ∈ (fun _ : Nat => [(demoSdss, (.fit (some ⟨1, none⟩) (some ⟨0, none⟩) (some ⟨0, none⟩) 0 (fun _ _ _ => 0) : Call ℝ)),
      (demoSdss, .absmag (some ⟨0, none⟩) (some ⟨0, none⟩) (some ⟨1, none⟩) (some ⟨2, none⟩) 0 none true true true)]) t,
    CallOk [⟨true, .vec [1, 1, 1, 1, 1]⟩, ⟨false, .scalar 0⟩, ⟨false, .vec [1]⟩] x.1 x.2 := by
  intro t x hx
  have ok : ∀ (r : Nat), r < 3 → ArgOk [⟨true, .vec [1, 1, 1, 1, 1]⟩, ⟨false, .scalar 0⟩, ⟨false, .vec [(1 : ℝ)]⟩] (some ⟨r, none⟩) := by
    intro r hr w hw; cases hw
    obtain rfl | rfl | rfl : r = 0 ∨ r = 1 ∨ r = 2 := by omega
    all_goals exact ⟨⟨_, rfl, fun y _ _ => map_f32_real y⟩, _, rfl⟩
  have hs : demoSdss.cls ≠ .gst := by simp [demoSdss, Fitter.mk']
  simp only [List.mem_cons, List.not_mem_nil, or_false] at hx
  rcases hx with rfl | rfl
  · exact ⟨ok 1 (by omega), ok 0 (by omega), ok 0 (by omega), Or.inr (Or.inl hs)⟩
  · exact ⟨ok 1 (by omega), ok 0 (by omega), ok 0 (by omega), ok 2 (by omega), argOk_none, Or.inr (Or.inl hs)⟩

end KC
