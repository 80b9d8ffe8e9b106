import Verif.Lemmas.Kcorrect

/-! Derived quantities of one object and of a batch. -/

namespace KC
open Spec
variable {α : Type} [Arith α]

/-- The template tables all have one entry per template. -/
structure MassOK (t : Tmpl α) (n : Nat) : Prop where
  intsfh : t.intsfh.length = n
  mremain : t.mremain.length = n
  mets : t.mets.length = n
  m50 : t.m50.length = n
  m300 : t.m300.length = n
  m1000 : t.m1000.length = n

/-- `f[n].solar_magnitude` for use in a sum -/
def solMag (g : Reg α) (n : Name) : Py α :=
  match g n with
  | none => .error .keyError
  | some o =>
    match o.solarMag with
    | none => .error .typeError
    | some s => .ok s

theorem solarOf_some (g : Reg α) (dms : List α) (n : Name) :
    solarOf g (some dms) n = (solMag g n).map (fun s => dms.map (fun d => pow10 (lit (-2 / 5) * (s + d)))) := by
  unfold solarOf solMag
  cases g n with
  | none => rfl
  | some o =>
    simp only [ok_bind]
    cases o.solarMag <;> rfl

theorem mapM_map {β γ δ : Type} (f : β → Py γ) (h : γ → δ) (l : List β) :
    l.mapM (fun b => (f b).map h) = (l.mapM f).map (List.map h) := by
  induction l with
  | nil => rfl
  | cons b l ih =>
    rw [List.mapM_cons, List.mapM_cons, ih]
    cases f b with
    | error e => rfl
    | ok v => cases l.mapM f <;> rfl

theorem mapM_replicate {β γ : Type} (f : β → Py γ) (b : β) (n : Nat) {c : γ} (h : f b = .ok c) :
    (List.replicate n b).mapM f = .ok (List.replicate n c) := by
  induction n with
  | zero => rfl
  | succ n ih => rw [List.replicate_succ, List.mapM_cons, h, ih]; rfl

/-- One row of `mtol`. -/
def mtolRow (ss : List α) (dm mass : α) (row : List α) : List α :=
  row.mapIdx (fun j v => mtolEntry mass (match ss[j]? with
    | some s => f32 (v / pow10 (lit (-2 / 5) * (s + dm)))
    | none => v))

/-- Derived quantities of one object. -/
structure Der1 (α : Type) where
  mremain : α
  intsfh : α
  mtol : List α
  b50 : α
  b300 : α
  b1000 : α
  metallicity : α

def derVals (t : Tmpl α) (round unit : α → α) (bs dm : α) (M : List (List α)) (ss c : List α) : Der1 α :=
  let df := pow10 (lit (2 / 5) * dm)
  let w (v : List α) : α := dot c v * df
  ⟨w t.mremain, w t.intsfh, mtolRow ss dm (unit (w t.mremain)) (reconRow bs M (c.map f32)),
    ratio round (w t.mremain) (w t.m50) (w t.intsfh), ratio round (w t.mremain) (w t.m300) (w t.intsfh),
    ratio round (w t.mremain) (w t.m1000) (w t.intsfh),
    ratio round (w t.mremain) (w (List.zipWith (fun x y => x * y) t.mremain t.mets)) (w t.mremain)⟩

/-- One object: `c` are the coefficients in single precision, `dm` the distance modulus. -/
def derOne (K : Kc α) (g : Reg α) (t : Tmpl α) (Ao : AMat α) (round unit : α → α) (bs dm : α) (c : List α) : Py (Der1 α) := do
  let M ← Ao.at (shiftOf (f32 (lit 0)) bs)
  let ss ← K.responsesOut.mapM (solMag g)
  return derVals t round unit bs dm M ss c

theorem derived_scalar {K : Kc α} {t : Tmpl α} (ht : K.templates = .template t) (hm : MassOK t K.templates.nsed) {Ao : AMat α}
    (hAo : K.AmatrixOut = some Ao) (g : Reg α) (z : α) (c : List α) (hc : c.length = K.templates.nsed) (bs : α) :
    K.derived g (some (.scalar z)) (some (.vec c)) bs none =
      (derOne K g t Ao id id bs (K.distmod (f32 z)) (c.map f32)).map (fun d =>
        ⟨.scalar d.mremain, .scalar d.intsfh, .arr [] Ao.nrow [d.mtol], .scalar d.b50, .scalar d.b300, .scalar d.b1000,
          .scalar d.metallicity⟩) := by
  unfold Kc.derived
  rw [process_scalar _ z c hc, ok_bind]
  have hmass : K.templates.mass = .ok t := by rw [ht]; rfl
  have hcf : (c.map f32).length = K.templates.nsed := by simpa using hc
  unfold Kc.derivedI
  have hz : (List.zipWith (fun x y => x * y) t.mremain t.mets).length = K.templates.nsed := by simp [hm.mremain, hm.mets]
  simp only [pure_py, ok_bind, List.map_cons, List.map_nil, hmass, dotPy, hm.intsfh, hm.mremain, hm.mets, hm.m50, hm.m300, hm.m1000,
    hz, if_true, Option.map_some, Inp.tbl, Bool.false_eq_true, if_false, vec_eq hcf, Inp.vecArr, List.length_cons, List.length_nil, zeros,
    List.headD_cons, Nat.zero_add, List.replicate_one, require_true]
  unfold Kc.reconstructOut
  rw [hAo, recon_scalar _ _ _ _ _ hcf]
  unfold derOne
  cases hM : Ao.at (shiftOf (f32 (lit 0)) bs) with
  | error e => rfl
  | ok M =>
    have hs : K.responsesOut.mapM (solarOf g (some [K.distmod (f32 z)])) =
        (K.responsesOut.mapM (solMag g)).map (List.map (fun s => [pow10 (lit (-2 / 5) * (s + K.distmod (f32 z)))])) := by
      rw [← mapM_map]
      exact mapM_congr (fun n _ => solarOf_some g _ n)
    simp only [Except.map, ok_bind, hs]
    cases hS : K.responsesOut.mapM (solMag g) with
    | error e => rfl
    | ok ss =>
      simp only [ok_bind]
      rw [require_true (by simp), ok_bind]
      simp only [pure_py, Except.ok.injEq, NDA.rows, NDA.withRows, derVals, Derived.mk.injEq, true_and, zip3, List.zipWith_cons_cons,
        List.zip_cons_cons, List.zip_nil_right, List.zipWith_nil_right, List.headD_cons, List.mapIdx_cons, List.mapIdx_nil, and_true]
      refine congrArg (fun x => NDA.arr [] Ao.nrow [x]) ?_
      apply List.ext_getElem?
      intro j
      simp only [List.getElem?_map, List.getElem?_mapIdx, mtolRow, Option.map_map]
      cases (reconRow bs M ((c.map f32).map f32))[j]? with
      | none => rfl
      | some v => cases hj : ss[j]? <;> rfl

theorem at_replicate (Ao : AMat α) (q : α) (n : Nat) (Ms : List (List (List α))) :
    Ao.atAll (List.replicate n q) = .ok Ms ↔ (n = 0 ∧ Ms = []) ∨ (0 < n ∧ ∃ M, Ao.at q = .ok M ∧ Ms = List.replicate n M) := by
  cases n with
  | zero =>
    simp only [List.replicate_zero, AMat.atAll, List.mapM_nil, pure_py, Except.ok.injEq, true_and, lt_self_iff_false, false_and, or_false]
    exact eq_comm
  | succ n =>
    cases h : Ao.at q with
    | error e =>
      simp only [AMat.atAll, List.replicate_succ, List.mapM_cons, h]
      simp
    | ok M =>
      simp only [AMat.atAll]
      rw [mapM_replicate _ _ _ h]
      simp [eq_comm]

theorem zipWith_map_same {β γ δ ε : Type} (f : γ → δ → ε) (a : β → γ) (b : β → δ) (Z : List β) :
    List.zipWith f (Z.map a) (Z.map b) = Z.map (fun p => f (a p) (b p)) := by
  induction Z with
  | nil => rfl
  | cons p Z ih => simp [ih]

theorem zip3_map_same {β γ δ ε ζ : Type} (f : γ → δ → ε → ζ) (a : β → γ) (b : β → δ) (c : β → ε) (Z : List β) :
    zip3 f (Z.map a) (Z.map b) (Z.map c) = Z.map (fun p => f (a p) (b p) (c p)) := by
  induction Z with
  | nil => rfl
  | cons p Z ih => simp only [zip3] at ih; simp [zip3, ih]

theorem forall₂_ok {β γ : Type} (F : β → γ) (Z : List β) (ds : List γ) :
    List.Forall₂ (fun p d => (.ok (F p) : Py γ) = .ok d) Z ds ↔ ds = Z.map F := by
  constructor
  · intro h
    induction h with
    | nil => rfl
    | cons h _ ih => cases h; rw [ih]; rfl
  · rintro rfl
    induction Z with
    | nil => exact .nil
    | cons p Z ih => exact .cons rfl ih

theorem derived_array {K : Kc α} {t : Tmpl α} (ht : K.templates = .template t) (hm : MassOK t K.templates.nsed) {Ao : AMat α}
    (hAo : K.AmatrixOut = some Ao) (g : Reg α) (zs : List α) (cs : List (List α)) (hcs : cs.length = zs.length) (bs : α) (D : Derived α) :
    K.derived g (some (.vec zs)) (some (.arr [zs.length] K.templates.nsed cs)) bs none = .ok D ↔
      K.responses.length = K.responsesOut.length ∧ (∃ ss, K.responsesOut.mapM (solMag g) = .ok ss) ∧
      ∃ ds, List.Forall₂ (fun p d => derOne K g t Ao f32 (fun x => x * lit 1) bs (K.distmod (f32 p.1)) (p.2.map f32) = .ok d) (List.zip zs cs) ds ∧
        D = ⟨.vec (ds.map (·.mremain)), .vec (ds.map (·.intsfh)), .arr [zs.length] Ao.nrow (ds.map (·.mtol)), .vec (ds.map (·.b50)),
          .vec (ds.map (·.b300)), .vec (ds.map (·.b1000)), .vec (ds.map (·.metallicity))⟩ := by
  unfold Kc.derived
  rw [process_array, ok_bind]
  have hmass : K.templates.mass = .ok t := by rw [ht]; rfl
  unfold Kc.derivedI
  have hz : (List.zipWith (fun x y => x * y) t.mremain t.mets).length = K.templates.nsed := by simp [hm.mremain, hm.mets]
  simp only [pure_py, ok_bind, hmass, dotPy, hm.intsfh, hm.mremain, hm.mets, hm.m50, hm.m300, hm.m1000,
    hz, if_true, Option.map_some, Inp.tbl, Inp.vecArr, require_true, List.length_map]
  unfold Kc.reconstructOut
  have hrec := recon_array K.toFitter Ao (zeros zs.length) (cs.map (List.map f32)) bs
  simp only [zeros, List.length_replicate, List.map_replicate] at hrec
  simp only [zeros, hAo, hrec]
  have hs : K.responsesOut.mapM (solarOf g (some ((zs.map f32).map K.distmod))) =
        (K.responsesOut.mapM (solMag g)).map (List.map (fun s => ((zs.map f32).map K.distmod).map (fun d => pow10 (lit (-2 / 5) * (s + d))))) := by
      rw [← mapM_map]
      exact mapM_congr (fun n _ => solarOf_some g _ n)
  rw [hs]
  clear hs hrec
  obtain ⟨Z, rfl, rfl⟩ : ∃ Z : List (α × List α), zs = Z.map Prod.fst ∧ cs = Z.map Prod.snd :=
    ⟨List.zip zs cs, (List.map_fst_zip (by omega)).symm, (List.map_snd_zip (by omega)).symm⟩
  have hZ : List.zip (Z.map Prod.fst) (Z.map Prod.snd) = Z := by
    rw [List.zip_eq_zipWith, zipWith_map_same]; simp
  rw [hZ]
  simp only [List.length_map, List.map_map, zipWith_map_same, zip3_map_same]
  cases hS : K.responsesOut.mapM (solMag g) with
  | error e =>
    constructor
    · intro h
      cases hMs : Ao.atAll (List.replicate Z.length (shiftOf (f32 (lit 0)) bs)) with
      | error e => rw [hMs] at h; cases h
      | ok Ms => rw [hMs] at h; cases h
    · rintro ⟨_, ⟨ss, h⟩, _⟩; cases h
  | ok ss =>
    cases hM : Ao.at (shiftOf (f32 (lit 0)) bs) with
    | error e =>
      cases Z with
      | nil =>
        simp only [List.length_nil, List.replicate_zero, AMat.atAll, List.mapM_nil, pure_py, Except.map, ok_bind]
        by_cases hl : K.responses.length = K.responsesOut.length
        · rw [require_true (fun _ => hl), ok_bind]
          simp only [Except.ok.injEq, hl, true_and]
          constructor
          · intro h; exact ⟨⟨ss, rfl⟩, [], .nil, h.symm⟩
          · rintro ⟨_, ds, hd, rfl⟩; cases hd; rfl
        · rw [require_false (by simpa using hl)]
          constructor
          · intro h; cases h
          · rintro ⟨h, _⟩; exact absurd h hl
      | cons p Z =>
        constructor
        · intro h
          simp only [List.length_cons, List.replicate_succ, AMat.atAll, List.mapM_cons, hM] at h
          cases h
        · rintro ⟨_, _, ds, hd, _⟩
          cases hd with
          | cons h _ =>
            unfold derOne at h
            rw [hM] at h; cases h
    | ok M =>
      have hat : Ao.atAll (List.replicate Z.length (shiftOf (f32 (lit 0)) bs)) = .ok (Z.map (fun _ => M)) := by
        unfold AMat.atAll
        rw [mapM_replicate _ _ _ hM]
        simp
      have hd : ∀ ds, List.Forall₂ (fun p d => derOne K g t Ao f32 (fun x => x * lit 1) bs (K.distmod (f32 p.1)) (p.2.map f32) = .ok d) Z ds ↔
          ds = Z.map (fun p => derVals t f32 (fun x => x * lit 1) bs (K.distmod (f32 p.1)) M ss (p.2.map f32)) := by
        intro ds
        rw [← forall₂_ok]
        have : ∀ p : α × List α, derOne K g t Ao f32 (fun x => x * lit 1) bs (K.distmod (f32 p.1)) (p.2.map f32) =
            .ok (derVals t f32 (fun x => x * lit 1) bs (K.distmod (f32 p.1)) M ss (p.2.map f32)) := by
          intro p; unfold derOne; rw [hM, ok_bind, hS]; rfl
        simp only [this]
      rw [hat]
      simp only [hd, Except.map, ok_bind]
      by_cases hl : K.responses.length = K.responsesOut.length
      · rw [require_true (fun _ => hl), ok_bind]
        simp only [Except.ok.injEq, hl, true_and]
        have key : ∀ (D0 : Derived α) (F : List (Der1 α) → Derived α) (X : List (Der1 α)), D0 = F X →
            (D0 = D ↔ (∃ ss', ss = ss') ∧ ∃ ds, ds = X ∧ D = F ds) := by
          intro D0 F X h
          constructor
          · intro h'; exact ⟨⟨ss, rfl⟩, X, rfl, by rw [← h', h]⟩
          · rintro ⟨_, ds, rfl, rfl⟩; exact h
        refine key _ _ _ ?_
        simp only [List.map_map, NDA.rows, NDA.withRows, zipWith_map_same, Derived.mk.injEq, NDA.vec, List.length_map, Function.comp_def,
          derVals, true_and, and_true]
        refine congrArg (NDA.arr [Z.length] Ao.nrow) ?_
        apply List.ext_getElem?
        intro k
        simp only [List.getElem?_zipWith, List.getElem?_map, List.getElem?_mapIdx]
        cases hk : Z[k]? with
        | none => rfl
        | some p =>
          simp only [Option.map_some, mtolRow, Option.some.injEq]
          apply List.ext_getElem?
          intro j
          simp only [List.getElem?_map, List.getElem?_mapIdx]
          cases (reconRow bs M (p.2.map (fun x => f32 (f32 x))))[j]? with
          | none => rfl
          | some v =>
            cases hj : ss[j]? with
            | none => rfl
            | some s =>
              simp only [Option.map_some]
              rw [ent_eq (x := pow10 (lit (-2 / 5) * (s + K.distmod (f32 p.1)))) (by simp [hk])]
      · rw [require_false (by simpa using hl)]
        constructor
        · intro h; cases h
        · rintro ⟨h, _⟩; exact absurd h hl

end KC
