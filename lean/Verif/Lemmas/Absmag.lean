import Verif.Lemmas.Kcorrect

/-! Absolute magnitudes of one object and of a batch, in terms of the two matrices. -/

namespace KC
open Spec
variable {α : Type} [Arith α]

/-- The rows `absmag` gives for one object: absolute magnitudes, then as requested reconstructed ones, limits, K-corrections. -/
def absRows (imap : List Nat) (l kk : Bool) (dm : α) (k m iv : List α) (o : Option (List α)) : List (List α) :=
  [zip3 (absEntry dm) k (gather m imap) (gather iv imap)] ++ (o.map (List.zipWith (recEntry dm) k)).toList ++
    (if l then [List.zipWith (limEntry dm) k (gather iv imap)] else []) ++ (if kk then [k] else [])

/-- Number of arrays returned. -/
def absCount (r l kk : Bool) : Nat := 1 + (if r then 1 else 0) + (if l then 1 else 0) + (if kk then 1 else 0)

theorem absRows_length (imap : List Nat) (l kk : Bool) (dm : α) (k m iv : List α) (o : Option (List α)) :
    (absRows imap l kk dm k m iv o).length = absCount o.isSome l kk := by
  unfold absRows absCount
  cases o <;> cases l <;> cases kk <;> simp

/-- One object.  `z`, `m`, `iv`, `c` are the arguments after `_process_inputs`. -/
def absOne (imap : List Nat) (A Ao : AMat α) (round : α → α) (r l kk : Bool) (bs dm z : α) (m iv c : List α) : Py (List (List α)) := do
  let k ← kOne imap A Ao round bs (f32 z) (c.map f32)
  let o ← if r then (Ao.at (shiftOf (f32 z) bs)).map (fun M => some (reconRow bs M (c.map f32))) else .ok none
  return absRows imap l kk dm k m iv o

/-- Distance modulus of one object, from the redshift or from the distance. -/
def dm1 (K : Kc α) (z : α) (dist : Option α) : α :=
  match dist with
  | none => K.distmod z
  | some d => lit (5 / 2) * log10 (dfactorOf (f32 d))

theorem dmOf_scalar {K : Kc α} (z : α) (m iv : Option (List (List α))) (c : List α) (hc : c.length = K.templates.nsed) (dist : Option α) :
    K.dmOf ⟨false, [z], m, iv, some [c]⟩ (dist.map .scalar) = .ok [dm1 K z dist] := by
  cases dist with
  | none => rfl
  | some d =>
    simp only [Kc.dmOf, Option.map_some, Inp.tbl, Bool.false_eq_true, if_false, vec_eq hc]
    rw [process_scalar _ d c hc, ok_bind]; rfl

theorem absI_scalar {K : Kc α} {A Ao : AMat α} (hA : K.Amatrix = some A) (hAo : K.AmatrixOut = some Ao) (z : α) (m iv c : List α)
    (hc : c.length = K.templates.nsed) (bs : α) (dist : Option α) (r l kk : Bool) :
    K.absmagI ⟨false, [z], some [m], some [iv], some [c]⟩ bs (dist.map .scalar) r l kk =
      (absOne K.imap A Ao id r l kk bs (dm1 K z dist) z m iv c).map
        (fun rows => mkRet (rows.map (fun row => .arr [] Ao.nrow [row]))) := by
  unfold Kc.absmagI
  rw [dmOf_scalar z _ _ c hc dist, ok_bind]
  simp only [Option.map_some, Inp.tbl, Inp.zArr, List.headD_cons, Bool.false_eq_true, if_false, vec_eq hc]
  rw [kcorrect_scalar hA hAo z c hc]
  unfold absOne
  cases hk : kOne K.imap A Ao id bs (f32 z) (c.map f32) with
  | error e => rfl
  | ok k =>
    simp only [Except.map, ok_bind]
    unfold Kc.reconstructOut
    rw [hAo, recon_scalar _ _ _ _ _ hc]
    cases r with
    | false => cases l <;> cases kk <;> rfl
    | true =>
      cases hM : Ao.at (shiftOf (f32 z) bs) with
      | error e => rfl
      | ok M => cases l <;> cases kk <;> rfl

theorem absmag_scalar {K : Kc α} (hF : NoAb K.toFitter) {A Ao : AMat α} (hA : K.Amatrix = some A) (hAo : K.AmatrixOut = some Ao) (z : α)
    (m iv c : List α) (hm : m.length = K.responses.length) (hiv : iv.length = K.responses.length)
    (hc : c.length = K.templates.nsed) (bs : α) (dist : Option α) (r l kk : Bool) :
    K.absmag (some (.vec m)) (some (.vec iv)) (some (.scalar z)) (some (.vec c)) bs (dist.map .scalar) r l kk =
      (absOne K.imap A Ao id r l kk bs (dm1 K (f32 z) dist) (f32 z) (m.map f32) (iv.map f32) (c.map f32)).map
        (fun rows => mkRet (rows.map (fun row => .arr [] Ao.nrow [row]))) := by
  unfold Kc.absmag
  rw [processInputs_scalar hF z (some (.vec m)) (some (.vec iv)) (some (.vec c))
    (by intro a ha; cases ha; simp [NDA.vec, NDA.shape, hm]) (by intro a ha; cases ha; simp [NDA.vec, NDA.shape, hiv])
    (by intro a ha; cases ha; simp [NDA.vec, NDA.shape, hc]), ok_bind]
  simp only [Option.map_some, rowsF_vec]
  exact absI_scalar hA hAo _ _ _ _ (by simpa using hc) bs dist r l kk

/-- Distance moduli of a batch. -/
def dms (K : Kc α) (zs : List α) (dist : Option (List α)) : List α :=
  match dist with
  | none => zs.map (fun z => dm1 K z none)
  | some ds => ds.map (fun d => dm1 K (lit 0) (some d))

theorem dmOf_array {K : Kc α} (zs : List α) (m iv : Option (List (List α))) (cs : List (List α))
    (dist : Option (List α)) (hd : ∀ ds ∈ dist, ds.length = zs.length) :
    K.dmOf ⟨true, zs, m, iv, some cs⟩ (dist.map .vec) = .ok (dms K zs dist) := by
  cases dist with
  | none => rfl
  | some ds =>
    simp only [Kc.dmOf, Option.map_some, Inp.tbl, if_true]
    have := hd ds (by simp)
    rw [← this, process_array, ok_bind]
    simp [dms, dm1]

/-- The objects of a batch. -/
def objs (d z : List α) (m iv c : List (List α)) : List (α × α × List α × List α × List α) :=
  List.zip d (List.zip z (List.zip m (List.zip iv c)))

/-- A call on a batch by rows, without the exceptions. -/
theorem absI_array {K : Kc α} {A Ao : AMat α} (hA : K.Amatrix = some A) (hAo : K.AmatrixOut = some Ao) (zs : List α)
    (ms ivs cs : List (List α)) (hm : ms.length = zs.length) (hiv : ivs.length = zs.length) (hcs : cs.length = zs.length) (bs : α)
    (dist : Option (List α)) (hd : ∀ ds ∈ dist, ds.length = zs.length) (r l kk : Bool) (ret : Ret α) :
    K.absmagI ⟨true, zs, some ms, some ivs, some cs⟩ bs (dist.map .vec) r l kk = .ok ret ↔
      ∃ rowss, List.Forall₂ (fun p rows => absOne K.imap A Ao f32 r l kk bs (p.1 * lit 1) p.2.1 p.2.2.1 p.2.2.2.1 p.2.2.2.2 = .ok rows)
        (objs (dms K zs dist) zs ms ivs cs) rowss ∧
        ret = mkRet ((List.range (absCount r l kk)).map (fun t => .arr [zs.length] Ao.nrow (rowss.map (fun rows => rows.getD t [])))) := by
  have hdl : (dms K zs dist).length = zs.length := by
    cases dist with
    | none => simp [dms]
    | some ds => simp [dms, hd ds (by simp)]
  have hol : (objs (dms K zs dist) zs ms ivs cs).length = zs.length := by simp [objs, hdl, hm, hiv, hcs]
  unfold Kc.absmagI
  rw [dmOf_array zs _ _ cs dist hd, ok_bind]
  simp only [Option.map_some, Inp.tbl, Inp.zArr, if_true]
  have ez : (NDA.arr [] zs.length [zs]) = NDA.vec zs := rfl
  rw [ez]
  obtain ⟨hok, _⟩ := kcorrect_array hA hAo zs cs hcs bs
  have hobj : ∀ i (hi : i < zs.length) (h : i < (objs (dms K zs dist) zs ms ivs cs).length),
      (objs (dms K zs dist) zs ms ivs cs)[i] = ((dms K zs dist)[i]'(by omega), zs[i], ms[i]'(by omega), ivs[i]'(by omega), cs[i]'(by omega)) := by
    intro i hi h
    simp [objs]
  cases hk : K.kcorrect (some (.vec zs)) (some (.arr [zs.length] K.templates.nsed cs)) bs with
  | error e =>
    refine ⟨fun h => (by cases h), ?_⟩
    rintro ⟨rowss, hf, _⟩
    exfalso
    have : ∃ krows, (List.zip zs cs).mapM (fun p => kOne K.imap A Ao f32 bs (f32 p.1) (p.2.map f32)) = .ok krows := by
      apply mapM_exists
      rintro ⟨z, c⟩ hp
      obtain ⟨i, hi, he⟩ := List.mem_iff_getElem.mp hp
      rw [List.getElem_zip] at he
      simp only [Prod.mk.injEq] at he
      have hi' : i < zs.length := by simp at hi; exact hi.1
      have hi2 : i < rowss.length := by rw [← hf.length_eq, hol]; exact hi'
      have := (List.forall₂_iff_get.mp hf).2 i (by rw [hol]; exact hi') hi2
      simp only [List.get_eq_getElem, hobj i hi'] at this
      rw [he.1, he.2] at this
      unfold absOne at this
      cases hk : kOne K.imap A Ao f32 bs (f32 z) (c.map f32) with
      | error e => rw [hk] at this; cases this
      | ok k => exact ⟨k, rfl⟩
    obtain ⟨krows, hkr⟩ := this
    rw [(hok _).mpr ⟨krows, mapM_ok_iff.mp hkr, rfl⟩] at hk
    cases hk
  | ok k =>
    obtain ⟨krows, hkf, rfl⟩ := (hok k).mp hk
    have hkl : krows.length = zs.length := by rw [← hkf.length_eq]; simp [hcs]
    have hkget : ∀ i (hi : i < zs.length), kOne K.imap A Ao f32 bs (f32 zs[i]) ((cs[i]'(by omega)).map f32) = .ok (krows[i]'(by omega)) := by
      intro i hi
      have := (List.forall₂_iff_get.mp hkf).2 i (by simp; omega) (by omega)
      simpa using this
    rw [ok_bind]
    unfold Kc.reconstructOut
    rw [hAo, recon_array]
    cases r with
    | false =>
      have key : List.Forall₂ (fun p rows => absOne K.imap A Ao f32 false l kk bs (p.1 * lit 1) p.2.1 p.2.2.1 p.2.2.2.1 p.2.2.2.2 = .ok rows)
          (objs (dms K zs dist) zs ms ivs cs)
          (List.zipWith (fun (p : α × α × List α × List α × List α) k => absRows K.imap l kk (p.1 * lit 1) k p.2.2.1 p.2.2.2.1 none)
            (objs (dms K zs dist) zs ms ivs cs) krows) := by
        rw [List.forall₂_iff_get]
        refine ⟨by simp [hol, hkl], ?_⟩
        intro i h1 h2
        have hi : i < zs.length := by rw [hol] at h1; exact h1
        simp only [List.get_eq_getElem, List.getElem_zipWith, hobj i hi]
        unfold absOne
        rw [hkget i hi, ok_bind]
        rfl
      have huniq : ∀ rowss, List.Forall₂ (fun p rows => absOne K.imap A Ao f32 false l kk bs (p.1 * lit 1) p.2.1 p.2.2.1 p.2.2.2.1 p.2.2.2.2 = .ok rows)
          (objs (dms K zs dist) zs ms ivs cs) rowss → rowss = (List.zipWith (fun (p : α × α × List α × List α × List α) k => absRows K.imap l kk (p.1 * lit 1) k p.2.2.1 p.2.2.2.1 none)
            (objs (dms K zs dist) zs ms ivs cs) krows) := by
        intro rowss h
        have h1 := mapM_ok_iff.mpr h
        have h2 := mapM_ok_iff.mpr key
        rw [h1] at h2
        simpa using h2
      have hret : mkRet ((List.range (absCount false l kk)).map (fun t => NDA.arr [zs.length] Ao.nrow ((List.zipWith (fun (p : α × α × List α × List α × List α) k => absRows K.imap l kk (p.1 * lit 1) k p.2.2.1 p.2.2.2.1 none)
            (objs (dms K zs dist) zs ms ivs cs) krows).map (fun rows => rows.getD t [])))) =
          mkRet (NDA.arr [zs.length] Ao.nrow (List.zipWith (fun d p => zip3 (fun k m v => absEntry d k m v) p.1 p.2.1 p.2.2)
              ((dms K zs dist).map (fun d => d * lit 1)) (List.zip krows (List.zip (ms.map (fun r => gather r K.imap)) (ivs.map (fun r => gather r K.imap))))) ::
            [] ++ (if l then [NDA.arr [zs.length] Ao.nrow (zip3 (fun d k v => List.zipWith (limEntry d) k v) ((dms K zs dist).map (fun d => d * lit 1)) krows
              (ivs.map (fun r => gather r K.imap)))] else []) ++ if kk then [NDA.arr [zs.length] Ao.nrow krows] else []) := by
        congr 1
        have e1 : (List.zipWith (fun (p : α × α × List α × List α × List α) k => zip3 (absEntry (p.1 * lit 1)) k (gather p.2.2.1 K.imap) (gather p.2.2.2.1 K.imap))
            (objs (dms K zs dist) zs ms ivs cs) krows) =
            List.zipWith (fun d p => zip3 (fun k m v => absEntry d k m v) p.1 p.2.1 p.2.2)
              ((dms K zs dist).map (fun d => d * lit 1)) (List.zip krows (List.zip (ms.map (fun r => gather r K.imap)) (ivs.map (fun r => gather r K.imap)))) := by
          apply List.ext_getElem
          · simp [hol, hkl, hdl, hm, hiv]
          · intro i h1 h2
            have hi : i < zs.length := by simp [hol] at h1; exact h1.1
            simp [hobj i hi]
        have e2 : (List.zipWith (fun (p : α × α × List α × List α × List α) k => List.zipWith (limEntry (p.1 * lit 1)) k (gather p.2.2.2.1 K.imap))
            (objs (dms K zs dist) zs ms ivs cs) krows) =
            zip3 (fun d k v => List.zipWith (limEntry d) k v) ((dms K zs dist).map (fun d => d * lit 1)) krows (ivs.map (fun r => gather r K.imap)) := by
          apply List.ext_getElem
          · simp [hol, hkl, hdl, hiv, zip3]
          · intro i h1 h2
            have hi : i < zs.length := by simp [hol] at h1; exact h1.1
            simp [hobj i hi, zip3]
        have e3 : (List.zipWith (fun (p : α × α × List α × List α × List α) k => k) (objs (dms K zs dist) zs ms ivs cs) krows) = krows := by
          apply List.ext_getElem
          · simp [hol, hkl]
          · intro i h1 h2; simp
        rw [← e1, ← e2]
        cases l <;> cases kk <;> simp [absCount, List.range_succ, absRows, List.map_zipWith, e3]
      constructor
      · intro h
        refine ⟨_, key, ?_⟩
        rw [hret]
        cases h
        rfl
      · rintro ⟨rowss, hf, rfl⟩
        rw [huniq rowss hf, hret]
        rfl
    | true =>
      cases hMo : Ao.atAll (zs.map (fun z => shiftOf (f32 z) bs)) with
      | error e =>
        refine ⟨fun h => (by cases h), ?_⟩
        rintro ⟨rowss, hf, _⟩
        exfalso
        have : ∃ Ms, Ao.atAll (zs.map (fun z => shiftOf (f32 z) bs)) = .ok Ms := by
          apply mapM_exists
          intro q hq
          obtain ⟨z, hz, rfl⟩ := List.mem_map.mp hq
          obtain ⟨i, hi', rfl⟩ := List.mem_iff_getElem.mp hz
          have hi2 : i < rowss.length := by rw [← hf.length_eq, hol]; exact hi'
          have := (List.forall₂_iff_get.mp hf).2 i (by rw [hol]; exact hi') hi2
          simp only [List.get_eq_getElem, hobj i hi'] at this
          unfold absOne at this
          rw [hkget i hi', ok_bind] at this
          cases ho : Ao.at (shiftOf (f32 zs[i]) bs) with
          | error e => rw [ho] at this; cases this
          | ok k => exact ⟨k, rfl⟩
        obtain ⟨Ms, h⟩ := this
        rw [hMo] at h; cases h
      | ok Mos =>
        have hfO := mapM_ok_iff.mp hMo
        rw [List.forall₂_map_left_iff] at hfO
        have hMl : Mos.length = zs.length := hfO.length_eq.symm
        have hMget : ∀ i (hi : i < zs.length), Ao.at (shiftOf (f32 zs[i]) bs) = .ok (Mos[i]'(by omega)) := by
          intro i hi
          have := (List.forall₂_iff_get.mp hfO).2 i hi (by omega)
          simpa using this
        let orows := List.zipWith (reconRow bs) Mos (cs.map (List.map f32))
        have hor : orows.length = zs.length := by simp [orows, hMl, hcs]
        have horget : ∀ i (hi : i < zs.length), orows[i]'(by omega) = reconRow bs (Mos[i]'(by omega)) ((cs[i]'(by omega)).map f32) := by
          intro i hi; simp [orows]
        let R := List.zipWith (fun (p : α × α × List α × List α × List α) (q : List α × List α) =>
          absRows K.imap l kk (p.1 * lit 1) q.1 p.2.2.1 p.2.2.2.1 (some q.2)) (objs (dms K zs dist) zs ms ivs cs) (List.zip krows orows)
        have key : List.Forall₂ (fun p rows => absOne K.imap A Ao f32 true l kk bs (p.1 * lit 1) p.2.1 p.2.2.1 p.2.2.2.1 p.2.2.2.2 = .ok rows)
            (objs (dms K zs dist) zs ms ivs cs) R := by
          rw [List.forall₂_iff_get]
          refine ⟨by simp [R, hol, hkl, hor], ?_⟩
          intro i h1 h2
          have hi : i < zs.length := by rw [hol] at h1; exact h1
          simp only [R, List.get_eq_getElem, List.getElem_zipWith, List.getElem_zip, hobj i hi]
          unfold absOne
          rw [hkget i hi, ok_bind, hMget i hi, horget i hi]
          rfl
        have huniq : ∀ rowss, List.Forall₂ (fun p rows => absOne K.imap A Ao f32 true l kk bs (p.1 * lit 1) p.2.1 p.2.2.1 p.2.2.2.1 p.2.2.2.2 = .ok rows)
            (objs (dms K zs dist) zs ms ivs cs) rowss → rowss = R := by
          intro rowss h
          have h1 := mapM_ok_iff.mpr h
          have h2 := mapM_ok_iff.mpr key
          rw [h1] at h2
          simpa using h2
        have hret : mkRet ((List.range (absCount true l kk)).map (fun t => NDA.arr [zs.length] Ao.nrow (R.map (fun rows => rows.getD t [])))) =
            mkRet (NDA.arr [zs.length] Ao.nrow (List.zipWith (fun d p => zip3 (fun k m v => absEntry d k m v) p.1 p.2.1 p.2.2)
                ((dms K zs dist).map (fun d => d * lit 1)) (List.zip krows (List.zip (ms.map (fun r => gather r K.imap)) (ivs.map (fun r => gather r K.imap))))) ::
              [NDA.arr [zs.length] Ao.nrow (zip3 (fun d k o => List.zipWith (recEntry d) k o) ((dms K zs dist).map (fun d => d * lit 1)) krows orows)] ++
              (if l then [NDA.arr [zs.length] Ao.nrow (zip3 (fun d k v => List.zipWith (limEntry d) k v) ((dms K zs dist).map (fun d => d * lit 1)) krows
                (ivs.map (fun r => gather r K.imap)))] else []) ++ if kk then [NDA.arr [zs.length] Ao.nrow krows] else []) := by
          congr 1
          have e1 : (List.zipWith (fun (p : α × α × List α × List α × List α) (q : List α × List α) => zip3 (absEntry (p.1 * lit 1)) q.1 (gather p.2.2.1 K.imap) (gather p.2.2.2.1 K.imap))
              (objs (dms K zs dist) zs ms ivs cs) (List.zip krows orows)) =
              List.zipWith (fun d p => zip3 (fun k m v => absEntry d k m v) p.1 p.2.1 p.2.2)
                ((dms K zs dist).map (fun d => d * lit 1)) (List.zip krows (List.zip (ms.map (fun r => gather r K.imap)) (ivs.map (fun r => gather r K.imap)))) := by
            apply List.ext_getElem
            · simp [hol, hkl, hdl, hm, hiv, hor]
            · intro i h1 h2
              have hi : i < zs.length := by simp [hol] at h1; exact h1.1
              simp [hobj i hi]
          have e0 : (List.zipWith (fun (p : α × α × List α × List α × List α) (q : List α × List α) => List.zipWith (recEntry (p.1 * lit 1)) q.1 q.2)
              (objs (dms K zs dist) zs ms ivs cs) (List.zip krows orows)) =
              zip3 (fun d k o => List.zipWith (recEntry d) k o) ((dms K zs dist).map (fun d => d * lit 1)) krows orows := by
            apply List.ext_getElem
            · simp [hol, hkl, hdl, hor, zip3]
            · intro i h1 h2
              have hi : i < zs.length := by simp [hol] at h1; exact h1.1
              simp [hobj i hi, zip3]
          have e2 : (List.zipWith (fun (p : α × α × List α × List α × List α) (q : List α × List α) => List.zipWith (limEntry (p.1 * lit 1)) q.1 (gather p.2.2.2.1 K.imap))
              (objs (dms K zs dist) zs ms ivs cs) (List.zip krows orows)) =
              zip3 (fun d k v => List.zipWith (limEntry d) k v) ((dms K zs dist).map (fun d => d * lit 1)) krows (ivs.map (fun r => gather r K.imap)) := by
            apply List.ext_getElem
            · simp [hol, hkl, hdl, hiv, zip3, hor]
            · intro i h1 h2
              have hi : i < zs.length := by simp [hol] at h1; exact h1.1
              simp [hobj i hi, zip3]
          have e3 : (List.zipWith (fun (p : α × α × List α × List α × List α) (q : List α × List α) => q.1) (objs (dms K zs dist) zs ms ivs cs) (List.zip krows orows)) = krows := by
            apply List.ext_getElem
            · simp [hol, hkl, hor]
            · intro i h1 h2; simp
          rw [← e1, ← e2, ← e0]
          cases l <;> cases kk <;> simp [absCount, List.range_succ, absRows, List.map_zipWith, e3, R]
        constructor
        · intro h
          refine ⟨_, key, ?_⟩
          rw [hret]
          cases h
          rfl
        · rintro ⟨rowss, hf, rfl⟩
          rw [huniq rowss hf, hret]
          rfl

end KC
