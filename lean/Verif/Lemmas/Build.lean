import Verif.Lemmas.AMat
import Verif.Lemmas.Sed
import Verif.Lemmas.Registry
import Verif.Lemmas.Project

/-! Building the A matrix. -/

namespace KC
variable {α : Type} [Arith α]

/-- Two template objects that differ only in their current redshift. -/
structure SameRest (s t : Sed α) : Prop where
  wave : t.restWave = s.restWave
  flux : t.restFlux = s.restFlux
  ip : t.interpolate = s.interpolate
  bi : t.binimage = s.binimage
  off : s.interpolate = false → t.interp = s.interp

theorem SameRest.refl (s : Sed α) : SameRest s s := ⟨rfl, rfl, rfl, rfl, fun _ => rfl⟩

theorem SameRest.trans {s t u : Sed α} (h : SameRest s t) (k : SameRest t u) : SameRest s u :=
  ⟨k.wave.trans h.wave, k.flux.trans h.flux, k.ip.trans h.ip, k.bi.trans h.bi,
    fun h0 => (k.off (h.ip.trans h0)).trans (h.off h0)⟩

theorem sameRest_setRedshift (s : Sed α) (z : α) : SameRest s (s.setRedshift z).1 := by
  obtain ⟨h1, h2, _, _, _, h6, h7⟩ := setRedshift_fields s z
  exact ⟨h1, h2, h6, h7, fun h => (setRedshift_interp_off s z h).1⟩

/-- `set_redshift` forgets the redshift the object was at. -/
theorem SameRest.setRedshift {s t : Sed α} (h : SameRest s t) (z : α) {u : Sed α} (hu : t.setRedshift z = (u, .ok ())) :
    s.setRedshift z = (u, .ok ()) := by
  rw [← hu]
  cases s with
  | mk rw1 rf w f r ip itp bi =>
    cases t with
    | mk rw2 rf2 w2 f2 r2 ip2 itp2 bi2 =>
      obtain ⟨h1, h2, h3, h4, h5⟩ := h
      simp only at h1 h2 h3 h4 h5
      subst h1 h2 h3 h4
      unfold Sed.setRedshift Sed.setInterp at *
      simp only at *
      cases hip : ip2 with
      | false => simp only [hip, Bool.false_eq_true, if_false]; rw [h5 hip]
      | true =>
        simp only [hip, if_true] at *
        cases hm : mkInterp (rw2.map (fun w => w * (lit 1 + z))) (rf2.map (List.map (fun f => f / (lit 1 + z)))) with
        | ok i => simp only [hm]
        | error e => simp only [hm] at hu; cases hu

theorem gridLoop_ok (lib : Lib α) (g : Reg α) (rs : List Name) (zs : List α) : ∀ (s s' : Sed α) (ms : List (List (List α))),
    gridLoop lib g rs zs s = (s', .ok ms) → SameRest s s' ∧
      List.Forall₂ (fun z M => ∃ t, s.setRedshift z = (t, .ok ()) ∧ rs.mapM (respRow lib g t) = .ok M) zs ms := by
  induction zs with
  | nil =>
    intro s s' ms h
    simp only [gridLoop, Prod.mk.injEq, Except.ok.injEq] at h
    obtain ⟨rfl, rfl⟩ := h
    exact ⟨SameRest.refl _, .nil⟩
  | cons z zs ih =>
    intro s s' ms h
    unfold gridLoop at h
    cases hz : s.setRedshift z with
    | mk s1 r =>
      rw [hz] at h
      cases r with
      | error e => simp at h
      | ok _ =>
        simp only at h
        cases hm : rs.mapM (respRow lib g s1) with
        | error e => rw [hm] at h; simp at h
        | ok M =>
          rw [hm] at h
          simp only at h
          cases hg : gridLoop lib g rs zs s1 with
          | mk s2 r2 =>
            rw [hg] at h
            cases r2 with
            | error e => simp at h
            | ok ms' =>
              simp only [Prod.mk.injEq, Except.ok.injEq] at h
              obtain ⟨rfl, rfl⟩ := h
              obtain ⟨h1, h2⟩ := ih _ _ _ hg
              have hsr : SameRest s s1 := by have := sameRest_setRedshift s z; rwa [hz] at this
              refine ⟨hsr.trans h1, .cons ⟨s1, hz, hm⟩ (h2.imp ?_)⟩
              rintro z' M' ⟨t, ht, hM'⟩
              exact ⟨t, hsr.setRedshift z' ht, hM'⟩

theorem gridLoop_rest (lib : Lib α) (g : Reg α) (rs : List Name) (zs : List α) : ∀ s : Sed α,
    SameRest s (gridLoop lib g rs zs s).1 := by
  induction zs with
  | nil => intro s; exact SameRest.refl _
  | cons z zs ih =>
    intro s
    unfold gridLoop
    have h0 := sameRest_setRedshift s z
    cases hz : s.setRedshift z with
    | mk s1 r =>
      rw [hz] at h0
      cases r with
      | error e => exact h0
      | ok _ =>
        simp only
        cases hm : rs.mapM (respRow lib g s1) with
        | error e => exact h0
        | ok M =>
          simp only
          have h1 := ih s1
          cases hg : gridLoop lib g rs zs s1 with
          | mk s2 r2 =>
            rw [hg] at h1
            cases r2 with
            | error e => exact h0.trans h1
            | ok ms' => exact h0.trans h1

theorem calcAmatrix_ok {lib : Lib α} {disk : Disk α} {zs : List α} {rs : List Name} {w w' : Shared α} {A : AMat α}
    (h : calcAmatrix lib disk zs rs w = (w', .ok A)) :
    loadMissing lib disk rs w.reg = (w'.reg, .ok ()) ∧ w.sed.setRedshift (lit 0) = (w'.sed, .ok ()) ∧
    ∃ ms, mkAMat zs ms rs.length w.sed.nsed = .ok A ∧
      List.Forall₂ (fun z M => ∃ t, w.sed.setRedshift z = (t, .ok ()) ∧ rs.mapM (respRow lib w'.reg t) = .ok M) zs ms := by
  unfold calcAmatrix at h
  cases hl : loadMissing lib disk rs w.reg with
  | mk g r =>
    rw [hl] at h
    cases r with
    | error e => simp at h
    | ok u =>
      simp only at h
      cases hg : gridLoop lib g rs zs w.sed with
      | mk s r =>
        rw [hg] at h
        cases r with
        | error e => simp at h
        | ok ms =>
          simp only at h
          cases hm : mkAMat zs ms rs.length w.sed.nsed with
          | error e => rw [hm] at h; simp at h
          | ok A' =>
            rw [hm] at h
            simp only at h
            cases hz : s.setRedshift (lit 0) with
            | mk s' r =>
              rw [hz] at h
              cases r with
              | error e => simp at h
              | ok v =>
                simp only [Prod.mk.injEq, Except.ok.injEq] at h
                obtain ⟨rfl, rfl⟩ := h
                obtain ⟨h1, h2⟩ := gridLoop_ok lib g rs zs _ _ _ hg
                exact ⟨rfl, h1.setRedshift _ hz, ms, hm, h2⟩

theorem calcAmatrix_rest (lib : Lib α) (disk : Disk α) (zs : List α) (rs : List Name) (w : Shared α) :
    SameRest w.sed (calcAmatrix lib disk zs rs w).1.sed := by
  unfold calcAmatrix
  cases hl : loadMissing lib disk rs w.reg with
  | mk g r =>
    cases r with
    | error e => exact SameRest.refl _
    | ok u =>
      simp only
      have h1 := gridLoop_rest lib g rs zs w.sed
      cases hg : gridLoop lib g rs zs w.sed with
      | mk s r =>
        rw [hg] at h1
        cases r with
        | error e => exact h1
        | ok ms =>
          simp only
          cases hm : mkAMat zs ms rs.length w.sed.nsed with
          | error e => exact h1
          | ok A' =>
            simp only
            have h2 := sameRest_setRedshift s (lit 0)
            cases hz : s.setRedshift (lit 0) with
            | mk s' r =>
              rw [hz] at h2
              cases r with
              | error e => exact h1.trans h2
              | ok v => exact h1.trans h2

theorem storeRow_length {n : Nat} {v : NDA α} {r : List α} (h : storeRow n v = .ok r) : r.length = n := by
  unfold storeRow at h
  split at h
  · cases h; simp
  · split at h
    · cases h; simpa
    · split at h
      · cases h; simp
      · cases h
  · cases h

theorem piecesOf_flatten (k : Nat) (hk : 0 < k) (xs : List (List α)) : (piecesOf k xs).flatten = xs := by
  have key : ∀ n, ((List.range n).map (fun i => (xs.drop (i * k)).take k)).flatten = xs.take (n * k) := by
    intro n
    induction n with
    | zero => simp
    | succ n ih =>
      rw [List.range_succ, List.map_append, List.flatten_append, ih]
      simp only [List.map_cons, List.map_nil, List.flatten_cons, List.flatten_nil, List.append_nil]
      rw [Nat.succ_mul, List.take_add]
  unfold piecesOf
  rw [key]
  apply List.take_of_length_le
  have h1 := Nat.div_add_mod (xs.length + k - 1) k
  have h2 := Nat.mod_lt (xs.length + k - 1) hk
  rw [Nat.mul_comm]
  omega

theorem respRow_length {lib : Lib α} {g : Reg α} {s : Sed α} {n : Name} {r : List α} (hf : s.flux.length = s.nsed)
    (h : respRow lib g s n = .ok r) : r.length = s.nsed := by
  unfold respRow at h
  cases hg : g n with
  | none => rw [hg] at h; simp at h
  | some o =>
    rw [hg] at h
    simp only [ok_bind] at h
    cases hc : o.curve with
    | error e => rw [hc] at h; simp at h
    | ok c =>
      rw [hc, ok_bind] at h
      split at h
      · cases hp : projectSed lib c s with
        | error e => rw [hp] at h; simp at h
        | ok v => rw [hp, ok_bind] at h; exact storeRow_length h
      · unfold chunkRow at h
        set f : List (List α) → Py (List α) := fun rows => (do
          storeRow rows.length (← projectArr lib c s.wave (.arr [rows.length] s.wave.length rows))) with hfdef
        cases hm : (piecesOf 1000 s.flux).mapM f with
        | error e => rw [hm] at h; simp at h
        | ok parts =>
          rw [hm, ok_bind, pure_py] at h
          cases h
          rw [mapM_ok_iff] at hm
          have : parts.map List.length = (piecesOf 1000 s.flux).map List.length := by
            clear hf
            generalize piecesOf 1000 s.flux = ps at hm
            induction hm with
            | nil => rfl
            | cons h1 _ ih =>
              simp only [List.map_cons, ih]
              congr 1
              rw [hfdef] at h1
              simp only at h1
              rename_i a b _ _ _
              cases hp : projectArr lib c s.wave (.arr [a.length] s.wave.length a) with
              | error e => rw [hp] at h1; simp at h1
              | ok v => rw [hp, ok_bind] at h1; exact storeRow_length h1
          rw [List.length_flatten, this, ← List.length_flatten, piecesOf_flatten _ (by norm_num), hf]

end KC
