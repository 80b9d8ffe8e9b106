import Verif.Lemmas.Registry
import Verif.Props.Registry

/-! # Invariant of concurrent loads -/

namespace KC
variable {α : Type} [Arith α]
open Spec

/-- every attribute is unset or that of `R` -/
def Below (o : RespObj α) (R : Resp α) : Prop :=
  (o.wave = none ∨ o.wave = some R.wave) ∧ (o.resp = none ∨ o.resp = some R.resp) ∧ (o.itp = none ∨ o.itp = some R.itp) ∧
  (o.lambdaEff = none ∨ o.lambdaEff = some R.lambdaEff) ∧ (o.solarMag = none ∨ o.solarMag = R.solarMag) ∧
  (o.vega2ab = none ∨ o.vega2ab = R.vega2ab) ∧ (o.fwhm = none ∨ o.fwhm = some (R.fwhmLow, R.fwhmHigh, R.fwhm))

/-- the first `k` attributes are those of `R` -/
def Upto (k : Nat) (o : RespObj α) (R : Resp α) : Prop :=
  (0 < k → o.wave = some R.wave) ∧ (1 < k → o.resp = some R.resp) ∧ (2 < k → o.itp = some R.itp) ∧
  (3 < k → o.lambdaEff = some R.lambdaEff) ∧ (4 < k → o.solarMag = R.solarMag) ∧
  (5 < k → o.vega2ab = R.vega2ab) ∧ (6 < k → o.fwhm = some (R.fwhmLow, R.fwhmHigh, R.fwhm))

theorem below_empty (R : Resp α) : Below RespObj.empty R := by simp [Below, RespObj.empty]

theorem upto_zero (o : RespObj α) (R : Resp α) : Upto 0 o R := by simp [Upto]

theorem upto_full {o : RespObj α} {R : Resp α} {k : Nat} (hk : nSetup ≤ k) (h : Upto k o R) : o = RespObj.full R := by
  have hk : 7 ≤ k := hk
  obtain ⟨h1, h2, h3, h4, h5, h6, h7⟩ := h
  cases o
  simp only [RespObj.full, RespObj.mk.injEq]
  exact ⟨h1 (by omega), h2 (by omega), h3 (by omega), h4 (by omega), h5 (by omega), h6 (by omega), h7 (by omega)⟩

theorem full_upto (R : Resp α) (k : Nat) : Upto k (RespObj.full R) R := by simp [Upto, RespObj.full]

/-- An assignment by a thread that has done the earlier ones succeeds, and undoes nothing. -/
theorem setupStep_upto {lib : Lib α} {w r : List α} {R : Resp α} (hR : respSetup lib w r = .ok R) {o : RespObj α} {k : Nat}
    (hk : k < nSetup) (hb : Below o R) (hu : Upto k o R) :
    ∃ o', setupStep lib w r k o = .ok o' ∧ Below o' R ∧ Upto (k + 1) o' R ∧ ∀ j, Upto j o R → Upto j o' R := by
  obtain ⟨lo, hi, h1, h2, h3, h4, hRR⟩ := respSetup_parts hR
  have ew : R.wave = w := by rw [hRR]
  have er : R.resp = r := by rw [hRR]
  have el : R.lambdaEff = lambdaEffOf w r := by rw [hRR]
  have elo : R.fwhmLow = lo := by rw [hRR]
  have ehi : R.fwhmHigh = hi := by rw [hRR]
  have ef : R.fwhm = hi - lo := by rw [hRR]
  have hk7 : k < 7 := hk
  obtain ⟨b1, b2, b3, b4, b5, b6, b7⟩ := hb
  obtain ⟨u1, u2, u3, u4, u5, u6, u7⟩ := hu
  obtain rfl | rfl | rfl | rfl | rfl | rfl | rfl : k = 0 ∨ k = 1 ∨ k = 2 ∨ k = 3 ∨ k = 4 ∨ k = 5 ∨ k = 6 := by omega
  · refine ⟨_, rfl, ⟨Or.inr (by rw [ew]), b2, b3, b4, b5, b6, b7⟩, ?_, ?_⟩
    · simp [Upto, ew]
    · rintro j ⟨v1, v2, v3, v4, v5, v6, v7⟩
      exact ⟨fun _ => by rw [ew], v2, v3, v4, v5, v6, v7⟩
  · refine ⟨_, rfl, ⟨b1, Or.inr (by rw [er]), b3, b4, b5, b6, b7⟩, ?_, ?_⟩
    · have := u1 (by omega)
      simp [Upto, er, this]
    · rintro j ⟨v1, v2, v3, v4, v5, v6, v7⟩
      exact ⟨v1, fun _ => by rw [er], v3, v4, v5, v6, v7⟩
  · have a1 := u1 (by omega)
    have a2 := u2 (by omega)
    have e : setupStep lib w r 2 o = .ok { o with itp := some R.itp } := by
      simp only [setupStep, RespObj.arrays, a1, a2, ew, er, ok_bind, h1]; rfl
    refine ⟨_, e, ⟨b1, b2, Or.inr rfl, b4, b5, b6, b7⟩, ?_, ?_⟩
    · simp [Upto, a1, a2]
    · rintro j ⟨v1, v2, v3, v4, v5, v6, v7⟩
      exact ⟨v1, v2, fun _ => rfl, v4, v5, v6, v7⟩
  · have a1 := u1 (by omega)
    have a2 := u2 (by omega)
    have a3 := u3 (by omega)
    have e : setupStep lib w r 3 o = .ok { o with lambdaEff := some R.lambdaEff } := by
      simp only [setupStep, RespObj.arrays, a1, a2, ew, er, ok_bind, el]; rfl
    refine ⟨_, e, ⟨b1, b2, b3, Or.inr rfl, b5, b6, b7⟩, ?_, ?_⟩
    · simp [Upto, a1, a2, a3]
    · rintro j ⟨v1, v2, v3, v4, v5, v6, v7⟩
      exact ⟨v1, v2, v3, fun _ => rfl, v5, v6, v7⟩
  · have a1 := u1 (by omega)
    have a2 := u2 (by omega)
    have a3 := u3 (by omega)
    have a4 := u4 (by omega)
    have e : setupStep lib w r 4 o = .ok { o with solarMag := R.solarMag } := by
      simp only [setupStep, RespObj.curve, a1, a2, a3, ew, er, ok_bind, h2]; rfl
    refine ⟨_, e, ⟨b1, b2, b3, b4, Or.inr rfl, b6, b7⟩, ?_, ?_⟩
    · simp [Upto, a1, a2, a3, a4]
    · rintro j ⟨v1, v2, v3, v4, v5, v6, v7⟩
      exact ⟨v1, v2, v3, v4, fun _ => rfl, v6, v7⟩
  · have a1 := u1 (by omega)
    have a2 := u2 (by omega)
    have a3 := u3 (by omega)
    have a4 := u4 (by omega)
    have a5 := u5 (by omega)
    have e : setupStep lib w r 5 o = .ok { o with vega2ab := R.vega2ab } := by
      simp only [setupStep, RespObj.curve, a1, a2, a3, ew, er, ok_bind, h3]; rfl
    refine ⟨_, e, ⟨b1, b2, b3, b4, b5, Or.inr rfl, b7⟩, ?_, ?_⟩
    · simp [Upto, a1, a2, a3, a4, a5]
    · rintro j ⟨v1, v2, v3, v4, v5, v6, v7⟩
      exact ⟨v1, v2, v3, v4, v5, fun _ => rfl, v7⟩
  · have a1 := u1 (by omega)
    have a2 := u2 (by omega)
    have a3 := u3 (by omega)
    have a4 := u4 (by omega)
    have a5 := u5 (by omega)
    have a6 := u6 (by omega)
    have e : setupStep lib w r 6 o = .ok { o with fwhm := some (R.fwhmLow, R.fwhmHigh, R.fwhm) } := by
      simp only [setupStep, RespObj.curve, a1, a2, a3, ew, er, ok_bind, h4, elo, ehi, ef]; rfl
    refine ⟨_, e, ⟨b1, b2, b3, b4, b5, b6, Or.inr rfl⟩, ?_, ?_⟩
    · simp [Upto, a1, a2, a3, a4, a5, a6]
    · rintro j ⟨v1, v2, v3, v4, v5, v6, v7⟩
      exact ⟨v1, v2, v3, v4, v5, v6, fun _ => rfl⟩

theorem fileGives_read {lib : Lib α} {disk : Disk α} {n : Name} {R : Resp α} (h : FileGives lib disk n R) :
    ∃ w r, (do let (w, r) ← disk (datName n); sortCurve w r) = .ok (w, r) ∧ respSetup lib w r = .ok R := by
  obtain ⟨w, r, h1, h2⟩ := h
  unfold mkResponse at h2
  rcases h3 : sortCurve w r with e | ⟨w', r'⟩
  · simp [h3] at h2
  · rw [h3] at h2
    exact ⟨w', r', by simp [h1, h3], h2⟩

/-- the name a thread works on -/
def PC.name : PC α → Name
  | .start n _ => n
  | .make n => n
  | .look n => n
  | .read n _ => n
  | .assign n _ _ _ _ => n
  | .done n => n
  | .failed n _ => n

/-- thread `p` is going to fill object `o` under name `n` -/
def Filling (p : PC α) (n : Name) (o : Nat) : Prop :=
  p = .look n ∨ p = .read n o ∨ ∃ w r k, p = .assign n o w r k

/-- Invariant of concurrent loads from the state `s0` of names in `req` whose files give `R`. -/
structure LInv (lib : Lib α) (s0 : World α) (req : Name → Prop) (R : Name → Resp α) (own : Nat → Name) (s : World α) : Prop where
  next_le : s0.next ≤ s.next
  dict_lt : ∀ n o, s.dict n = some o → o < s.next
  old : ∀ o, o < s0.next → s.heap o = s0.heap o
  dict_old : ∀ n o, s.dict n = some o → o < s0.next → s0.dict n = some o
  dict_own : ∀ n o, s.dict n = some o → s0.next ≤ o → own o = n ∧ req n
  below : ∀ o, s0.next ≤ o → o < s.next → Below (s.heap o) (R (own o))
  look : ∀ t n, s.pc t = .look n → ∃ o, s.dict n = some o ∧ s0.next ≤ o
  read : ∀ t n o, s.pc t = .read n o → s0.next ≤ o ∧ o < s.next ∧ own o = n ∧ ∃ o', s.dict n = some o'
  assign : ∀ t n o w r k, s.pc t = .assign n o w r k → s0.next ≤ o ∧ o < s.next ∧ own o = n ∧
    (respSetup lib w r = .ok (R n) ∧ ∃ o', s.dict n = some o') ∧ Upto k (s.heap o) (R n)
  names : ∀ t, (s.pc t).name = (s0.pc t).name
  nofail : ∀ t n e, s.pc t ≠ .failed n e
  pending : ∀ n o, s.dict n = some o → s0.next ≤ o → s.heap o = RespObj.full (R n) ∨ ∃ t, Filling (s.pc t) n o
  done : ∀ t n, s.pc t = .done n → ∃ o, s.dict n = some o

/-- what the invariant asks of a program counter -/
structure PcOk (lib : Lib α) (s0 : World α) (R : Name → Resp α) (own : Nat → Name) (s : World α) (p : PC α) : Prop where
  look : ∀ n, p = .look n → ∃ o, s.dict n = some o ∧ s0.next ≤ o
  read : ∀ n o, p = .read n o → s0.next ≤ o ∧ o < s.next ∧ own o = n ∧ ∃ o', s.dict n = some o'
  assign : ∀ n o w r k, p = .assign n o w r k → s0.next ≤ o ∧ o < s.next ∧ own o = n ∧
    (respSetup lib w r = .ok (R n) ∧ ∃ o', s.dict n = some o') ∧ Upto k (s.heap o) (R n)
  nofail : ∀ n e, p ≠ .failed n e
  done : ∀ n, p = .done n → ∃ o, s.dict n = some o

theorem LInv.goto {lib : Lib α} {s0 s : World α} {req : Name → Prop} {R : Name → Resp α} {own : Nat → Name}
    (h : LInv lib s0 req R own s) (t : Nat) (p : PC α) (hn : p.name = (s.pc t).name) (hp : PcOk lib s0 R own s p)
    (hf : ∀ n o, s.dict n = some o → s0.next ≤ o → Filling (s.pc t) n o →
      s.heap o = RespObj.full (R n) ∨ Filling p n o) :
    LInv lib s0 req R own (s.goto t p) := by
  have hpc : ∀ u, (s.goto t p).pc u = if u = t then p else s.pc u := fun u => rfl
  refine ⟨h.next_le, h.dict_lt, h.old, h.dict_old, h.dict_own, h.below, ?_, ?_, ?_, ?_, ?_, ?_, ?_⟩
  · intro u n hu
    rw [hpc] at hu
    split at hu
    · exact hp.look n hu
    · exact h.look u n hu
  · intro u n o hu
    rw [hpc] at hu
    split at hu
    · exact hp.read n o hu
    · exact h.read u n o hu
  · intro u n o w r k hu
    rw [hpc] at hu
    split at hu
    · exact hp.assign n o w r k hu
    · exact h.assign u n o w r k hu
  · intro u
    rw [hpc]
    split
    · rename_i e; subst e; rw [hn]; exact h.names u
    · exact h.names u
  · intro u n e
    rw [hpc]
    split
    · exact hp.nofail n e
    · exact h.nofail u n e
  · intro n o hd ho
    rcases h.pending n o hd ho with hfull | ⟨u, hu⟩
    · exact Or.inl hfull
    · by_cases e : u = t
      · subst e
        rcases hf n o hd ho hu with h1 | h1
        · exact Or.inl h1
        · exact Or.inr ⟨u, by rw [hpc, if_pos rfl]; exact h1⟩
      · exact Or.inr ⟨u, by rw [hpc, if_neg e]; exact hu⟩
  · intro u n hu
    rw [hpc] at hu
    split at hu
    · exact hp.done n hu
    · exact h.done u n hu

theorem LInv.step {lib : Lib α} {disk : Disk α} {s0 s : World α} {req : Name → Prop} {R : Name → Resp α} {own : Nat → Name}
    (hreq : ∀ n, req n → FileGives lib disk n (R n)) (hall : ∀ t, req (s0.pc t).name)
    (h : LInv lib s0 req R own s) (t : Nat) : ∃ own', LInv lib s0 req R own' (s.step lib disk t) := by
  have hname : req (s.pc t).name := by rw [h.names]; exact hall t
  unfold World.step
  rcases hpc : s.pc t with ⟨n, reload⟩ | n | n | ⟨n, o⟩ | ⟨n, o, w, r, k⟩ | n | ⟨n, e⟩
  · -- start
    simp only
    split
    · rename_i hc
      simp only [Bool.and_eq_true, Option.isSome_iff_exists] at hc
      refine ⟨own, h.goto t _ (by rw [hpc]; rfl) ⟨by simp, by simp, by simp, by simp, ?_⟩ ?_⟩
      · rintro m he; cases he; exact hc.1
      · rintro m o _ _ (hF | hF | ⟨_, _, _, hF⟩) <;> rw [hpc] at hF <;> cases hF
    · refine ⟨own, h.goto t _ (by rw [hpc]; rfl) ⟨by simp, by simp, by simp, by simp, by simp⟩ ?_⟩
      rintro m o _ _ (hF | hF | ⟨_, _, _, hF⟩) <;> rw [hpc] at hF <;> cases hF
  · -- make: a new object
    simp only
    rw [hpc] at hname
    have hnr : req n := hname
    refine ⟨fun i => if i = s.next then n else own i, ?_⟩
    have hne : ∀ {o}, o < s.next → o ≠ s.next := fun hlt => Nat.ne_of_lt hlt
    refine ⟨?_, ?_, ?_, ?_, ?_, ?_, ?_, ?_, ?_, ?_, ?_, ?_, ?_⟩
    · exact Nat.le_succ_of_le h.next_le
    · intro m o hd
      simp only [World.goto] at hd ⊢
      split at hd
      · cases hd; omega
      · exact Nat.lt_succ_of_lt (h.dict_lt m o hd)
    · intro o ho
      simp only [World.goto]
      rw [if_neg (hne (Nat.lt_of_lt_of_le ho h.next_le))]
      exact h.old o ho
    · intro m o hd ho
      simp only [World.goto] at hd
      split at hd
      · cases hd; exact absurd ho (Nat.not_lt.mpr h.next_le)
      · exact h.dict_old m o hd ho
    · intro m o hd ho
      simp only [World.goto] at hd
      split at hd
      · rename_i hm; cases hd; simp [hm, hnr]
      · have := h.dict_lt m o hd
        simp only [if_neg (hne this)]
        exact h.dict_own m o hd ho
    · intro o ho hlt
      simp only [World.goto] at hlt ⊢
      by_cases e : o = s.next
      · simp only [if_pos e]; exact below_empty _
      · simp only [if_neg e]
        exact h.below o ho (by omega)
    · intro u m hu
      simp only [World.goto] at hu ⊢
      by_cases hm : m = n
      · exact ⟨s.next, by simp [hm], h.next_le⟩
      · split at hu
        · cases hu; exact absurd rfl hm
        · simp only [if_neg hm]; exact h.look u m hu
    · intro u m o hu
      simp only [World.goto] at hu ⊢
      split at hu
      · cases hu
      · have := h.read u m o hu
        simp only [if_neg (hne this.2.1)]
        refine ⟨this.1, Nat.lt_succ_of_lt this.2.1, this.2.2.1, ?_⟩
        by_cases hm : m = n
        · exact ⟨s.next, by simp [hm]⟩
        · simp only [if_neg hm]; exact this.2.2.2
    · intro u m o w r k hu
      simp only [World.goto] at hu ⊢
      split at hu
      · cases hu
      · have := h.assign u m o w r k hu
        simp only [if_neg (hne this.2.1)]
        refine ⟨this.1, Nat.lt_succ_of_lt this.2.1, this.2.2.1, ⟨this.2.2.2.1.1, ?_⟩, this.2.2.2.2⟩
        by_cases hm : m = n
        · exact ⟨s.next, by simp [hm]⟩
        · simp only [if_neg hm]; exact this.2.2.2.1.2
    · intro u
      simp only [World.goto]
      split
      · rename_i e; subst e; rw [← h.names, hpc]; rfl
      · exact h.names u
    · intro u m e
      simp only [World.goto]
      split
      · simp
      · exact h.nofail u m e
    · intro m o hd ho
      simp only [World.goto] at hd ⊢
      split at hd
      · rename_i hm
        cases hd
        exact Or.inr ⟨t, by rw [if_pos rfl, hm]; exact Or.inl rfl⟩
      · rename_i hm
        rw [if_neg (hne (h.dict_lt m o hd))]
        rcases h.pending m o hd ho with hf | ⟨u, hu⟩
        · exact Or.inl hf
        · refine Or.inr ⟨u, ?_⟩
          rw [if_neg]
          · exact hu
          · rintro rfl
            rcases hu with hF | hF | ⟨_, _, _, hF⟩ <;> rw [hpc] at hF <;> cases hF
    · intro u m hu
      simp only [World.goto] at hu ⊢
      by_cases hm : m = n
      · exact ⟨s.next, by simp [hm]⟩
      · split at hu
        · cases hu
        · simp only [if_neg hm]; exact h.done u m hu
  · -- look
    obtain ⟨o, hd, ho⟩ := h.look t n hpc
    simp only [hd]
    refine ⟨own, h.goto t _ (by rw [hpc]; rfl) ⟨by simp, ?_, by simp, by simp, by simp⟩ ?_⟩
    · intro m o' he
      cases he
      exact ⟨ho, h.dict_lt n o hd, (h.dict_own n o hd ho).1, o, hd⟩
    · intro m o' hd' ho' hF
      rcases hF with hF | hF | ⟨_, _, _, hF⟩ <;> rw [hpc] at hF <;> cases hF
      rw [hd] at hd'; cases hd'
      exact Or.inr (Or.inr (Or.inl rfl))
  · -- read
    rw [hpc] at hname
    obtain ⟨w, r, h1, h2⟩ := fileGives_read (hreq n hname)
    simp only [h1]
    have hr := h.read t n o hpc
    refine ⟨own, h.goto t _ (by rw [hpc]; rfl) ⟨by simp, by simp, ?_, by simp, by simp⟩ ?_⟩
    · intro m o' w' r' k' he
      cases he
      exact ⟨hr.1, hr.2.1, hr.2.2.1, ⟨h2, hr.2.2.2⟩, upto_zero _ _⟩
    · intro m o' hd' ho' hF
      rcases hF with hF | hF | ⟨_, _, _, hF⟩ <;> rw [hpc] at hF <;> cases hF
      exact Or.inr (Or.inr (Or.inr ⟨w, r, 0, rfl⟩))
  · -- assign
    obtain ⟨ho, hlt, hown, ⟨hR, hdn⟩, hu⟩ := h.assign t n o w r k hpc
    simp only
    split
    · rename_i hk
      have hb := h.below o ho hlt
      rw [hown] at hb
      obtain ⟨v, hv, hbv, huv, hmono⟩ := setupStep_upto hR hk hb hu
      simp only [hv]
      have hinv : LInv lib s0 req R own { s with heap := fun i => if i = o then v else s.heap i } := by
        refine ⟨h.next_le, h.dict_lt, ?_, h.dict_old, h.dict_own, ?_, h.look, h.read, ?_, h.names, h.nofail, ?_, h.done⟩
        · intro o' ho'
          simp only
          rw [if_neg (by omega)]; exact h.old o' ho'
        · intro o' h1 h2
          simp only
          split
          · rename_i e; rw [e, hown]; exact hbv
          · exact h.below o' h1 h2
        · intro u m o' w' r' k' hu'
          obtain ⟨q1, q2, q3, q4, q5⟩ := h.assign u m o' w' r' k' hu'
          refine ⟨q1, q2, q3, q4, ?_⟩
          simp only
          split
          · rename_i e
            subst e
            have : m = n := by rw [← q3, hown]
            subst this
            exact hmono _ q5
          · exact q5
        · intro m o' hd' ho'
          rcases h.pending m o' hd' ho' with hf | hf
          · left
            simp only
            split
            · rename_i e
              subst e
              have : m = n := by rw [← (h.dict_own m o' hd' ho').1, hown]
              subst this
              apply upto_full (k := nSetup) (Nat.le_refl _)
              apply hmono
              rw [hf]; exact full_upto _ _
            · exact hf
          · exact Or.inr hf
      refine ⟨own, hinv.goto t _ (by simp only; rw [hpc]; rfl) ⟨by simp, by simp, ?_, by simp, by simp⟩ ?_⟩
      · intro m o' w' r' k' he
        cases he
        exact ⟨ho, hlt, hown, ⟨hR, hdn⟩, by simpa using huv⟩
      · intro m o' hd' ho' hF
        simp only at hF
        rcases hF with hF | hF | ⟨_, _, _, hF⟩ <;> rw [hpc] at hF <;> cases hF
        exact Or.inr (Or.inr (Or.inr ⟨w, r, k + 1, rfl⟩))
    · rename_i hk
      have hfull := upto_full (Nat.not_lt.mp hk) hu
      refine ⟨own, h.goto t _ (by rw [hpc]; rfl) ⟨by simp, by simp, by simp, by simp, ?_⟩ ?_⟩
      · intro m he
        cases he
        exact hdn
      · intro m o' hd' ho' hF
        rcases hF with hF | hF | ⟨_, _, _, hF⟩ <;> rw [hpc] at hF <;> cases hF
        exact Or.inl hfull
  · exact ⟨own, h⟩
  · exact ⟨own, h⟩

end KC
