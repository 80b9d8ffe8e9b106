import Mathlib.Data.List.TakeWhile
import Verif.Lemmas.MapM

/-! # Properties C15, C16: `read_basel` -/

namespace KC
open Spec

namespace Spec
/-- `text` consists of `words` separated by white space, with optional white space before and after. -/
inductive Renders (ws : Char → Bool) : List (List Char) → List Char → Prop
  | done (gap : List Char) : (∀ c ∈ gap, ws c) → Renders ws [] gap
  | last (gap w : List Char) : (∀ c ∈ gap, ws c) → w ≠ [] → (∀ c ∈ w, ¬ ws c) → Renders ws [w] (gap ++ w)
  | word (gap w : List Char) (c : Char) (words : List (List Char)) (text : List Char) :
      (∀ c ∈ gap, ws c) → w ≠ [] → (∀ c ∈ w, ¬ ws c) → ws c → Renders ws words text →
      Renders ws (w :: words) (gap ++ (w ++ c :: text))

/-- The words of one spectrum: six header words and the fluxes. -/
def IsUnit {α : Type} (pF : List Char → Option α) (pI : List Char → Option Int) (nwave : Nat)
    (block : List (List Char)) (u : BaselUnit α) : Prop :=
  ∃ w0 w1 w2 w3 w4 w5 fw, block = [w0, w1, w2, w3, w4, w5] ++ fw ∧ fw.length = nwave ∧
    pI w0 = some u.modelno ∧ pF w1 = some u.teff ∧ pF w2 = some u.logg ∧ pF w3 = some u.mh ∧
    pF w4 = some u.vturb ∧ pF w5 = some u.xh ∧ List.Forall₂ (fun w x => pF w = some x) fw u.flux
end Spec

theorem splitAux_gap (ws : Char → Bool) (gap rest : List Char) (h : ∀ c ∈ gap, ws c) :
    splitWSAux ws [] (gap ++ rest) = splitWSAux ws [] rest := by
  induction gap with
  | nil => rfl
  | cons c cs ih =>
    have hc : ws c = true := h c (by simp)
    simp [splitWSAux, hc, ih (fun d hd => h d (by simp [hd]))]

theorem splitAux_word (ws : Char → Bool) (w cur rest : List Char) (h : ∀ c ∈ w, ¬ ws c) :
    splitWSAux ws cur (w ++ rest) = splitWSAux ws (w.reverse ++ cur) rest := by
  induction w generalizing cur with
  | nil => rfl
  | cons c cs ih =>
    have hc : ws c = false := by simpa using h c (by simp)
    rw [List.cons_append, splitWSAux]
    simp only [hc, Bool.false_eq_true, if_false]
    rw [ih _ (fun d hd => h d (by simp [hd]))]
    simp

theorem split_renders {ws : Char → Bool} {words : List (List Char)} {text : List Char}
    (h : Renders ws words text) : splitWS ws text = words := by
  unfold splitWS
  induction h with
  | done gap hg =>
    have := splitAux_gap ws gap [] hg
    simpa [splitWSAux] using this
  | last gap w hg hw hn =>
    rw [splitAux_gap ws gap w hg]
    have := splitAux_word ws w [] [] hn
    simp only [List.append_nil] at this
    rw [this]
    simp [splitWSAux, hw]
  | word gap w c words text hg hw hn hc _ ih =>
    rw [splitAux_gap ws gap _ hg, splitAux_word ws w [] _ hn]
    simp [splitWSAux, hc, hw, ih]

/-- Every text is the rendering of its words. -/
theorem renders_split (ws : Char → Bool) (text : List Char) : Renders ws (splitWS ws text) text := by
  have key : ∀ (n : Nat) (text : List Char), text.length ≤ n → ∃ words, Renders ws words text := by
    intro n
    induction n with
    | zero =>
      intro text h
      have : text = [] := List.length_eq_zero_iff.mp (by omega)
      subst this
      exact ⟨[], .done [] (by simp)⟩
    | succ n ih =>
      intro text h
      let gap := text.takeWhile ws
      let rest := text.dropWhile ws
      have hgr : gap ++ rest = text := List.takeWhile_append_dropWhile
      have hgap : ∀ c ∈ gap, ws c := fun c hc => List.mem_takeWhile_imp hc
      let w := rest.takeWhile (fun c => !ws c)
      let tail := rest.dropWhile (fun c => !ws c)
      have hwt : w ++ tail = rest := List.takeWhile_append_dropWhile
      have hw : ∀ c ∈ w, ¬ ws c := fun c hc => by
        have := List.mem_takeWhile_imp hc
        simpa using this
      by_cases hr : rest = []
      · refine ⟨[], ?_⟩
        rw [← hgr, hr, List.append_nil]
        exact .done gap hgap
      · have hw0 : w ≠ [] := by
          intro he
          have hd : rest ≠ [] := hr
          obtain ⟨c, cs, hcs⟩ := List.exists_cons_of_ne_nil hd
          have h1 : ¬ ws c := by
            have := List.head_dropWhile_not (p := ws) (l := text) (by simpa [rest] using hr)
            have h2 : rest.head hr = c := by simp [hcs]
            rw [← h2]; simpa [rest] using this
          have : w = c :: cs.takeWhile (fun c => !ws c) := by
            simp [w, hcs, h1]
          rw [this] at he; cases he
        cases ht : tail with
        | nil =>
          refine ⟨[w], ?_⟩
          rw [← hgr, ← hwt, ht, List.append_nil]
          exact .last gap w hgap hw0 hw
        | cons c tl =>
          have hc : ws c := by
            have hne : rest.dropWhile (fun c => !ws c) ≠ [] := by
              have : tail ≠ [] := by simp [ht]
              exact this
            have := List.head_dropWhile_not (p := fun c => !ws c) (l := rest) hne
            have h2 : (rest.dropWhile (fun c => !ws c)).head hne = c := by
              have : rest.dropWhile (fun c => !ws c) = c :: tl := ht
              simp [this]
            rw [h2] at this; simpa using this
          have hlen : tl.length ≤ n := by
            have h1 : text.length = gap.length + (w.length + (tl.length + 1)) := by
              rw [← hgr, ← hwt, ht]; simp
            omega
          obtain ⟨words, hwords⟩ := ih tl hlen
          refine ⟨w :: words, ?_⟩
          rw [← hgr, ← hwt, ht]
          exact .word gap w c words tl hgap hw0 hw hc hwords
  obtain ⟨words, h⟩ := key text.length text le_rfl
  rw [split_renders h]; exact h

theorem toF_mapM {β : Type} {p : List Char → Option β} {l : List (List Char)} {r : List β}
    (h : List.Forall₂ (fun w x => p w = some x) l r) : l.mapM (toF p) = .ok r := by
  apply mapM_ok
  exact h.imp (fun a b hab => by simp [toF, hab])

theorem flatten_drop {β : Type} (L : Nat) (blocks : List (List β)) (trail : List β)
    (h : ∀ b ∈ blocks, b.length = L) (i : Nat) (hi : i < blocks.length) :
    ∃ more, (blocks.flatten ++ trail).drop (i * L) = blocks[i] ++ more := by
  induction blocks generalizing i with
  | nil => simp at hi
  | cons b bs ih =>
    have hb := h b (by simp)
    cases i with
    | zero => exact ⟨bs.flatten ++ trail, by simp⟩
    | succ i =>
      obtain ⟨more, hm⟩ := ih (fun c hc => h c (by simp [hc])) i (by simpa using hi)
      refine ⟨more, ?_⟩
      have : (i + 1) * L = b.length + i * L := by rw [hb]; ring
      rw [List.flatten_cons, List.append_assoc, this, List.drop_length_add_append, hm]
      simp

/-- **C15** for any number of spectral elements. -/
theorem readBaselN_correct {α : Type} [Arith α] (nwave : Nat) (pF : List Char → Option α)
    (pI : List Char → Option Int) (ws : Char → Bool) (text : List Char)
    (wws : List (List Char)) (blocks : List (List (List Char))) (trail : List (List Char))
    (wave : List α) (units : List (BaselUnit α))
    (htext : Renders ws (wws ++ (blocks.flatten ++ trail)) text)
    (hwl : wws.length = nwave) (hw : List.Forall₂ (fun w x => pF w = some x) wws wave)
    (hu : List.Forall₂ (IsUnit pF pI nwave) blocks units) (ht : trail.length < nwave + 6) :
    readBaselN nwave pF pI ws text = .ok
      { modelno := units.map (·.modelno), teff := units.map (·.teff), logg := units.map (·.logg),
        mh := units.map (·.mh), vturb := units.map (·.vturb), xh := units.map (·.xh),
        wave := wave, flux := units.map (·.flux) } := by
  have hbl : ∀ b ∈ blocks, b.length = nwave + 6 := by
    intro b hb
    obtain ⟨i, hi, rfl⟩ := List.mem_iff_getElem.mp hb
    obtain ⟨w0, w1, w2, w3, w4, w5, fw, e, hf, -⟩ := (List.forall₂_iff_get.mp hu).2 i hi (by rw [← hu.length_eq]; exact hi)
    simp only [List.get_eq_getElem] at e
    rw [e]; simp [hf]
  have hsplit := split_renders htext
  have hlen : (wws ++ (blocks.flatten ++ trail)).length = nwave + (blocks.length * (nwave + 6) + trail.length) := by
    have : blocks.flatten.length = blocks.length * (nwave + 6) := by
      rw [List.length_flatten]
      have : blocks.map List.length = List.replicate blocks.length (nwave + 6) := by
        apply List.eq_replicate_iff.mpr
        refine ⟨by simp, ?_⟩
        intro n hn
        simp only [List.mem_map] at hn
        obtain ⟨b, hb, rfl⟩ := hn
        exact hbl b hb
      rw [this]; simp
    rw [List.length_append, List.length_append, this, hwl]
  have hunits : ((((wws ++ (blocks.flatten ++ trail)).length : Nat) : Int) - nwave) / ((nwave : Int) + 6)
      = (blocks.length : Int) := by
    rw [hlen]
    have : (((nwave + (blocks.length * (nwave + 6) + trail.length) : Nat) : Int) - nwave)
        = ((blocks.length * (nwave + 6) + trail.length : Nat) : Int) := by push_cast; ring
    rw [this, show ((nwave : Int) + 6) = ((nwave + 6 : Nat) : Int) by push_cast; ring, ← Int.natCast_div]
    congr 1
    rw [Nat.mul_comm, Nat.mul_add_div (by omega), Nat.div_eq_of_lt ht, Nat.add_zero]
  have htake : (wws ++ (blocks.flatten ++ trail)).take nwave = wws := by
    rw [← hwl]; simp
  have hbody : (List.range blocks.length).mapM (baselUnit pF pI nwave (wws ++ (blocks.flatten ++ trail))) = .ok units := by
    apply mapM_ok
    rw [List.forall₂_iff_get]
    refine ⟨by simpa using hu.length_eq, ?_⟩
    intro i hi hi'
    simp only [List.length_range] at hi
    simp only [List.get_eq_getElem, List.getElem_range]
    obtain ⟨w0, w1, w2, w3, w4, w5, fw, e, hf, h0, h1, h2, h3, h4, h5, hfw⟩ := (List.forall₂_iff_get.mp hu).2 i hi hi'
    simp only [List.get_eq_getElem] at e h0 h1 h2 h3 h4 h5 hfw
    obtain ⟨more, hm⟩ := flatten_drop (nwave + 6) blocks trail hbl i hi
    have hd : (wws ++ (blocks.flatten ++ trail)).drop (nwave + i * (nwave + 6))
        = [w0, w1, w2, w3, w4, w5] ++ (fw ++ more) := by
      rw [← hwl, List.drop_length_add_append, hwl, hm, e]; simp
    have hword : ∀ j, (wws ++ (blocks.flatten ++ trail))[nwave + i * (nwave + 6) + j]?
        = ([w0, w1, w2, w3, w4, w5] ++ (fw ++ more))[j]? := by
      intro j; rw [← hd, List.getElem?_drop]
    have hflux : ((wws ++ (blocks.flatten ++ trail)).drop (nwave + i * (nwave + 6) + 6)).take nwave = fw := by
      rw [← List.drop_drop, hd, ← hf]; simp
    unfold baselUnit
    simp only [hword, hflux, toF_mapM hfw]
    simp [toF, h0, h1, h2, h3, h4, h5]
  unfold readBaselN
  simp only [hsplit, htake, hunits, toF_mapM hw]
  simp [hbody]

/-- **C15.** For every text laid out as 1221 wavelengths, then any number of blocks of six header numbers and
1221 fluxes, then an incomplete block (possibly empty), with any white space: `read_basel` returns exactly these
wavelengths, headers and fluxes in order. -/
theorem C15_read_basel {α : Type} [Arith α] (pF : List Char → Option α)
    (pI : List Char → Option Int) (ws : Char → Bool) (text : List Char)
    (wws : List (List Char)) (blocks : List (List (List Char))) (trail : List (List Char))
    (wave : List α) (units : List (BaselUnit α))
    (htext : Renders ws (wws ++ (blocks.flatten ++ trail)) text)
    (hwl : wws.length = 1221) (hw : List.Forall₂ (fun w x => pF w = some x) wws wave)
    (hu : List.Forall₂ (IsUnit pF pI 1221) blocks units) (ht : trail.length < 1221 + 6) :
    ∃ b, readBasel pF pI ws text = .ok b ∧ b.wave = wave ∧ b.flux = units.map (·.flux) ∧
      b.modelno = units.map (·.modelno) ∧ b.teff = units.map (·.teff) ∧ b.logg = units.map (·.logg) ∧
      b.mh = units.map (·.mh) ∧ b.vturb = units.map (·.vturb) ∧ b.xh = units.map (·.xh) :=
  ⟨_, readBaselN_correct 1221 pF pI ws text wws blocks trail wave units htext hwl hw hu ht,
    rfl, rfl, rfl, rfl, rfl, rfl, rfl, rfl⟩

/-- A file of 1221 wavelengths and two blocks, every word `1`, one space after each word, with a stray word at the
end, meets the hypotheses. -/
example : ∃ text : List Char, ∃ (units : List (BaselUnit ℝ)), units.length = 2 ∧
    Renders (fun c => c = ' ') (List.replicate 1221 ['1'] ++
      ((List.replicate 2 (List.replicate (1221 + 6) ['1'])).flatten ++ [['1']])) text ∧
    List.Forall₂ (IsUnit (fun _ => some (1 : ℝ)) (fun _ => some 1) 1221)
      (List.replicate 2 (List.replicate (1221 + 6) ['1'])) units := by
  have hr : ∀ words : List (List Char), (∀ w ∈ words, w = ['1']) → ∃ text, Renders (fun c => c = ' ') words text := by
    intro words
    induction words with
    | nil => exact fun _ => ⟨[], .done [] (by simp)⟩
    | cons w ws ih =>
      intro h
      obtain ⟨t, ht⟩ := ih (fun v hv => h v (by simp [hv]))
      refine ⟨_, .word [] w ' ' ws t (by simp) ?_ ?_ (by simp) ht⟩
      · rw [h w (by simp)]; simp
      · rw [h w (by simp)]; simp
  obtain ⟨text, ht⟩ := hr (List.replicate 1221 ['1'] ++
      ((List.replicate 2 (List.replicate (1221 + 6) ['1'])).flatten ++ [['1']])) (by
    intro w hw
    simp only [List.mem_append, List.mem_flatten, List.mem_replicate, List.mem_singleton] at hw
    rcases hw with h | ⟨l, hl, h⟩ | h
    · exact h.2
    · rw [hl.2, List.mem_replicate] at h; exact h.2
    · exact h)
  have hun : IsUnit (fun _ => some (1 : ℝ)) (fun _ => some 1) 1221 (List.replicate (1221 + 6) ['1'])
      ⟨1, 1, 1, 1, 1, 1, List.replicate 1221 1⟩ := by
    refine ⟨['1'], ['1'], ['1'], ['1'], ['1'], ['1'], List.replicate 1221 ['1'], ?_, List.length_replicate, rfl, rfl, rfl, rfl,
      rfl, rfl, ?_⟩
    · rw [Nat.add_comm, List.replicate_add]; rfl
    · rw [List.forall₂_iff_get]
      exact ⟨by rw [List.length_replicate, List.length_replicate], fun i h1 h2 => by
        show some (1 : ℝ) = some ((List.replicate 1221 (1 : ℝ))[i]'h2)
        rw [List.getElem_replicate]⟩
  exact ⟨text, [⟨1, 1, 1, 1, 1, 1, List.replicate 1221 1⟩, ⟨1, 1, 1, 1, 1, 1, List.replicate 1221 1⟩], rfl, ht,
    .cons hun (.cons hun .nil)⟩

/-- **C16.** Every text with fewer than 1221 words makes `read_basel` raise. -/
theorem C16_read_basel_short {α : Type} [Arith α] (pF : List Char → Option α)
    (pI : List Char → Option Int) (ws : Char → Bool) (words : List (List Char)) (text : List Char)
    (htext : Renders ws words text) (hshort : words.length < 1221) :
    Raises (readBasel pF pI ws text) := by
  have hs := split_renders htext
  unfold readBasel readBaselN
  simp only [hs]
  cases h : (words.take 1221).mapM (toF pF) with
  | error e => exact ⟨e, rfl⟩
  | ok wave =>
    have hneg : ¬ (0 : Int) ≤ ((words.length : Int) - (1221 : Nat)) / (((1221 : Nat) : Int) + 6) := by
      have : ((words.length : Int) - (1221 : Nat)) / (((1221 : Nat) : Int) + 6) < 0 :=
        Int.ediv_neg_of_neg_of_pos (by push_cast; omega) (by norm_num)
      omega
    refine ⟨.valueError, ?_⟩
    simp only [ok_bind]
    rw [require_false hneg]; rfl

/-- every text has a decomposition into words, so C16 covers every file -/
example (ws : Char → Bool) (text : List Char) : ∃ words, Renders ws words text := ⟨_, renders_split ws text⟩

end KC
