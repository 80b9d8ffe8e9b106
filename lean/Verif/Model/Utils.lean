import Verif.Model.Arr

/-!
# `src/kcorrect/utils.py`

`raise("text")` at lines 161, 165, 170, 220, 223, 281, 286, 291 raises a string, which Python turns into a `TypeError`.
The rounding of every *stored* float32 array entry is explicit (`f32`); that of an intermediate product is the
business of the arithmetic `α` (`Model/Float`).
-/

namespace KC
variable {α : Type} [Arith α]

/-! ### sed_ab -/

/-- utils.py:13–32 `sed_ab`, one wavelength.  `3.631e-2 / wave**2 * cspeed`, `cspeed = 2.99792`. -/
def sedAbAt (w : α) : α := lit 0.03631 / (w * w) * lit 2.99792

/-- utils.py:13–32 `sed_ab` on an array of any shape (elementwise). -/
def sedAb (wave : NDA α) : NDA α := wave.map sedAbAt

/-! ### Column loops

`for i in range(n): out[..., i] = g(i, ...)` over the rows of arrays of equal shape. -/

/-- One pass of such a loop body: `out[..., i] = g(src[...], out[...])` for every row. -/
def colWrite {σ : Type} (i : Nat) (g : σ → List α → α) (src : List σ) (out : List (List α)) : List (List α) :=
  List.zipWith (fun s o => o.set i (g s o)) src out

/-- The whole loop, `i = 0 .. n-1` in order. -/
def colLoop {σ : Type} (n : Nat) (g : Nat → σ → List α → α) (src : List σ) (out : List (List α)) :
    List (List α) :=
  (List.range n).foldl (fun acc i => colWrite i (g i) src acc) out

/-- The same loop for a single row: `for i in range(n): out[i] = g(i, ...)`. -/
def rowLoop {σ : Type} (n : Nat) (g : Nat → σ → List α → α) (src : σ) (out : List α) : List α :=
  (List.range n).foldl (fun acc i => acc.set i (g i src acc)) out

/-- entry `row[i]` (the index is in range wherever the model uses it) -/
def ent (row : List α) (i : Nat) : α := row.getD i (lit 0)

/-! ### sdss_ab_correct -/

/-- utils.py:116, default of the `abfix` argument. -/
def abfixDefault : List α := [lit (-0.036), lit 0.012, lit 0.010, lit 0.028, lit 0.040]

/-- utils.py:163–166: `abfac = 10.**(- 0.4 * np.array(abfix, dtype=np.float32))`. -/
def abFac (abfix : List α) : List α := abfix.map (fun f => pow10 (-(lit 0.4) * f32 f))

/-- Result of `sdss_ab_correct`: one array, or a pair when `ivar` was given. -/
structure AbOut (α : Type) where
  maggies : NDA α
  ivar : Option (NDA α)

/-- `np.zeros(shape, dtype=np.float32)` with the rows of an array of shape `lead ++ [ncol]` -/
def zeroRows (n ncol : Nat) : List (List α) := List.replicate n (zeros ncol)

/-- utils.py:168–186: apply the factors.  Lines 168–173: one-dimensional input; 174–181: any other rank, where
`maggies[..., i]` raises `IndexError` for a 0-dimensional array and for a last axis shorter than 5. -/
def abApply (maggies : NDA α) (ivar : Option (NDA α)) (abfac : List α) : Py (AbOut α) :=
  match maggies with
  | .scalar _ => .error .indexError
  | .arr [] ncol rows =>
    if ncol ≠ 5 then .error .typeError
    else
      .ok ⟨.arr [] ncol (rows.map (fun r => List.zipWith (fun x c => x * c) r abfac)),
        match ivar with
        | some (.arr lead nc ivrows) =>
          some (.arr lead nc (ivrows.map (fun r => List.zipWith (fun x c => x / (c * c)) r abfac)))
        | _ => none⟩
  | .arr lead ncol rows =>
    if ncol < 5 then .error .indexError
    else
      .ok ⟨.arr lead ncol
          (colLoop 5 (fun i s _ => f32 (ent s i * ent abfac i)) rows (zeroRows rows.length ncol)),
        match ivar with
        | some (.arr lead nc ivrows) =>
          some (.arr lead nc (colLoop 5 (fun i s _ => f32 (ent s i / (ent abfac i * ent abfac i))) ivrows
            (zeroRows ivrows.length nc)))
        | _ => none⟩

/-- utils.py:115–186 `sdss_ab_correct`.  `abfix` is taken to be one-dimensional (a list); an `abfix` of another
rank also fails the test of line 164. -/
def sdssAbCorrect (maggies : NDA α) (ivar : Option (NDA α)) (abfix : List α) : Py (AbOut α) := do
  let maggies := maggies.map f32
  let ivar := ivar.map (NDA.map f32)
  require (∀ iv ∈ ivar, maggies.shape = iv.shape) .typeError
  require (abfix.length = 5) .typeError
  abApply maggies ivar (abFac abfix)

/-! ### error_floor -/

/-- utils.py:227–232 and 235–238, the new value of one entry.  `store` is the conversion to the dtype of the
array the result is stored in. -/
def floorEntry (store : α → α) (fl m iv : α) : α :=
  if gtb iv (lit 0) then
    if ltb (lit 1 / (Arith.abs m * Arith.sqrt iv)) fl then
      store (lit 1 / ((Arith.abs m * fl) * (Arith.abs m * fl)))
    else iv
  else iv

/-- utils.py:189–240 `error_floor`.  The arrays are copied on entry (210–212).  `floor` is taken to be
one-dimensional.  The test of line 219 reads `maggies.shape[-1]`, an `IndexError` for 0-dimensional input.
Lines 225–232 (table) update the copy column by column, 233–238 entry by entry.  Rank 3 and higher is not
modelled (the code then indexes the second axis). -/
def errorFloor (store : α → α) (floor : List α) (maggies ivar : NDA α) : Py (NDA α) := do
  match maggies with
  | .scalar _ => throw .indexError
  | .arr mlead mncol mrows =>
    require (mncol = floor.length) .typeError
    require (maggies.shape = ivar.shape) .typeError
    match ivar with
    | .scalar _ => throw .typeError
    | .arr lead ncol rows =>
      match mlead with
      | [] => return (.arr lead ncol (List.zipWith (fun ms iv =>
          rowLoop floor.length (fun i s acc => floorEntry store (ent floor i) (ent s i) (ent acc i)) ms iv)
            mrows rows))
      | [_] => return (.arr lead ncol
          (colLoop floor.length (fun i s acc => floorEntry store (ent floor i) (ent s i) (ent acc i)) mrows rows))
      | _ => throw .unmodelled

/-! ### sdss_asinh_to_maggies -/

/-- utils.py:293–294, softening parameters (float32). -/
def asinhB : List α :=
  [f32 (lit 1.4e-10), f32 (lit 0.9e-10), f32 (lit 1.2e-10), f32 (lit 1.8e-10), f32 (lit 7.4e-10)]

/-- utils.py:298–300 (and 306–308), the argument of `sinh`/`cosh`. -/
def asinhArg (b mag : α) : α := -(Arith.log b) - (lit 0.4 * Arith.log (lit 10) * mag)

/-- utils.py:298–301, one entry: both statements store a float32. -/
def asinhFlux (b mag ext : α) : α :=
  f32 (f32 (lit 2 * b * Arith.sinh (asinhArg b mag)) * pow10 (lit 0.4 * ext))

/-- utils.py:306–310, one entry. -/
def asinhIvar (b mag magErr : α) : α :=
  let err := lit 2 * b * Arith.cosh (asinhArg b mag) * lit 0.4 * Arith.log (lit 10) * magErr
  f32 (lit 1 / (err * err))

/-- utils.py:243–315 `sdss_asinh_to_maggies`.  Shape tests in source order; `mag.shape[-1]` is an
`IndexError` for 0-dimensional input.  The two statements of the loop body at 298 and 301 are merged
(`asinhFlux`); they touch only entry `[..., k]`. -/
def asinhToMaggies (mag : NDA α) (magErr ext : Option (NDA α)) : Py (AbOut α) := do
  let mag := mag.map f32
  let magErr := magErr.map (NDA.map f32)
  let ext := ext.map (NDA.map f32)
  require (∀ e ∈ magErr, mag.shape = e.shape) .typeError
  require (∀ e ∈ ext, mag.shape = e.shape) .typeError
  match mag with
  | .scalar _ => throw .indexError
  | .arr lead ncol rows =>
    require (ncol = 5) .typeError
    let extRows : List (List α) := match ext with
      | some (.arr _ _ e) => e
      | _ => zeroRows rows.length ncol
    let m := colLoop 5 (fun k (s : List α × List α) _ => asinhFlux (ent asinhB k) (ent s.1 k) (ent s.2 k))
      (List.zip rows extRows) (zeroRows rows.length ncol)
    let v : Option (NDA α) := match magErr with
      | some (.arr _ _ e) =>
        some (.arr lead ncol (colLoop 5 (fun k (s : List α × List α) _ => asinhIvar (ent asinhB k) (ent s.1 k) (ent s.2 k))
          (List.zip rows e) (zeroRows rows.length ncol)))
      | _ => none
    return ⟨.arr lead ncol m, v⟩

/-! ### maggies2flambda -/

/-- numpy broadcasting of two vectors -/
def bcast {β γ δ : Type} (f : β → γ → δ) (xs : List β) (ys : List γ) : Py (List δ) :=
  if xs.length = ys.length then .ok (List.zipWith f xs ys)
  else match xs, ys with
    | [x], ys => .ok (ys.map (f x))
    | xs, [y] => .ok (xs.map (fun x => f x y))
    | _, _ => .error .valueError

/-- the last axis of the broadcast of two arrays with `a` and `b` columns -/
def bcols (a b : Nat) : Nat := if a = 1 then b else a

/-- numpy's condition for broadcasting last axes of `a` and `b` columns (it is checked for tables without rows, too) -/
def BcOK (a b : Nat) : Prop := a = b ∨ a = 1 ∨ b = 1

instance (a b : Nat) : Decidable (BcOK a b) := by unfold BcOK; infer_instance

/-- Result of `maggies2flambda`. -/
structure FlOut (α : Type) where
  wave : List α
  flux : NDA α
  ivar : Option (NDA α)

/-- utils.py:361–379, `maggies2flambda` after the effective wavelengths have been looked up (`wave` is the
float32 array of line 361).  Line 366–368: one-dimensional `maggies`; 370–374: tables.  A 0-dimensional
`maggies` fails at `maggies.shape[0]`.  Rank 3 and `ivar` of a different rank than `maggies` are not modelled. -/
def flambdaOf (wave : List α) (maggies : NDA α) (ivar : Option (NDA α)) : Py (FlOut α) := do
  let m2f := wave.map sedAbAt
  match maggies with
  | .scalar _ => throw .indexError
  | .arr [] ncol rows =>
    let f ← rows.mapM (bcast (fun c m => c * m) m2f)
    let v ← match ivar with
      | none => pure none
      | some (.arr [] nc ivr) => do
        let v ← ivr.mapM (bcast (fun c iv => iv / (c * c)) m2f)
        pure (some (NDA.arr [] (bcols m2f.length nc) v))
      | some _ => throw .unmodelled
    return ⟨wave, .arr [] (bcols m2f.length ncol) f, v⟩
  | .arr [n] ncol rows =>
    require (BcOK m2f.length ncol) .valueError
    let f ← rows.mapM (bcast (fun c m => c * m) m2f)
    let v ← match ivar with
      | none => pure none
      | some (.arr [k] nc ivr) => do
        require (k = n) .unmodelled
        require (BcOK m2f.length nc) .valueError
        let v ← ivr.mapM (bcast (fun c iv => lit 1 / (c * c) * iv) m2f)
        pure (some (NDA.arr [k] (bcols m2f.length nc) v))
      | some _ => throw .unmodelled
    return ⟨wave, .arr [n] (bcols m2f.length ncol) f, v⟩
  | _ => throw .unmodelled

/-! ### read_basel -/

/-- `str.split()` with white-space predicate `ws`: maximal runs of non-white characters.  `cur` is the
word being read, reversed. -/
def splitWSAux (ws : Char → Bool) : List Char → List Char → List (List Char)
  | cur, [] => if cur = [] then [] else [cur.reverse]
  | cur, c :: cs =>
    if ws c then (if cur = [] then splitWSAux ws [] cs else cur.reverse :: splitWSAux ws [] cs)
    else splitWSAux ws (c :: cur) cs

/-- utils.py:73 `fpstr.split()` -/
def splitWS (ws : Char → Bool) (text : List Char) : List (List Char) := splitWSAux ws [] text

/-- `read_basel`'s result: the `info` dictionary (104–110), the wavelengths and the flux table. -/
structure Basel (α : Type) where
  modelno : List Int
  teff : List α
  logg : List α
  mh : List α
  vturb : List α
  xh : List α
  wave : List α
  flux : List (List α)

/-- One unit of the file, utils.py:91–102. -/
structure BaselUnit (α : Type) where
  modelno : Int
  teff : α
  logg : α
  mh : α
  vturb : α
  xh : α
  flux : List α

/-- `np.float32(word)`: `ValueError` if the word is not a number. -/
def toF {β : Type} (parse : List Char → Option β) (w : List Char) : Py β :=
  match parse w with
  | some x => .ok x
  | none => .error .valueError

/-- utils.py:91–102, the loop body.  `words[start + j]` raises `IndexError` beyond the end. -/
def baselUnit (pF : List Char → Option α) (pI : List Char → Option Int) (nwave : Nat)
    (words : List (List Char)) (unit : Nat) : Py (BaselUnit α) := do
  let start := nwave + unit * (nwave + 6)
  let word (j : Nat) : Py (List Char) := match words[start + j]? with
    | some w => .ok w
    | none => .error .indexError
  let modelno ← word 0 >>= toF pI
  let teff ← word 1 >>= toF pF
  let logg ← word 2 >>= toF pF
  let mh ← word 3 >>= toF pF
  let vturb ← word 4 >>= toF pF
  let xh ← word 5 >>= toF pF
  let flux ← ((words.drop (start + 6)).take nwave).mapM (toF pF)
  return ⟨modelno, teff, logg, mh, vturb, xh, flux⟩

/-- utils.py:73–112 for an arbitrary number of spectral elements; the code fixes `nwave = 1221`.  A
negative unit count makes `np.zeros` raise `ValueError` (line 82).  `pF`/`pI` are the word conversions
`np.float32`/`np.int32`. -/
def readBaselN (nwave : Nat) (pF : List Char → Option α) (pI : List Char → Option Int)
    (ws : Char → Bool) (text : List Char) : Py (Basel α) := do
  let words := splitWS ws text
  let nunits : Int := ((words.length : Int) - nwave) / ((nwave : Int) + 6)
  let wave ← (words.take nwave).mapM (toF pF)
  require (0 ≤ nunits) .valueError
  let us ← (List.range nunits.toNat).mapM (baselUnit pF pI nwave words)
  return { modelno := us.map (·.modelno), teff := us.map (·.teff), logg := us.map (·.logg),
           mh := us.map (·.mh), vturb := us.map (·.vturb), xh := us.map (·.xh),
           wave := wave, flux := us.map (·.flux) }

/-- utils.py:35–112 `read_basel` on the text of the file. -/
def readBasel (pF : List Char → Option α) (pI : List Char → Option Int)
    (ws : Char → Bool) (text : List Char) : Py (Basel α) := readBaselN 1221 pF pI ws text

end KC
