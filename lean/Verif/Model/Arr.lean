import Verif.Model.Arith

/-!
# Arrays

`NDA α` models a numeric numpy array.
-/

namespace KC

/-- A numpy array: a 0-dimensional scalar, or an array of shape `lead ++ [ncol]` listed as its rows along
the last axis in C order.  A 1-dimensional array has `lead = []` and exactly one row. -/
inductive NDA (α : Type) where
  | scalar (x : α)
  | arr (lead : List Nat) (ncol : Nat) (rows : List (List α))

namespace NDA
variable {α β : Type}

/-- The array is what its shape says. -/
def WF : NDA α → Prop
  | scalar _ => True
  | arr lead ncol rows => rows.length = lead.prod ∧ ∀ r ∈ rows, r.length = ncol

/-- `a.shape` -/
def shape : NDA α → List Nat
  | scalar _ => []
  | arr lead ncol _ => lead ++ [ncol]

/-- `a.ndim` -/
def ndim : NDA α → Nat
  | scalar _ => 0
  | arr lead _ _ => lead.length + 1

/-- elementwise operation -/
def map (f : α → β) : NDA α → NDA β
  | scalar x => scalar (f x)
  | arr lead ncol rows => arr lead ncol (rows.map (List.map f))

/-- 1-dimensional array -/
def vec (xs : List α) : NDA α := arr [] xs.length [xs]

/-- 2-dimensional array with `ncol` columns -/
def mat (ncol : Nat) (rows : List (List α)) : NDA α := arr [rows.length] ncol rows

/-- all entries in C order -/
def flat : NDA α → List α
  | scalar x => [x]
  | arr _ _ rows => rows.flatten

/-- cut a list into `n` consecutive pieces of length `k` -/
def chunks (k : Nat) : Nat → List α → List (List α)
  | 0, _ => []
  | n + 1, xs => xs.take k :: chunks k n (xs.drop k)

/-- `a.reshape(lead + (ncol,))`: `ValueError` if the sizes differ -/
def reshape (a : NDA α) (lead : List Nat) (ncol : Nat) : Py (NDA α) :=
  if a.flat.length = lead.prod * ncol then
    .ok (arr lead ncol (chunks ncol lead.prod a.flat))
  else .error .valueError

end NDA

section lists
variable {α : Type} [Arith α]

/-- `np.sum` of a vector (order of summation not modelled) -/
def sumL (xs : List α) : α := xs.foldr (· + ·) (lit 0)

/-- dot product of two vectors -/
def dot (a b : List α) : α := sumL (List.zipWith (· * ·) a b)

/-- fancy indexing `row[idx]`; every index used by the code is in range (`C63`) -/
def gather (row : List α) (idx : List Nat) : List α := idx.map (fun j => row.getD j (lit 0))

/-- `np.zeros(n)` -/
def zeros (n : Nat) : List α := List.replicate n (lit 0)

end lists

end KC
