import Mathlib.Data.Rat.Floor
import Mathlib.Tactic.Linarith
import Mathlib.Tactic.Ring
import Mathlib.Tactic.NormNum

/-!
# Python, numpy and `random` primitives used by RAMP

The model of RAMP is written on top of these few primitives.  Floating point numbers are modelled by exact
rationals.  A generator state of Python's `random` module is an infinite stream of draws; each call of the module
consumes one draw and turns it into one of the outcomes that Python documents as possible, so that a statement
quantified over all streams covers every outcome of every call.
-/

set_option autoImplicit false

namespace Ramp

/-- The exceptions RAMP can raise (`ramp/errors_logs/errors.py:1-10` for `InvalidType` and `InvalidWindow`, Python
built-ins otherwise).  `diverge` is not a Python exception: it marks a loop that did not stop within its fuel. -/
inductive Err
  | valueError | invalidWindow | indexError | keyError | typeError | invalidType | zeroDivisionError
  | recursionError | attributeError | exception | fileNotFoundError
  | diverge
  deriving DecidableEq, Repr

instance : DecidableEq (Except Err Unit) := fun a b => by
  cases a <;> cases b
  · rename_i x y
    exact if h : x = y then isTrue (by rw [h]) else isFalse (by intro hh; cases hh; exact h rfl)
  · exact isFalse (by intro h; cases h)
  · exact isFalse (by intro h; cases h)
  · exact isTrue rfl

/-- One draw of the random module: `u` is used by `random.uniform`, `k` by `randint`/`choice`, `z` (a standard normal
deviate) by `gauss`/`normalvariate`. [used by `utils.py:106`, `core.py:1578-1579`, `core.py:1945-1956`] -/
structure Draw where
  u : ℚ
  u_nonneg : 0 ≤ u
  u_le_one : u ≤ 1
  k : ℕ
  z : ℚ

/-- State of Python's global random generator: the draws still to come. [Python's `random`, seeded in `core.py:112-113`] -/
abbrev Rng := ℕ → Draw

/-- A computation that draws random numbers and may raise. [no source: the shape of every function of `ramp/core/core.py` that draws] -/
def Sim (α : Type) : Type := Rng → Except Err (α × Rng)

instance : Monad Sim where
  pure a := fun r => .ok (a, r)
  bind m f := fun r => match m r with
    | .ok (a, r') => f a r'
    | .error e => .error e

/-- Raise a Python exception. [`raise` statements, for example `core.py:1812-1816`] -/
def raise {α : Type} (e : Err) : Sim α := fun _ => .error e

/-- Use a computation without randomness. [no source: plumbing of the model] -/
def liftE {α : Type} (x : Except Err α) : Sim α := fun r => match x with
  | .ok a => .ok (a, r)
  | .error e => .error e

/-- Consume one draw. [one call of `random`, for example `utils.py:106`] -/
def nextDraw : Sim Draw := fun r => .ok (r 0, fun n => r (n + 1))

/-- `random.uniform(a, b)`: CPython computes `a + (b - a) * random()`.  The end `b` is allowed because floating
rounding can reach it. [`utils.py:106`, `core.py:1797`, `core.py:1855`, `core.py:1956`, `core.py:1986`] -/
def uniform (a b : ℚ) : Sim ℚ := do
  let d ← nextDraw
  pure (a + (b - a) * d.u)

/-- `random.randint(a, b)`: any integer of `a..b`, `ValueError` when the range is empty.
[`core.py:1007`, `core.py:1578-1579`, `core.py:1840`] -/
def randint (a b : ℤ) : Sim ℤ :=
  if b < a then raise .valueError
  else do
    let d ← nextDraw
    pure (a + (d.k : ℤ) % (b - a + 1))

/-- `random.gauss(mu, sigma)` and `random.normalvariate(mu, sigma)`: `mu + z * sigma`. [`core.py:371-381`, `core.py:1945-1948`] -/
def gauss (mu sigma : ℚ) : Sim ℚ := do
  let d ← nextDraw
  pure (mu + d.z * sigma)

/-- `random.choice([x, y])`. [`utils.py:177-182`] -/
def choice2 {α : Type} (x y : α) : Sim α := do
  let d ← nextDraw
  pure (if d.k % 2 = 0 then x else y)

/-- Python `round(x)`: to the nearest integer, ties to even. [`core.py:370-378`, `core.py:1796`] -/
def pyRound (q : ℚ) : ℤ :=
  let f := ⌊q⌋
  let d := q - f
  if d < 1 / 2 then f
  else if 1 / 2 < d then f + 1
  else if f % 2 = 0 then f else f + 1

/-- Python `int(x)`: truncation towards zero. [`utils.py:135-136`, `core.py:1433-1441`, `core.py:1797`] -/
def pyInt (q : ℚ) : ℤ := if 0 ≤ q then ⌊q⌋ else ⌈q⌉

/-- `np.arange(a, b)` / `range(a, b)` with step 1. [`core.py:387`, `core.py:1833`, `core.py:1853-1861`] -/
def arange (a b : ℤ) : List ℤ := (List.range (b - a).toNat).map (fun (i : ℕ) => a + (i : ℤ))

/-- One day at a resolution of one minute: a numpy array of shape `(1440,)`. [`core.py:361`, `core.py:1422`] -/
abbrev Profile := Fin 1440 → ℚ

/-- `np.zeros(1440)`. [`core.py:361`, `core.py:433`, `core.py:1422`] -/
def zeros : Profile := fun _ => 0

/-- Normalisation of one bound of a Python slice over an array of 1440 values. [`core.py:1423-1431`, `core.py:2015-2027`] -/
def sliceBound (i : ℤ) : ℤ := if i < 0 then max 0 (i + 1440) else min i 1440

/-- `a[lo:hi] = np.full(n, v)`: a negative size raises `ValueError`, and so does a size that is neither the length of the
slice nor 1 (broadcasting). [`core.py:1423-1431`, `core.py:2015-2027`] -/
def fillSlice (a : Profile) (lo hi n : ℤ) (v : ℚ) : Except Err Profile :=
  if n < 0 then .error .valueError
  else
    let s := sliceBound lo
    let e := sliceBound hi
    if n = max 0 (e - s) ∨ n = 1 then
      .ok (fun i => if s ≤ (i : ℤ) ∧ (i : ℤ) < e then v else a i)
    else .error .valueError

/-- Position addressed by an integer index of an array of 1440 values; negative indices count from the end. [`core.py:1550-1570`] -/
def wrapIdx (i : ℤ) : Option (Fin 1440) :=
  if h : 0 ≤ i ∧ i < 1440 then some ⟨i.toNat, by omega⟩
  else if h : -1440 ≤ i ∧ i < 0 then some ⟨(i + 1440).toNat, by omega⟩
  else none

/-- Loop of `np.put`: the `k`-th index receives value `k mod len(v)`. [`core.py:1550-1570`] -/
def npPutFrom (v : List ℚ) : ℕ → List ℤ → Profile → Except Err Profile
  | _, [], a => .ok a
  | k, i :: is, a => match wrapIdx i with
    | none => .error .indexError
    | some p => npPutFrom v (k + 1) is (fun j => if j = p then v.getD (k % v.length) 0 else a j)

/-- `np.put(a, ind, v)`: values are repeated when there are fewer values than indices; nothing happens when there is no
value; an index outside the array raises `IndexError`. [`core.py:1550-1570`] -/
def npPut (a : Profile) (ind : List ℤ) (v : List ℚ) : Except Err Profile :=
  if v.length = 0 then .ok a else npPutFrom v 0 ind a

/-- `np.ones(n) * p`: a negative size raises `ValueError`. [`utils.py:135-136`, `core.py:1174`, `core.py:1229`] -/
def onesTimes (n : ℤ) (p : ℚ) : Except Err (List ℚ) :=
  if n < 0 then .error .valueError else .ok (List.replicate n.toNat p)

end Ramp
