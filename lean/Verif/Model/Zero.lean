import Mathlib.Algebra.Order.Field.Basic
import Mathlib.Algebra.Order.Group.Abs
/-!
# Model of `src/util/Zero.cpp`

`double` is modelled by an arbitrary linearly ordered field `K` (exact arithmetic); machine epsilon
is a parameter.  The function argument is `F : K → Option K`, where `none` stands for a NaN or
infinite value.  Signed zeros do not matter: every value whose sign is inspected is non-zero.
-/
namespace Tandem.Zero

variable {K : Type} [Field K] [LinearOrder K]

/-- Outcomes of `zeroIn`;
src/util/Zero.cpp lines 15-100. -/
inductive Outcome (K : Type) where
  /-- returns a value -/
  | root (x : K)
  /-- throws `function_nan_inf` -/
  | nanInf
  /-- throws `std::logic_error`: equal signs -/
  | sameSign
  /-- still looping -/
  | outOfFuel

/-- `std::copysign`, for a non-zero sign argument.
Used in src/util/Zero.cpp lines 27, 35 and 92. -/
def copysign (x y : K) : K := if 0 ≤ y then |x| else -|x|

/-- Loop variables of `zeroIn`, src/util/Zero.cpp lines 15-33. -/
structure St (K : Type) where
  a : K
  b : K
  c : K
  d : K
  e : K
  Fa : K
  Fb : K
  Fc : K

/-- src/util/Zero.cpp lines 35-40: re-anchor `c` if `Fb` and `Fc` have the same sign. -/
def reanchor (s : St K) : St K :=
  if copysign s.Fb s.Fc = s.Fb then
    { s with c := s.a, Fc := s.Fa, d := s.b - s.a, e := s.b - s.a }
  else s

/-- src/util/Zero.cpp lines 41-48: make `b` the better approximation. -/
def swapBest (s : St K) : St K :=
  if |s.Fc| < |s.Fb| then
    { s with a := s.b, b := s.c, c := s.b, Fa := s.Fb, Fb := s.Fc, Fc := s.Fb }
  else s

/-- `xm`, src/util/Zero.cpp line 50. -/
def xm (s : St K) : K := (s.c - s.b) / 2

/-- `tol1`, src/util/Zero.cpp line 51. -/
def tol1 (eps tol : K) (s : St K) : K := 2 * eps * |s.b| + tol / 2

/-- src/util/Zero.cpp lines 55-86: choice of the step `(d, e)`. -/
def chooseStep (eps tol : K) (s : St K) : K × K :=
  let xm := xm s
  let tol1 := tol1 eps tol s
  if |s.e| < tol1 ∨ |s.Fa| ≤ |s.Fb| then (xm, xm)
  else
    let r0 := s.Fb / s.Fa
    let pq : K × K :=
      if s.a ≠ s.c then
        let q := s.Fa / s.Fc
        let r := s.Fb / s.Fc
        (r0 * (2 * xm * q * (q - r) - (s.b - s.a) * (r - 1)), (q - 1) * (r - 1) * (r0 - 1))
      else (2 * xm * r0, 1 - r0)
    let pq : K × K := if 0 < pq.1 then (pq.1, -pq.2) else (-pq.1, pq.2)
    let p := pq.1
    let q := pq.2
    if 2 * p < 3 * xm * q - |tol1 * q| ∧ p < |s.e * q / 2| then (p / q, s.d)
    else (xm, xm)

/-- src/util/Zero.cpp lines 89-93: the new `b`. -/
def newB (eps tol : K) (s : St K) (d : K) : K :=
  let t := tol1 eps tol s
  if t < |d| then s.b + d else s.b + copysign t (xm s)

/-- src/util/Zero.cpp lines 87-94: the old `b` becomes `a`, the new point becomes `b`. -/
def advance (s : St K) (b' Fb' : K) (de : K × K) : St K :=
  { s with a := s.b, Fa := s.Fb, b := b', Fb := Fb', d := de.1, e := de.2 }

/-- The `while` loop of `zeroIn`, src/util/Zero.cpp lines 34-98; at most `fuel` passes. -/
def loop (F : K → Option K) (eps tol : K) : Nat → St K → Outcome K
  | fuel, s =>
    if s.Fb = 0 then .root s.b
    else match fuel with
      | 0 => .outOfFuel
      | fuel + 1 =>
        let s := swapBest (reanchor s)
        if |xm s| ≤ tol1 eps tol s ∨ s.Fb = 0 then .root s.b
        else
          let de := chooseStep eps tol s
          let b' := newB eps tol s de.1
          match F b' with
          | none => .nanInf
          | some Fb' =>
            loop F eps tol fuel (advance s b' Fb' de)

/-- `zeroIn`, src/util/Zero.cpp lines 13-100.  `Fa == 0.0` is tested before anything else
(line 16), so a NaN at `b` is not noticed in that case. -/
def zeroIn (F : K → Option K) (eps tol : K) (fuel : Nat) (a b : K) : Outcome K :=
  match F a with
  | none => .nanInf
  | some Fa =>
    if Fa = 0 then .root a
    else match F b with
      | none => .nanInf
      | some Fb =>
        if Fb ≠ 0 ∧ copysign Fa Fb = Fa then .sameSign
        else loop F eps tol fuel
          { a := a, b := b, c := a, d := b - a, e := b - a, Fa := Fa, Fb := Fb, Fc := Fa }

end Tandem.Zero
