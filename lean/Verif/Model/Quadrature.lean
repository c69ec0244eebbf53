import Verif.Model.RefElement
import Mathlib.Analysis.SpecialFunctions.Trigonometric.Basic
/-!
# Model of `src/quadrules` (`GaussJacobi`, `IntervalQuadratureRule`, `TensorProductRule`,
`TabulatedRules`, `AutoRule`)

Exact real arithmetic in place of `double`.  The tables of the tabulated rules
(`JaskowiecSukumar2020.cpp`, `WitherdenVincent2015_*.cpp`) are parameters.
-/
namespace Tandem.Quadrature
open Functions RefElement
noncomputable section

/-- `IntervalQuadratureRule`, src/quadrules/IntervalQuadratureRule.h lines 15-30. -/
structure Interval where
  points : List ℝ
  weights : List ℝ
  a : ℝ
  b : ℝ

/-- `IntervalQuadratureRule::changeInterval`, src/quadrules/IntervalQuadratureRule.cpp lines 5-18. -/
def changeInterval (r : Interval) (start stop : ℝ) : Interval :=
  let diff := 0.5 * (r.b - r.a)
  let avg := 0.5 * (r.a + r.b)
  let newDiff := 0.5 * (stop - start)
  let newAvg := 0.5 * (start + stop)
  ⟨r.points.map fun p => newDiff * (p - avg) / diff + newAvg,
    r.weights.map fun w => w * (newDiff / diff), start, stop⟩

/-- `quadrature_settings::MaxIterations`, src/quadrules/GaussJacobi.h line 11. -/
def maxIterations : ℕ := 100

/-- `quadrature_settings::Tolerance`, src/quadrules/GaussJacobi.h line 12 (the machine epsilon of
`double` is `2^-52`). -/
def tolerance : ℝ := 10 * (2 ^ 52)⁻¹

/-- The Newton iteration, src/quadrules/GaussJacobi.cpp lines 25-33, with `fuel` passes of the loop
left: returns the values of `x` and `dPn` after the loop. -/
def newton (n a b : ℕ) : ℕ → ℝ → ℝ → ℝ → ℝ × ℝ
  | 0, x, _, dPn => (x, dPn)
  | fuel + 1, x, Pn, dPn =>
    let x' := x - Pn / dPn
    let Pn' := jacobiP n a b x'
    let dPn' := jacobiPDerivative n a b x'
    if tolerance < |Pn'| ∧ fuel ≠ 0 then newton n a b fuel x' Pn' dPn' else (x', dPn')

/-- The initial guess, src/quadrules/GaussJacobi.cpp line 24. -/
def guess (n a b i : ℕ) : ℝ :=
  Real.cos (Real.pi * (0.5 * a + i - 0.25) / (0.5 * (1 + a + b) + n))

/-- `rangeProduct(from, to)` converted to `double` (C08; the number of iterations is sufficient unless
`to = 2^64-1`, where the loop does not end);
src/util/Math.cpp lines 5-11, used in src/quadrules/GaussJacobi.cpp lines 20-21. -/
def rangeProd (from_ to_ : ℕ) : ℝ := ((Combinatorics.rangeProduct (to_ + 1) from_ to_).getD 0 : ℕ)

/-- `weightFactor`, src/quadrules/GaussJacobi.cpp lines 20-21 (`1 << (a + b)` is an `int`, defined only
for `a + b < 31`). -/
def weightFactor (n a b : ℕ) : ℝ :=
  -(2 * n + a + b + 2) * rangeProd (n + 1) (n + b) * 2 ^ (a + b)
    / ((n + a + b + 1) * rangeProd (n + a + 1) (n + a + b) * (n + 1))

/-- `GaussJacobi`, src/quadrules/GaussJacobi.cpp lines 15-38. -/
def gaussJacobi (n a b : ℕ) : Interval :=
  let roots := (List.range n).map fun i => newton n a b maxIterations (guess n a b (i + 1)) 0 1
  ⟨roots.map fun r => r.1,
    roots.map fun r => weightFactor n a b / (jacobiP (n + 1) a b r.1 * r.2), -1, 1⟩

/-- `TensorProductRule<D>::pointsPerDim`, src/quadrules/TensorProductRule.h lines 12-14. -/
def pointsPerDim (minQuadOrder : ℕ) : ℕ := 1 + minQuadOrder / 2

/-- `TensorProductRule<D>::size`, src/quadrules/TensorProductRule.h lines 19-26, in 64-bit unsigned
arithmetic. -/
def tensorSize (D minQuadOrder : ℕ) : ℕ :=
  (List.range D).foldl (fun s _ => s * pointsPerDim minQuadOrder % 2 ^ 64) 1

/-- A rule with its order: `SimplexQuadratureRule<D>`, src/quadrules/SimplexQuadratureRule.h
lines 13-31. -/
structure SimplexRule (D : ℕ) where
  rule : Rule D
  order : ℤ

/-- A rule from the list of its points and weights: the vectors filled through `idx`,
src/quadrules/TensorProductRule.cpp lines 35-43. -/
def ofEntries {D : ℕ} (l : List ((Fin D → ℝ) × ℝ)) (order : ℤ) : SimplexRule D :=
  ⟨⟨l.map Prod.fst, l.map Prod.snd⟩, order⟩

/-- Points and weights of a rule on an interval, as pairs (`points()[i]`, `weights()[i]`),
src/quadrules/IntervalQuadratureRule.h lines 21-22. -/
def Interval.entries (r : Interval) : List (ℝ × ℝ) := r.points.zip r.weights

/-- `TensorProductRule<1u>::get`, src/quadrules/TensorProductRule.cpp lines 10-23. -/
def tensor1 (minQuadOrder : ℕ) : SimplexRule 1 :=
  let n := pointsPerDim minQuadOrder
  let gj := changeInterval (gaussJacobi n 0 0) 0 1
  ofEntries (gj.entries.map fun e => (![e.1], e.2)) (2 * n - 1)

/-- `TensorProductRule<2u>::get`, src/quadrules/TensorProductRule.cpp lines 25-46. -/
def tensor2 (minQuadOrder : ℕ) : SimplexRule 2 :=
  let n := pointsPerDim minQuadOrder
  let gj0 := changeInterval (gaussJacobi n 0 0) 0 1
  let gj1 := changeInterval (gaussJacobi n 1 0) 0 1
  ofEntries (gj1.entries.flatMap fun e1 => gj0.entries.map fun e0 =>
    (![e1.1, e0.1 * (1 - e1.1)], 0.5 * e1.2 * e0.2)) (2 * n - 1)

/-- `TensorProductRule<3u>::get`, src/quadrules/TensorProductRule.cpp lines 48-78. -/
def tensor3 (minQuadOrder : ℕ) : SimplexRule 3 :=
  let n := pointsPerDim minQuadOrder
  let gj0 := changeInterval (gaussJacobi n 0 0) 0 1
  let gj1 := changeInterval (gaussJacobi n 1 0) 0 1
  let gj2 := changeInterval (gaussJacobi n 2 0) 0 1
  ofEntries (gj2.entries.flatMap fun e2 => gj1.entries.flatMap fun e1 => gj0.entries.map fun e0 =>
    (![e2.1, e1.1 * (1 - e2.1), e0.1 * (1 - e1.1) * (1 - e2.1)], 0.125 * e2.2 * e1.2 * e0.2)) (2 * n - 1)

/-- `TensorProductRule<D>::get`, src/quadrules/TensorProductRule.cpp lines 10-78 (only `D = 1, 2, 3`
are defined). -/
def tensorRule : (D : ℕ) → ℕ → SimplexRule D
  | 1, q => tensor1 q
  | 2, q => tensor2 q
  | 3, q => tensor3 q
  | _, _ => ⟨⟨[], []⟩, -1⟩

/-- The table of a tabulated rule: `std::map` from the order to points and weights,
src/quadrules/TabulatedRules.h lines 17-18; the list is sorted by strictly increasing order. -/
abbrev Tab (D : ℕ) := List (ℕ × Rule D)

/-- `std::map::lower_bound`, as used in src/quadrules/TabulatedRules.h lines 32 and 38. -/
def lowerBound {D : ℕ} (t : Tab D) (q : ℕ) : Option (ℕ × Rule D) := t.find? fun e => q ≤ e.1

/-- `std::numeric_limits<std::size_t>::max()`, src/quadrules/TabulatedRules.h line 34. -/
def sizeMax : ℕ := 2 ^ 64 - 1

/-- `TabulatedRules<Derived>::size`, src/quadrules/TabulatedRules.h lines 31-35. -/
def tabSize {D : ℕ} (t : Tab D) (q : ℕ) : ℕ :=
  match lowerBound t q with
  | some e => e.2.points.length
  | none => sizeMax

/-- `TabulatedRules<Derived>::get`, src/quadrules/TabulatedRules.h lines 37-54 (the assertions are
left out). -/
def tabGet {D : ℕ} (transform : Rule D → Rule D) (t : Tab D) (q : ℕ) : SimplexRule D :=
  match lowerBound t q with
  | some e => ⟨transform e.2, e.1⟩
  | none => ⟨⟨[], []⟩, -1⟩

/-- `JaskowiecSukumar2020::transform`, src/quadrules/TabulatedRules.h lines 66-71. -/
def transformJS (r : Rule 3) : Rule 3 := ⟨r.points, r.weights.map fun w => w / 6⟩

/-- `WitherdenVincent2015<D>::transform`, src/quadrules/TabulatedRules.h lines 93-103. -/
def transformWV {D : ℕ} (r : Rule D) : Rule D :=
  ⟨r.points.map fun pt d => 0.5 * pt d + 0.5, r.weights.map fun w => w / 2 ^ D⟩

/-- One candidate of `minSizeSimplexQuadratureRule`: the functions `size` and `get` of a class,
src/quadrules/AutoRule.h lines 11-23. -/
structure Candidate (D : ℕ) where
  size : ℕ → ℕ
  get : ℕ → SimplexRule D

/-- `minSizeSimplexQuadratureRule<Head, ...>`, src/quadrules/AutoRule.h lines 11-23: the current
candidate and the remaining ones. -/
def minSize {D : ℕ} (q : ℕ) : Candidate D → List (Candidate D) → SimplexRule D
  | c, [] => c.get q
  | c1, c2 :: tail => if c1.size q ≤ c2.size q then minSize q c1 tail else minSize q c2 tail

/-- The candidate `TensorProductRule<D>`, src/quadrules/TensorProductRule.h lines 10-35. -/
def candTensor (D : ℕ) : Candidate D := ⟨tensorSize D, tensorRule D⟩

/-- The candidate `WitherdenVincent2015<D>`, src/quadrules/TabulatedRules.h lines 79-104. -/
def candWV {D : ℕ} (t : Tab D) : Candidate D := ⟨tabSize t, tabGet transformWV t⟩

/-- The candidate `JaskowiecSukumar2020`, src/quadrules/TabulatedRules.h lines 59-72. -/
def candJS (t : Tab 3) : Candidate 3 := ⟨tabSize t, tabGet transformJS t⟩

/-- `simplexQuadratureRule<D>`, src/quadrules/AutoRule.h lines 41-51; `wv2`, `wv3`, `js` are the
tables. -/
def simplexQuadratureRule (wv2 : Tab 2) (wv3 js : Tab 3) : (D : ℕ) → ℕ → SimplexRule D
  | 2, q => minSize q (candWV wv2) [candTensor 2]
  | 3, q => minSize q (candJS js) [candWV wv3, candTensor 3]
  | D, q => tensorRule D q

end
end Tandem.Quadrature
