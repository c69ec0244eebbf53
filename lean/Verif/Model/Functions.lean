import Mathlib.Data.Real.Basic
import Mathlib.Data.Fin.VecNotation
import Verif.Model.Combinatorics
/-!
# Model of `src/basis/Functions.cpp`, `src/basis/Functions.h` and of `src/basis/Util.h`

Exact real arithmetic in place of `double`, natural numbers in place of `unsigned` (so `a * a` and
`2 * i[0] + 1` do not wrap around).
-/
namespace Tandem.Functions
noncomputable section

/-- Body of the loop of `JacobiP`, src/basis/Functions.cpp lines 15-21: the state is `(Pm_1, Pm)`. -/
def jacobiStep (a b : ℕ) (x : ℝ) (st : ℝ × ℝ) (m : ℕ) : ℝ × ℝ :=
  let Pm_2 := st.1
  let Pm_1 := st.2
  (Pm_1,
    ((2 * m + a + b - 1) * (((a * a : ℕ) : ℝ) - ((b * b : ℕ) : ℝ)
        + (2 * m + a + b) * (2 * m + a + b - 2) * x) * Pm_1
      - 2 * (m + a - 1) * (m + b - 1) * (2 * m + a + b) * Pm_2)
      / (2 * m * (m + a + b) * (2 * m + a + b - 2)))

/-- `JacobiP`, src/basis/Functions.cpp lines 6-23. -/
def jacobiP (n a b : ℕ) (x : ℝ) : ℝ :=
  if n = 0 then 1
  else ((List.range' 2 (n - 1)).foldl (jacobiStep a b x)
    (1, (1 / 2) * a - (1 / 2) * b + (1 + (1 / 2) * (a + b)) * x)).2

/-- `JacobiPDerivative`, src/basis/Functions.cpp lines 25-27. -/
def jacobiPDerivative (n a b : ℕ) (x : ℝ) : ℝ :=
  if n = 0 then 0 else (1 / 2) * (n + a + b + 1) * jacobiP (n - 1) (a + 1) (b + 1) x

/-- The five factors, src/basis/Functions.cpp lines 29-37 (`std::array<double, 5>`). -/
structure Factors where
  c0 : ℝ
  c1 : ℝ
  c2 : ℝ
  c3 : ℝ
  c4 : ℝ

/-- `SingularityFreeJacobiPFactors`, src/basis/Functions.cpp lines 29-37; the field `ci` is entry
`i` of the array (`c_{i+1}` in the text of the function). -/
def factors (m a b : ℕ) : Factors :=
  let c_0 : ℝ := 2 * m + a + b
  ⟨c_0 - 1, ((a * a : ℕ) : ℝ) - ((b * b : ℕ) : ℝ), c_0 * (c_0 - 2),
    2 * (m + a - 1) * (m + b - 1) * c_0, 2 * m * (m + a + b) * (c_0 - 2)⟩

/-- `SingularityFreeJacobiPRecursion`, src/basis/Functions.cpp lines 39-42. -/
def recursion (x y : ℝ) (cm : Factors) (Pm_1 Pm_2 : ℝ) : ℝ :=
  (cm.c0 * (cm.c1 * y + cm.c2 * x) * Pm_1 - cm.c3 * y * y * Pm_2) / cm.c4

/-- `SingularityFreeJacobiP`, src/basis/Functions.cpp lines 44-58: state `(Pm_1, Pm)`. -/
def sfJacobiP (n a b : ℕ) (x y : ℝ) : ℝ :=
  if n = 0 then 1
  else ((List.range' 2 (n - 1)).foldl
    (fun (st : ℝ × ℝ) m => (st.2, recursion x y (factors m a b) st.2 st.1))
    (1, ((1 / 2) * a - (1 / 2) * b) * y + (1 + (1 / 2) * (a + b)) * x)).2

/-- The variables carried by the loop of `SingularityFreeJacobiPAndDerivatives`,
src/basis/Functions.cpp lines 65-69. -/
structure DSt where
  Pm_1 : ℝ
  ddxPm_1 : ℝ
  ddyPm_1 : ℝ
  Pm : ℝ
  ddxPm : ℝ
  ddyPm : ℝ

/-- Body of the loop of `SingularityFreeJacobiPAndDerivatives`, src/basis/Functions.cpp
lines 70-84. -/
def dStep (a b : ℕ) (x y : ℝ) (st : DSt) (m : ℕ) : DSt :=
  let c := factors m a b
  ⟨st.Pm, st.ddxPm, st.ddyPm,
    recursion x y c st.Pm st.Pm_1,
    (c.c0 * (c.c2 * st.Pm + (c.c1 * y + c.c2 * x) * st.ddxPm) - c.c3 * y * y * st.ddxPm_1) / c.c4,
    (c.c0 * (c.c1 * st.Pm + (c.c1 * y + c.c2 * x) * st.ddyPm)
      - c.c3 * (2 * y * st.Pm_1 + y * y * st.ddyPm_1)) / c.c4⟩

/-- `SingularityFreeJacobiPAndDerivatives`, src/basis/Functions.cpp lines 60-86. -/
def sfJacobiPAndDerivatives (n a b : ℕ) (x y : ℝ) : ℝ × ℝ × ℝ :=
  if n = 0 then (1, 0, 0)
  else
    let st := (List.range' 2 (n - 1)).foldl (dStep a b x y)
      ⟨1, 0, 0, sfJacobiP 1 a b x y, 1 + (1 / 2) * (a + b), (1 / 2) * ((a : ℝ) - b)⟩
    (st.Pm, st.ddxPm, st.ddyPm)

/-- `TriDubinerP`, src/basis/Functions.cpp lines 88-97. -/
def triDubinerP (i : Fin 2 → ℕ) (xi : Fin 2 → ℝ) : ℝ :=
  let r_num := 2 * xi 0 - 1 + xi 1
  let s := 2 * xi 1 - 1
  let theta := 1 - xi 1
  sfJacobiP (i 0) 0 0 r_num theta * sfJacobiP (i 1) (2 * i 0 + 1) 0 s 1

/-- `gradTriDubinerP`, src/basis/Functions.cpp lines 99-113. -/
def gradTriDubinerP (i : Fin 2 → ℕ) (xi : Fin 2 → ℝ) : Fin 2 → ℝ :=
  let r_num := 2 * xi 0 - 1 + xi 1
  let s := 2 * xi 1 - 1
  let theta := 1 - xi 1
  let ti := sfJacobiPAndDerivatives (i 0) 0 0 r_num theta
  let tij := sfJacobiPAndDerivatives (i 1) (2 * i 0 + 1) 0 s 1
  let ddalpha := fun dr_num dtheta dt : ℝ =>
    (ti.2.1 * dr_num + ti.2.2 * dtheta) * tij.1 + ti.1 * tij.2.1 * dt
  ![ddalpha 2 0 0, ddalpha 1 (-1) 2]

/-- `TetraDubinerP`, src/basis/Functions.cpp lines 115-127. -/
def tetraDubinerP (i : Fin 3 → ℕ) (xi : Fin 3 → ℝ) : ℝ :=
  let r_num := 2 * xi 0 - 1 + xi 1 + xi 2
  let s_num := 2 * xi 1 - 1 + xi 2
  let t := 2 * xi 2 - 1
  let sigmatheta := 1 - xi 1 - xi 2
  let theta := 1 - xi 2
  sfJacobiP (i 0) 0 0 r_num sigmatheta * sfJacobiP (i 1) (2 * i 0 + 1) 0 s_num theta
    * sfJacobiP (i 2) (2 * i 0 + 2 * i 1 + 2) 0 t 1

/-- `gradTetraDubinerP`, src/basis/Functions.cpp lines 129-149. -/
def gradTetraDubinerP (i : Fin 3 → ℕ) (xi : Fin 3 → ℝ) : Fin 3 → ℝ :=
  let r_num := 2 * xi 0 - 1 + xi 1 + xi 2
  let s_num := 2 * xi 1 - 1 + xi 2
  let t := 2 * xi 2 - 1
  let sigmatheta := 1 - xi 1 - xi 2
  let theta := 1 - xi 2
  let ti := sfJacobiPAndDerivatives (i 0) 0 0 r_num sigmatheta
  let tij := sfJacobiPAndDerivatives (i 1) (2 * i 0 + 1) 0 s_num theta
  let tijk := sfJacobiPAndDerivatives (i 2) (2 * i 0 + 2 * i 1 + 2) 0 t 1
  let ddalpha := fun dr_num dsigmatheta ds_num dtheta dt : ℝ =>
    (ti.2.1 * dr_num + ti.2.2 * dsigmatheta) * tij.1 * tijk.1
      + ti.1 * (tij.2.1 * ds_num + tij.2.2 * dtheta) * tijk.1
      + ti.1 * tij.1 * (tijk.2.1 * dt)
  ![ddalpha 2 0 0 0 0, ddalpha 1 (-1) 2 0 0, ddalpha 1 (-1) 1 (-1) 2]

/-- `DubinerP<1>`, src/basis/Functions.h lines 142-143. -/
def lineDubinerP (i : Fin 1 → ℕ) (xi : Fin 1 → ℝ) : ℝ := jacobiP (i 0) 0 0 (2 * xi 0 - 1)

/-- `gradDubinerP<1>`, src/basis/Functions.h lines 159-160. -/
def gradLineDubinerP (i : Fin 1 → ℕ) (xi : Fin 1 → ℝ) : Fin 1 → ℝ :=
  ![jacobiPDerivative (i 0) 0 0 (2 * xi 0 - 1)]

/-- `DubinerP<D>`, src/basis/Functions.h lines 140-151, for `D = 1, 2, 3` (other dimensions are not
implemented: here 0). -/
def dubinerP : (D : ℕ) → (Fin D → ℕ) → (Fin D → ℝ) → ℝ
  | 1 => lineDubinerP
  | 2 => triDubinerP
  | 3 => tetraDubinerP
  | _ => fun _ _ => 0

/-- `gradDubinerP<D>`, src/basis/Functions.h lines 156-168, for `D = 1, 2, 3` (other dimensions are
not implemented: here 0). -/
def gradDubinerP : (D : ℕ) → (Fin D → ℕ) → (Fin D → ℝ) → Fin D → ℝ
  | 1 => gradLineDubinerP
  | 2 => gradTriDubinerP
  | 3 => gradTetraDubinerP
  | _ => fun _ _ _ => 0

end

/-- Loop of `num_nodes_to_degree`, src/basis/Util.h lines 89-92; `none`: `fuel` iterations did not
suffice (or `binom` does not end). -/
def degreeLoop (D numNodes : ℕ) : ℕ → ℕ → Option ℕ
  | 0, _ => none
  | fuel + 1, N =>
    match Combinatorics.binom (N + D) D with
    | none => none
    | some c => if c < numNodes then degreeLoop D numNodes fuel (N + 1) else some N

/-- `num_nodes_to_degree`, src/basis/Util.h lines 87-97: outer `none` as for `degreeLoop`, inner
`none` is `std::nullopt`. -/
def numNodesToDegree (D numNodes fuel : ℕ) : Option (Option ℕ) :=
  match degreeLoop D numNodes fuel 1 with
  | none => none
  | some N => some (if Combinatorics.binom (N + D) D = some numNodes then some N else none)

end Tandem.Functions
