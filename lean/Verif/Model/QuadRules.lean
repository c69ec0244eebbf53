import Verif.Model.Quadrature
import Verif.Model.Tables.Tri
import Verif.Model.Tables.Tet
import Verif.Model.Tables.JSA
import Verif.Model.Tables.JSB
import Verif.Model.Tables.JSC
import Verif.Model.Tables.JSD
import Verif.Model.Tables.JSE
/-!
# The tabulated rules with the tables of the source

Decimal numbers stand for themselves (the compiler rounds them to `double`; the effect of rounding is
in `C84_rounded`).
-/
namespace Tandem.QuadTable
open Quadrature RefElement
noncomputable section

/-- The points and weights of a table entry as the code sees them (`rule->second`),
src/quadrules/TabulatedRules.h lines 41-42. -/
def Raw.toRule (D : ℕ) (r : Raw) : Rule D :=
  ⟨r.points.map fun p d => ((p.getD d 0 : ℤ) : ℝ) / 10 ^ r.digits,
    r.weights.map fun w => ((w : ℤ) : ℝ) / 10 ^ r.digits⟩

/-- The keys and entries of a table, in increasing order of the keys as in `std::map`,
src/quadrules/TabulatedRules.h lines 17-18. -/
def toTab (D : ℕ) (l : List Raw) : Tab D := l.map fun r => (r.order, r.toRule D)

/-- `detail::WitherdenVincent2015_Tri`, src/quadrules/WitherdenVincent2015_Tri.cpp lines 8-977. -/
def triRaw : List Raw := [tri1, tri2, tri4, tri5, tri6, tri7, tri8, tri9, tri10, tri11, tri12, tri13, tri14, tri15, tri16, tri17, tri18, tri19, tri20]

/-- `detail::WitherdenVincent2015_Tet`, src/quadrules/WitherdenVincent2015_Tet.cpp lines 8-694. -/
def tetRaw : List Raw := [tet1, tet2, tet3, tet5, tet6, tet7, tet8, tet9, tet10]

/-- `detail::JaskowiecSukumar2020`, src/quadrules/JaskowiecSukumar2020.cpp, all entries;
src/quadrules/JaskowiecSukumar2020.cpp lines 1-10885. -/
def jsRaw : List Raw := [jS2, jS3, jS4, jS5, jS6, jS7, jS8, jS9, jS10, jS11, jS12, jS13, jS14, jS15, jS16, jS17, jS18, jS19, jS20]

/-- `simplexQuadratureRule<D>(minQuadOrder)` of the program, src/quadrules/AutoRule.h lines 41-51 with the
tables of src/quadrules/TabulatedRules.h lines 20-22. -/
def programRule (D q : ℕ) : SimplexRule D :=
  simplexQuadratureRule (toTab 2 triRaw) (toTab 3 tetRaw) (toTab 3 jsRaw) D q

end
end Tandem.QuadTable
