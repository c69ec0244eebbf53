/-!
# Format of the tabulated quadrature rules of `src/quadrules`
-/
namespace Tandem.QuadTable

/-- One entry of a table `std::map<unsigned, std::pair<points, weights>>`,
src/quadrules/TabulatedRules.h lines 17-19.  The decimal numbers of the source are written as integers:
each is multiplied by `10^digits`. -/
structure Raw where
  order : Nat
  digits : Nat
  points : List (List Int)
  weights : List Int

end Tandem.QuadTable
