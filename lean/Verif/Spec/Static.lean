import Verif.Model.Static
import Verif.Spec.Options
/-!
# Vocabulary for property C93: the options and the run of the program `static`
-/
namespace Tandem.Spec
open Tandem.Schema Tandem.Main Tandem.Static

/-- Words for the discontinuous Galerkin method. -/
def methodWords : List (String × DG) := [("ip", .ip), ("br2", .br2)]

/-- The scalar options of `static`. -/
def staticOptions (e : Env α) : List (ScalarOption α) :=
  [realOption e "resolution" .optional,
   wordOption e "method" methodWords .dg (.otherwise .ip),
   wordOption e "type" opWords .op .required,
   fileOption e "lib" .required, textOption e "scenario" .required,
   boolOption e "matrix_free" (.otherwise false), boolOption e "test_matrix_free" (.otherwise false),
   intOption e "mg_coarse_level" (.otherwise 1),
   wordOption e "mg_strategy" mgWords .mg (.otherwise .twoLevel),
   intOption e "profile" (.otherwise 0), textOption e "output" .optional,
   fileOption e "mesh_file" .optional]

/-- The collective operations and the printed lines of a run. -/
def callsOf (l : List Ev) : List Call :=
  l.filterMap (fun e => match e with | .call c => some c | .print _ => none)
def linesOf (l : List Ev) : List Line :=
  l.filterMap (fun e => match e with | .call _ => none | .print p => some p)

end Tandem.Spec
