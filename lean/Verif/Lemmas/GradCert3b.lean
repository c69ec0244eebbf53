import Verif.Lemmas.GradCert2b
/-! # Evaluation of the criterion for the gradient constants in three dimensions, degree 5 to 5 -/
namespace Tandem.GradIneq
set_option maxRecDepth 100000

theorem cert3_5 : gradCheck 3 5 (72 * 2695513) 10000 = true := by decide +kernel

end Tandem.GradIneq
