import Verif.Lemmas.GradCert3b
/-! # Evaluation of the criterion for the gradient constants in two dimensions, degree 10 to 10 -/
namespace Tandem.GradIneq
set_option maxRecDepth 100000

theorem cert2_10 : gradCheck 2 10 (8 * 19891818) 10000 = true := by decide +kernel

end Tandem.GradIneq
