import Verif.Lemmas.GradCert2a
/-! # Evaluation of the criterion for the gradient constants in two dimensions, degree 9 to 9 -/
namespace Tandem.GradIneq
set_option maxRecDepth 100000

theorem cert2_9 : gradCheck 2 9 (8 * 13990115) 10000 = true := by decide +kernel

end Tandem.GradIneq
