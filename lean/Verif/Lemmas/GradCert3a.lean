import Verif.Lemmas.GradCert2c
/-! # Evaluation of the criterion for the gradient constants in three dimensions, degree 1 to 4 -/
namespace Tandem.GradIneq
set_option maxRecDepth 100000

theorem cert3_1 : gradCheck 3 1 (72 * 100000) 10000 = true := by decide +kernel

theorem cert3_2 : gradCheck 3 2 (72 * 315000) 10000 = true := by decide +kernel

theorem cert3_3 : gradCheck 3 3 (72 * 737490) 10000 = true := by decide +kernel

theorem cert3_4 : gradCheck 3 4 (72 * 1484089) 10000 = true := by decide +kernel

end Tandem.GradIneq
