import Verif.Lemmas.GradIneq
/-! # Evaluation of the criterion for the gradient constants in two dimensions, degree 1 to 8 -/
namespace Tandem.GradIneq
set_option maxRecDepth 100000

theorem cert2_1 : gradCheck 2 1 (8 * 60000) 10000 = true := by decide +kernel

theorem cert2_2 : gradCheck 2 2 (8 * 225000) 10000 = true := by decide +kernel

theorem cert2_3 : gradCheck 2 3 (8 * 568879) 10000 = true := by decide +kernel

theorem cert2_4 : gradCheck 2 4 (8 * 1198047) 10000 = true := by decide +kernel

theorem cert2_5 : gradCheck 2 5 (8 * 2241195) 10000 = true := by decide +kernel

theorem cert2_6 : gradCheck 2 6 (8 * 3852210) 10000 = true := by decide +kernel

theorem cert2_7 : gradCheck 2 7 (8 * 6208674) 10000 = true := by decide +kernel

theorem cert2_8 : gradCheck 2 8 (8 * 9512557) 10000 = true := by decide +kernel

end Tandem.GradIneq
