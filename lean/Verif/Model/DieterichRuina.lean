import Verif.Model.Zero
import Mathlib.Analysis.SpecialFunctions.Arsinh
import Mathlib.Analysis.SpecialFunctions.Log.Base
import Mathlib.Analysis.SpecialFunctions.Pow.Real
import Mathlib.Data.Real.Sqrt
/-!
# Model of `app/localoperator/DieterichRuinaBase.h` and the two friction laws

Exact real arithmetic in place of `double`; `none` stands for NaN.  Overflow is not modelled.  `T` is
`TangentialComponents`.
-/
namespace Tandem.DieterichRuina
noncomputable section

variable {T : Nat}

/-- `norm`, src/geometry/Vector.h lines 56-62. -/
def norm (x : Fin T → ℝ) : ℝ := if h : T = 1 then |x ⟨0, by omega⟩| else Real.sqrt (∑ i, x i * x i)

/-- `ConstantParams`, app/localoperator/DieterichRuinaBase.h lines 24-28. -/
structure ConstantParams where
  V0 : ℝ
  b : ℝ
  f0 : ℝ

/-- `Params` of one node, app/localoperator/DieterichRuinaBase.h lines 29-37. -/
structure Params (T : Nat) where
  a : ℝ
  eta : ℝ
  L : ℝ
  sn_pre : ℝ
  tau_pre : Fin T → ℝ
  Vinit : Fin T → ℝ
  Sinit : Fin T → ℝ

/-- `F`, app/localoperator/DieterichRuinaBase.h lines 209-214. -/
def F (cp : ConstantParams) (a snAbs V psi : ℝ) : ℝ :=
  snAbs * (a * Real.arsinh (V / (2 * cp.V0) * Real.exp (psi / a)))

/-- `Finv`, app/localoperator/DieterichRuinaBase.h lines 216-225. -/
def Finv (cp : ConstantParams) (a snAbs tauAbs psi : ℝ) : ℝ :=
  let r := tauAbs / snAbs
  cp.V0 * (Real.exp ((r - psi) / a) - Real.exp (-(r + psi) / a))

/-- `psi_init`, app/localoperator/DieterichRuinaBase.h lines 51-64; `none` where the argument of `log` is not positive. -/
def psiInit (cp : ConstantParams) (p : Params T) (sn : ℝ) (tau : Fin T → ℝ) : Option ℝ :=
  let snAbs := -sn + p.sn_pre
  let tauAbs := norm (tau + p.tau_pre)
  let Vi := norm p.Vinit
  if Vi = 0 then some cp.f0
  else
    let s := Real.sinh ((tauAbs - p.eta * Vi) / (p.a * snAbs))
    let arg := 2 * cp.V0 / Vi * s
    if 0 < arg then some (p.a * Real.log arg) else none

/-- `sn_hat`, app/localoperator/DieterichRuinaBase.h line 69. -/
def snHat (p : Params T) (sn : ℝ) : ℝ := -sn + p.sn_pre

/-- `tau_hat`, app/localoperator/DieterichRuinaBase.h lines 75-78. -/
def tauHat (p : Params T) (tau V : Fin T → ℝ) : Fin T → ℝ := fun t => tau t + p.tau_pre t + p.eta * V t

/-- The residual handed to `zeroIn`, app/localoperator/DieterichRuinaBase.h lines 105-108. -/
def fF (cp : ConstantParams) (p : Params T) (snAbs tauAbs psi Ve : ℝ) : ℝ :=
  tauAbs - F cp p.a snAbs ((10 : ℝ) ^ Ve) psi - p.eta * (10 : ℝ) ^ Ve

/-- One attempt to bracket and solve, app/localoperator/DieterichRuinaBase.h lines 110-119 and 121-128. -/
def attempt (cp : ConstantParams) (p : Params T) (eps : ℝ) (fuel : Nat) (snAbs tauAbs psi Va : ℝ) : Zero.Outcome ℝ :=
  let Vb := Real.logb 10 (tauAbs / p.eta)
  let f := fun Ve => some (fF cp p snAbs tauAbs psi Ve)
  if Vb < Va then Zero.zeroIn f eps 0 fuel Vb Va else Zero.zeroIn f eps 0 fuel Va Vb

/-- What `slip_rate` computes before the direction is applied: slip rate (`none`: NaN) and error number, or nothing while `zeroIn`
loops, app/localoperator/DieterichRuinaBase.h lines 89-133; the output of lines 134-170 changes no value.  `vaMin` is the
decimal logarithm of the smallest positive `double`.  A negative `eta`, and `eta = 0` together with `snAbs = 0`, are not modelled. -/
def solve (cp : ConstantParams) (p : Params T) (eps vaMin : ℝ) (fuel : Nat) (snAbs tauAbs psi : ℝ) : Option (Option ℝ × Nat) :=
  if p.eta = 0 then some (some (Finv cp p.a snAbs tauAbs psi), 0)
  else if snAbs ≤ 0 then some (some (tauAbs / p.eta), 1)
  else if tauAbs = 0 then some (some 0, 0) -- log10(0) is minus infinity: `zeroIn` returns it at once, and 10^(-inf) is 0
  else match attempt cp p eps fuel snAbs tauAbs psi (-32) with
    | .root Ve => some (some ((10 : ℝ) ^ Ve), 0)
    | .outOfFuel => none
    | .nanInf => retry
    | .sameSign => retry
where
  /-- The second attempt, app/localoperator/DieterichRuinaBase.h lines 120-133. -/
  retry : Option (Option ℝ × Nat) :=
    match attempt cp p eps fuel snAbs tauAbs psi vaMin with
    | .root Ve => some (some ((10 : ℝ) ^ Ve), 0)
    | .outOfFuel => none
    | .nanInf => some (none, 2)
    | .sameSign => some (none, 2)

/-- `slip_rate`, app/localoperator/DieterichRuinaBase.h lines 81-175: line 174 divides by `tauAbs`, which gives NaN when it is zero
(there `V` is zero too). -/
def slipRate (cp : ConstantParams) (p : Params T) (eps vaMin : ℝ) (fuel : Nat) (sn : ℝ) (tau : Fin T → ℝ) (psi : ℝ) :
    Option (Option (Fin T → ℝ) × Nat) :=
  let tauAbsVec := tau + p.tau_pre
  let snAbs := -sn + p.sn_pre
  let tauAbs := norm tauAbsVec
  match solve cp p eps vaMin fuel snAbs tauAbs psi with
  | none => none
  | some (V, ierr) => some (match V with
    | none => none
    | some V => if tauAbs = 0 then none else some (fun t => -(V / tauAbs) * tauAbsVec t), ierr)

/-- `DieterichRuinaAgeing::state_rhs`, app/localoperator/DieterichRuinaAgeing.h lines 23-26. -/
def stateRhsAgeing (cp : ConstantParams) (L V psi : ℝ) : ℝ :=
  cp.b * cp.V0 / L * (Real.exp ((cp.f0 - psi) / cp.b) - V / cp.V0)

/-- `DieterichRuinaSlip::state_rhs`, app/localoperator/DieterichRuinaSlip.h lines 23-26; `none` (NaN) for a slip rate that is not
positive: at zero the product of zero and the infinite logarithm is NaN. -/
def stateRhsSlip (cp : ConstantParams) (L V psi : ℝ) : Option ℝ :=
  if 0 < V / cp.V0 then some (-cp.b * V / L * (Real.log (V / cp.V0) + (psi - cp.f0) / cp.b)) else none

end
end Tandem.DieterichRuina
