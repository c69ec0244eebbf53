import Mathlib.Data.Real.Basic
import Mathlib.Algebra.Module.LinearMap.Basic
/-! # Least-squares polynomial Krylov method (`app/pc/lspoly.c`)

`PetscReal` is modelled by the real numbers and vectors by a real vector space; the operator and the
preconditioner are arbitrary linear maps, the convergence test an arbitrary function.  Logging,
monitoring, the check of the norm for NaN (lines 243, 279) and the estimation of the largest
eigenvalue (lines 108-164, an arbitrary number here) are not modelled. -/
namespace Tandem.LSPoly

/-- `ResidualP`, app/pc/lspoly.c lines 15-20. -/
structure ResidualP where
  alpha : ℝ
  beta : ℝ
  emax : ℝ
  P0n_1 : ℝ
  P0n : ℝ
  n : ℤ

/-- `ResidualP_Init`, app/pc/lspoly.c lines 22-29. -/
noncomputable def init (alpha beta emax : ℝ) : ResidualP :=
  ⟨alpha, beta + 1, emax, 1, 1, -1⟩

/-- The coefficients `psi`, `phi`, `xi` that `ResidualP_Next` stores, app/pc/lspoly.c line 36. -/
structure Coeffs where
  psi : ℝ
  phi : ℝ
  xi : ℝ

/-- `psi0` of lines 48-51 of app/pc/lspoly.c (before the shift of line 59). -/
noncomputable def psiJ (a b : ℝ) (n : ℤ) : ℝ :=
  let n2ab := 2 * (n : ℝ) + a + b
  let tmp := 2 * ((n : ℝ) + 1) * (n + a + b + 1)
  if |a| ≠ |b| then (n2ab + 1) * (a * a - b * b) / (tmp * n2ab) else 0

/-- `phi0` of line 52 of app/pc/lspoly.c (before the scaling of line 60). -/
noncomputable def phiJ (a b : ℝ) (n : ℤ) : ℝ :=
  let n2ab := 2 * (n : ℝ) + a + b
  let tmp := 2 * ((n : ℝ) + 1) * (n + a + b + 1)
  (n2ab + 1) * (n2ab + 2) / tmp

/-- `xi0` of lines 53-56 of app/pc/lspoly.c. -/
noncomputable def xiJ (a b : ℝ) (n : ℤ) : ℝ :=
  let n2ab := 2 * (n : ℝ) + a + b
  let tmp := 2 * ((n : ℝ) + 1) * (n + a + b + 1)
  if 0 < n then 2 * (n + a) * (n + b) * (n2ab + 2) / (tmp * n2ab) else 0

/-- `ResidualP_Next`, app/pc/lspoly.c lines 36-73: the new state and the three coefficients. -/
noncomputable def next (rp : ResidualP) : ResidualP × Coeffs :=
  let n := rp.n + 1
  let phi00 := phiJ rp.alpha rp.beta n
  let psi0 := psiJ rp.alpha rp.beta n - phi00
  let phi0 := 2 * phi00 / rp.emax
  let xi0 := xiJ rp.alpha rp.beta n
  let tmp := psi0 - xi0 * rp.P0n_1 / rp.P0n
  let tmp' := psi0 * rp.P0n / rp.P0n_1 - xi0
  let P0n1 := psi0 * rp.P0n - xi0 * rp.P0n_1
  (⟨rp.alpha, rp.beta, rp.emax, rp.P0n, P0n1, n⟩, ⟨psi0 / tmp, phi0 / tmp, xi0 / tmp'⟩)

/-- `ksp->normtype`: the cases distinguished in lines 230-242 of app/pc/lspoly.c. -/
inductive NormType
  | none
  | preconditioned
  | unpreconditioned

/-- The data `KSPSolve_LSPoly` reads: app/pc/lspoly.c lines 7-13 (`KSP_LSPoly`) and the fields of
`ksp` used in lines 184-302.  `converged i rnorm` is the answer of the convergence test, `0` for
"go on". -/
structure Ksp (V : Type*) [AddCommGroup V] [Module ℝ V] where
  alpha : ℝ
  beta : ℝ
  emax : ℝ
  estbias : ℝ
  A : V →ₗ[ℝ] V
  pc : V →ₗ[ℝ] V
  b : V
  maxIt : ℕ
  normtype : NormType
  norm : V → ℝ
  converged : ℕ → ℝ → ℤ

/-- `KSP_CONVERGED_ITS` of PETSc, used at app/pc/lspoly.c line 293. -/
def convergedIts : ℤ := 4
/-- `KSP_DIVERGED_ITS` of PETSc, used at app/pc/lspoly.c line 290. -/
def divergedIts : ℤ := -3

/-- The variables of `KSPSolve_LSPoly`, app/pc/lspoly.c lines 184-211. -/
structure St (V : Type*) where
  x : V
  delta : V
  rp : ResidualP
  its : ℕ
  rnorm : ℝ
  reason : ℤ

variable {V : Type*} [AddCommGroup V] [Module ℝ V]

/-- The residual norm of lines 231-242 and 265-278 of app/pc/lspoly.c for the residual `r`. -/
def resNorm (k : Ksp V) (r : V) : ℝ :=
  match k.normtype with
  | .none => 0
  | .preconditioned => k.norm (k.pc r)
  | .unpreconditioned => k.norm r

/-- Lines 255-258 of app/pc/lspoly.c: the update of `delta` and `x`.
File app/pc/lspoly.c, lines 255-258. -/
noncomputable def update (k : Ksp V) (s : St V) (r_pre : V) : St V :=
  let nc := next s.rp
  let delta := (-nc.2.phi) • r_pre + nc.2.xi • s.delta
  ⟨s.x + delta, delta, nc.1, s.its, s.rnorm, s.reason⟩

/-- The loop of lines 213-259 of app/pc/lspoly.c with `fuel` iterations left, `i` being the loop
counter. -/
noncomputable def loop (k : Ksp V) : ℕ → ℕ → St V → St V
  | 0, _, s => s
  | fuel + 1, i, s =>
    let r := k.b - k.A s.x
    let r_pre := k.pc r
    match k.normtype with
    | .none => loop k fuel (i + 1) (update k { s with its := s.its + 1 } r_pre)
    | _ =>
      let rnorm := resNorm k r
      let reason := k.converged i rnorm
      let s' : St V := { s with its := s.its + 1, rnorm := rnorm, reason := reason }
      if reason ≠ 0 then s' else loop k fuel (i + 1) (update k s' r_pre)

/-- Lines 261-296 of app/pc/lspoly.c: final residual norm and the reason for stopping.
File app/pc/lspoly.c, lines 261-296. -/
noncomputable def finish (k : Ksp V) (s : St V) : St V :=
  if s.reason = 0 then
    match k.normtype with
    | .none => if s.its ≥ k.maxIt then { s with reason := convergedIts } else s
    | _ =>
      let rnorm := resNorm k (k.b - k.A s.x)
      let s' : St V := { s with rnorm := rnorm }
      if s'.its ≥ k.maxIt then
        let reason := k.converged k.maxIt rnorm
        { s' with reason := if reason = 0 then divergedIts else reason }
      else s'
  else s

/-- `KSPSolve_LSPoly`, app/pc/lspoly.c lines 184-302, from the initial guess `x0`.  (The test
`x == 0` of line 219 compares the vector handle with the null pointer and is always false.) -/
noncomputable def solve (k : Ksp V) (x0 : V) : St V :=
  finish k (loop k k.maxIt 0 ⟨x0, 0, init k.alpha k.beta (k.estbias * k.emax), 0, 0, 0⟩)

end Tandem.LSPoly
