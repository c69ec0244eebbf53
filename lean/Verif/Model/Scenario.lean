import Verif.Model.Lua
/-!
# Model of the scenarios: `app/common/Scenario.h`, `app/common/ElasticityScenario.h`,
`app/common/PoissonScenario.h`, `app/tandem/SeasScenario.h`, `app/tandem/SeasSolution.h`,
`app/tandem/FrictionConfig.h`

A functional of the program is a function of the coordinates that runs in the state of the Lua
interpreter and may throw.  Loading the script (`loadFile`) is not modelled: the constructors start in
the state after loading.  `D` is `DomainDimension`, `Q` is `NumQuantities`, `T` is
`TangentialComponents`.  Arrays are lists.
-/
namespace Tandem.Scenario
open Lua

variable {N σ α β : Type}

/-- A computation that uses the Lua interpreter and may throw (as in src/script/LuaLib.h lines 32-181). -/
abbrev M (N σ α : Type) := State N σ → State N σ × Except (Error N) α

/-- Sequencing of the statements of the constructors, app/tandem/SeasScenario.h lines 40-79: an exception
ends them. -/
def M.bind (m : M N σ α) (f : α → M N σ β) : M N σ β := fun L =>
  match m L with
  | (L', .ok a) => f a L'
  | (L', .error e) => (L', .error e)

/-- The end of a constructor, app/tandem/SeasScenario.h line 79. -/
def M.pure (a : α) : M N σ α := fun L => (L, .ok a)

/-- `functional_t`, src/script/LuaLib.h lines 20-21. -/
abbrev Fn (N σ : Type) := List N → M N σ (List N)

/-- `functional_t_region`, src/script/LuaLib.h lines 22-24. -/
abbrev TagFn (N σ : Type) := List N → Int → M N σ (List N)

/-- `if (lib_.hasMember(scenario, name)) target = F;`, app/common/Scenario.h lines 42-44, 46-52, 56-57,
66-68, app/tandem/SeasScenario.h lines 43-78, app/tandem/FrictionConfig.h lines 52-80, 86-91. -/
def optMember (I : Interp N σ) (sc name : String) (F : α) : M N σ (Option α) :=
  M.bind (hasMember I sc name) fun b => M.pure (if b then some F else none)

/-- Initial value of `warp_`: app/common/Scenario.h line 113, app/tandem/SeasScenario.h line 99. -/
def idFn : Fn N σ := fun x L => (L, .ok x)

/-- Initial values of `sn_pre_`, `tau_pre_`, `Sinit_`: app/tandem/FrictionConfig.h lines 123-129. -/
def constFn (v : List N) : Fn N σ := fun _ L => (L, .ok v)

/-- Initial values of `mu_`, `lam_`, `coefficient_`: app/common/ElasticityScenario.h lines 46-49,
app/common/PoissonScenario.h lines 38-41, app/tandem/SeasScenario.h lines 100-103. -/
def constTagFn (v : List N) : TagFn N σ := fun _ _ L => (L, .ok v)

/-- Members of `Scenario`, app/common/Scenario.h lines 111-118 (without `lib_`). -/
structure Base (N σ : Type) where
  ref_normal : List N
  warp : Fn N σ
  force : Option (Fn N σ)
  boundary : Option (Fn N σ)
  slip : Option (Fn N σ)
  solution : Option (Fn N σ)
  solution_jacobian : Option (Fn N σ)

/-- Constructor of `Scenario`, app/common/Scenario.h lines 37-79.  Copying the coordinates `v(i)` to the
array `x` (lines 59-62, 71-74) is the identity on lists. -/
def Base.make (I : Interp N σ) (sc : String) (D Q : Nat) (ref_normal : List N) : M N σ (Base N σ) :=
  M.bind (optMember I sc "warp" (callMember I sc "warp" D D)) fun warp =>
  M.bind (optMember I sc "force" (callMember I sc "force" D Q)) fun force =>
  M.bind (optMember I sc "boundary" (callMember I sc "boundary" D Q)) fun boundary =>
  M.bind (optMember I sc "slip" (callMember I sc "slip" D Q)) fun slip =>
  M.bind (optMember I sc "solution" (callMember I sc "solution" D Q)) fun solution =>
  M.bind (optMember I sc "solution_jacobian" (callMember I sc "solution_jacobian" D (Q * D))) fun sj =>
  M.pure ⟨ref_normal, warp.getD idFn, force, boundary, slip, solution, sj⟩

/-- What the local operator is told, app/localoperator/Elasticity.h lines 105-124: the force, and the
boundary and slip functions with the reference normal. -/
structure Lop (N σ : Type) where
  force : Option (Fn N σ)
  dirichlet : Option (Fn N σ × List N)
  slip : Option (Fn N σ × List N)

/-- `Scenario::set`, app/common/Scenario.h lines 98-108. -/
def Base.set (S : Base N σ) (lop : Lop N σ) : Lop N σ :=
  let lop := match S.force with
    | some f => ⟨some f, lop.dirichlet, lop.slip⟩
    | none => lop
  let lop := match S.boundary with
    | some f => ⟨lop.force, some (f, S.ref_normal), lop.slip⟩
    | none => lop
  match S.slip with
    | some f => ⟨lop.force, lop.dirichlet, some (f, S.ref_normal)⟩
    | none => lop

/-- `ElasticityScenario`, app/common/ElasticityScenario.h lines 16-50. -/
structure ElasticitySc (N σ : Type) where
  base : Base N σ
  lam : TagFn N σ
  mu : TagFn N σ

/-- Constructor of `ElasticityScenario`, app/common/ElasticityScenario.h lines 21-32, initial values lines
46-49; `Q` is the dimension. -/
def ElasticitySc.make [One N] (I : Interp N σ) (sc : String) (D : Nat) (ref_normal : List N) :
    M N σ (ElasticitySc N σ) :=
  M.bind (Base.make I sc D D ref_normal) fun base =>
  M.bind (optMember I sc "mu" (callMemberTagged I sc "mu" D 1)) fun mu =>
  M.bind (optMember I sc "lam" (callMemberTagged I sc "lam" D 1)) fun lam =>
  M.pure ⟨base, lam.getD (constTagFn [1]), mu.getD (constTagFn [1])⟩

/-- `PoissonScenario`, app/common/PoissonScenario.h lines 15-42. -/
structure PoissonSc (N σ : Type) where
  base : Base N σ
  coefficient : TagFn N σ

/-- Constructor of `PoissonScenario`, app/common/PoissonScenario.h lines 19-26, initial value lines 38-41;
`Q` is one. -/
def PoissonSc.make [One N] (I : Interp N σ) (sc : String) (D : Nat) (ref_normal : List N) :
    M N σ (PoissonSc N σ) :=
  M.bind (Base.make I sc D 1 ref_normal) fun base =>
  M.bind (optMember I sc "mu" (callMemberTagged I sc "mu" D 1)) fun mu =>
  M.pure ⟨base, mu.getD (constTagFn [1])⟩

/-- Members of `SeasScenario`, app/tandem/SeasScenario.h lines 97-108 (without `lib_`). -/
structure Seas (N σ : Type) where
  warp : Fn N σ
  mu : TagFn N σ
  lam : TagFn N σ
  rho : Option (TagFn N σ)
  boundary : Option (Fn N σ)
  solution : Option (Fn N σ)
  u_ini : Option (Fn N σ)
  v_ini : Option (Fn N σ)

/-- Constructor of `SeasScenario`, app/tandem/SeasScenario.h lines 40-79, initial values lines 99-108. -/
def Seas.make [Zero N] [One N] (I : Interp N σ) (sc : String) (D Q : Nat) : M N σ (Seas N σ) :=
  M.bind (optMember I sc "warp" (callMember I sc "warp" D D)) fun warp =>
  M.bind (optMember I sc "mu" (callMemberTagged I sc "mu" D 1)) fun mu =>
  M.bind (optMember I sc "lam" (callMemberTagged I sc "lam" D 1)) fun lam =>
  M.bind (optMember I sc "rho" (callMemberTagged I sc "rho" D 1)) fun rho =>
  M.bind (optMember I sc "boundary" (callMember I sc "boundary" (D + 1) Q)) fun boundary =>
  M.bind (optMember I sc "solution" (callMember I sc "solution" (D + 1) Q)) fun solution =>
  M.bind (optMember I sc "initial_displacement" (callMember I sc "initial_displacement" D Q)) fun u =>
  M.bind (optMember I sc "initial_velocity" (callMember I sc "initial_velocity" D Q)) fun v =>
  M.pure ⟨warp.getD idFn, mu.getD (constTagFn [1]), lam.getD (constTagFn [0]), rho, boundary, solution, u, v⟩

/-- A function of space and time at a given time: `SeasSolution::operator()`, app/tandem/SeasSolution.h
lines 20-27; `FacetFunctionalFactory::operator()`, app/form/FacetFunctionalFactory.h lines 32-41;
`get_delta_tau`, `get_delta_sn` and the source, app/localoperator/RateAndState.h lines 88-101, 194-199. -/
def atTime (F : Fn N σ) (time : N) : Fn N σ := fun x => F (x ++ [time])

/-- `SeasScenario::solution(time)` and `DieterichRuinaScenario::solution(time)`,
app/tandem/SeasScenario.h lines 86-93, app/tandem/FrictionConfig.h lines 110-117. -/
def solutionAt (solution : Option (Fn N σ)) (time : N) : Option (Fn N σ) := solution.map fun F => atTime F time

/-- `DieterichRuinaBase::ConstantParams` as filled in app/tandem/FrictionConfig.h lines 82-84. -/
structure ConstantParams (N : Type) where
  V0 : N
  b : N
  f0 : N

/-- Members of `DieterichRuinaScenario`, app/tandem/FrictionConfig.h lines 120-133. -/
structure Friction (N σ : Type) where
  cp : ConstantParams N
  a : Fn N σ
  eta : Fn N σ
  L : Fn N σ
  sn_pre : Fn N σ
  tau_pre : Fn N σ
  Vinit : Fn N σ
  Sinit : Fn N σ
  source : Option (Fn N σ)
  delta_tau : Option (Fn N σ)
  delta_sn : Option (Fn N σ)
  solution : Option (Fn N σ)

/-- Constructor of `DieterichRuinaScenario`, app/tandem/FrictionConfig.h lines 46-91; the number of
quantities of the solution is `RateAndStateBase::NumQuantities = T + 1`
(app/localoperator/RateAndStateBase.h). -/
def Friction.make [Zero N] (I : Interp N σ) (sc : String) (D T : Nat) : M N σ (Friction N σ) :=
  M.bind (optMember I sc "sn_pre" (callMember I sc "sn_pre" D 1)) fun sn_pre =>
  M.bind (optMember I sc "tau_pre" (callMember I sc "tau_pre" D T)) fun tau_pre =>
  M.bind (optMember I sc "Sinit" (callMember I sc "Sinit" D T)) fun Sinit =>
  M.bind (optMember I sc "source" (callMember I sc "source" (D + 1) 1)) fun source =>
  M.bind (optMember I sc "delta_tau" (callMember I sc "delta_tau" (D + 1) T)) fun delta_tau =>
  M.bind (optMember I sc "delta_sn" (callMember I sc "delta_sn" (D + 1) 1)) fun delta_sn =>
  M.bind (memberConstant I sc "V0") fun V0 =>
  M.bind (memberConstant I sc "b") fun b =>
  M.bind (memberConstant I sc "f0") fun f0 =>
  M.bind (optMember I sc "fault_solution" (callMember I sc "fault_solution" (D + 1) (T + 1))) fun solution =>
  M.pure ⟨⟨V0, b, f0⟩, callMember I sc "a" D 1, callMember I sc "eta" D 1, callMember I sc "L" D 1,
    sn_pre.getD (constFn [0]), tau_pre.getD (constFn (List.replicate T 0)), callMember I sc "Vinit" D T,
    Sinit.getD (constFn (List.replicate T 0)), source, delta_tau, delta_sn, solution⟩

/-- `DieterichRuinaBase::Params`, app/localoperator/DieterichRuinaBase.h.
There: lines 29-37. -/
structure Params (N : Type) where
  a : N
  eta : N
  L : N
  sn_pre : N
  tau_pre : List N
  Vinit : List N
  Sinit : List N

/-- The entry `[0]` of an array of length one; app/tandem/FrictionConfig.h lines 97-100. -/
def first [Zero N] (v : List N) : N := v.getD 0 0

/-- `param_fun`, app/tandem/FrictionConfig.h lines 94-106. -/
def Friction.params [Zero N] (S : Friction N σ) (x : List N) : M N σ (Params N) :=
  M.bind (S.a x) fun a =>
  M.bind (S.eta x) fun eta =>
  M.bind (S.L x) fun L =>
  M.bind (S.sn_pre x) fun sn =>
  M.bind (S.tau_pre x) fun tau =>
  M.bind (S.Vinit x) fun V =>
  M.bind (S.Sinit x) fun S0 =>
  M.pure ⟨first a, first eta, first L, first sn, tau, V, S0⟩

end Tandem.Scenario
