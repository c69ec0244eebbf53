import Verif.Spec.Scenario
import Verif.Props.Lua
/-! # C88: scenarios -/
namespace Tandem.Scenario
open Lua
variable {N σ α β : Type}

theorem bind_ok {m : M N σ α} {f : α → M N σ β} {L L' : State N σ} {a : α} (h : m L = (L', .ok a)) :
    M.bind m f L = f a L' := by unfold M.bind; rw [h]

theorem bind_error {m : M N σ α} {f : α → M N σ β} {L L' : State N σ} {e : Error N} (h : m L = (L', .error e)) :
    M.bind m f L = (L', .error e) := by unfold M.bind; rw [h]

open Classical in
/-- Looking for a member changes nothing. -/
theorem optMember_eq (I : Interp N σ) (sc name : String) (F : α) (L : State N σ)
    (ht : Spec.IsTable (I.global L.script sc)) :
    optMember I sc name F L = (L, .ok (if Spec.Has I L.script sc name then some F else none)) := by
  have hb : hasMember I sc name L = (L, .ok (!isNil (I.field L.script (I.global L.script sc) name))) := by
    unfold hasMember
    have : isTable (at_ (getGlobal I L sc) 0) = true := (isTable_iff _).1 ht
    rw [if_pos this]
    rfl
  unfold optMember
  rw [bind_ok hb]
  unfold M.pure Spec.Has
  congr 3
  cases I.field L.script (I.global L.script sc) name <;> simp [isNil]

theorem optMember_error (I : Interp N σ) (sc name : String) (F : α) (L : State N σ)
    (ht : ¬Spec.IsTable (I.global L.script sc)) : ∃ L', optMember I sc name F L = (L', .error .notATable) := by
  have h := (C52_hasMember I sc name L).2.2 ht
  unfold optMember
  rcases hh : hasMember I sc name L with ⟨L', r⟩
  rw [hh] at h
  simp only at h
  subst h
  exact ⟨L', bind_error hh⟩

/-- A method of the script called through the interface. -/
theorem callsMethod (I : Interp N σ) (sc name : String) (Din n : ℕ) :
    Spec.CallsMethod I sc name Din n (callMember I sc name Din n) := by
  intro x L hx ht
  have := C52_method I sc name Din n x hx L
  exact ⟨this.1 ht, this.2.2⟩

theorem callsTagged (I : Interp N σ) (sc name : String) (Din n : ℕ) :
    Spec.CallsTagged I sc name Din n (callMemberTagged I sc name Din n) := by
  intro x tag L hx ht
  have := C52_method_tagged I sc name Din n x hx tag L
  exact ⟨this.1 ht, this.2.2⟩

theorem callsAtTime {I : Interp N σ} {sc name : String} {D n : ℕ} {F : Fn N σ}
    (h : Spec.CallsMethod I sc name (D + 1) n F) (time : N) : Spec.CallsAtTime I sc name D n time (atTime F time) := by
  intro x L hx ht
  have := h (x ++ [time]) L (by simp [hx]) ht
  simpa [atTime] using this

open Classical in
theorem maybe (I : Interp N σ) (s : σ) (sc name : String) (F : α) (P : α → Prop) (h : P F) :
    Spec.MaybeMethod I s sc name P (if Spec.Has I s sc name then some F else none) :=
  ⟨fun hh => ⟨F, by rw [if_pos hh], h⟩, fun hh => by rw [if_neg hh]⟩

open Classical in
theorem optional (I : Interp N σ) (s : σ) (sc name : String) (Din n : ℕ) (dflt : List N → List N) (F d : Fn N σ)
    (h : Spec.CallsMethod I sc name Din n F) (hd : ∀ x L, d x L = (L, .ok (dflt x))) :
    Spec.OptionalMethod I s sc name Din n dflt ((if Spec.Has I s sc name then some F else none).getD d) :=
  ⟨fun hh => by rw [if_pos hh]; exact h, fun hh => by rw [if_neg hh]; exact hd⟩

open Classical in
theorem optionalTag (I : Interp N σ) (s : σ) (sc name : String) (Din : ℕ) (v : N) (F : TagFn N σ)
    (h : Spec.CallsTagged I sc name Din 1 F) :
    Spec.OptionalTagged I s sc name Din v ((if Spec.Has I s sc name then some F else none).getD (constTagFn [v])) :=
  ⟨fun hh => by rw [if_pos hh]; exact h, fun hh => by rw [if_neg hh]; intro x tag L; rfl⟩

/-- C88 (earthquake scenario): if the script defines the scenario as a table, the scenario is created
without changing the script or the stack, and each of its functions is the script's method, called with
the right arguments, or the documented default: no deformation of the mesh, `mu = 1`, `lam = 0`, and no
density, boundary function, solution or initial values. -/
theorem C88_seas [Zero N] [One N] (I : Interp N σ) (sc : String) (D Q : ℕ) (L : State N σ)
    (ht : Spec.IsTable (I.global L.script sc)) :
    ∃ S, Seas.make I sc D Q L = (L, .ok S) ∧
      Spec.OptionalMethod I L.script sc "warp" D D id S.warp ∧
      Spec.OptionalTagged I L.script sc "mu" D 1 S.mu ∧
      Spec.OptionalTagged I L.script sc "lam" D 0 S.lam ∧
      Spec.MaybeMethod I L.script sc "rho" (Spec.CallsTagged I sc "rho" D 1) S.rho ∧
      Spec.MaybeMethod I L.script sc "boundary"
        (fun F => ∀ time, Spec.CallsAtTime I sc "boundary" D Q time (atTime F time)) S.boundary ∧
      (∀ time, Spec.MaybeMethod I L.script sc "solution" (Spec.CallsAtTime I sc "solution" D Q time)
        (solutionAt S.solution time)) ∧
      Spec.MaybeMethod I L.script sc "initial_displacement" (Spec.CallsMethod I sc "initial_displacement" D Q) S.u_ini ∧
      Spec.MaybeMethod I L.script sc "initial_velocity" (Spec.CallsMethod I sc "initial_velocity" D Q) S.v_ini := by
  classical
  unfold Seas.make
  iterate 8 rw [bind_ok (optMember_eq I sc _ _ L ht)]
  refine ⟨_, rfl, ?_, ?_, ?_, ?_, ?_, ?_, ?_, ?_⟩
  · exact optional I L.script sc "warp" D D id _ _ (callsMethod I sc "warp" D D) fun _ _ => rfl
  · exact optionalTag I L.script sc "mu" D 1 _ (callsTagged I sc "mu" D 1)
  · exact optionalTag I L.script sc "lam" D 0 _ (callsTagged I sc "lam" D 1)
  · exact maybe I L.script sc "rho" _ _ (callsTagged I sc "rho" D 1)
  · exact maybe I L.script sc "boundary" _ _ fun time => callsAtTime (callsMethod I sc "boundary" (D + 1) Q) time
  · intro time
    have := maybe I L.script sc "solution" (atTime (callMember I sc "solution" (D + 1) Q) time) _
      (callsAtTime (callsMethod I sc "solution" (D + 1) Q) time)
    unfold solutionAt
    convert this using 1
    split_ifs <;> rfl
  · exact maybe I L.script sc "initial_displacement" _ _ (callsMethod I sc "initial_displacement" D Q)
  · exact maybe I L.script sc "initial_velocity" _ _ (callsMethod I sc "initial_velocity" D Q)

theorem base_make (I : Interp N σ) (sc : String) (D Q : ℕ) (n : List N) (L : State N σ)
    (ht : Spec.IsTable (I.global L.script sc)) :
    ∃ S, Base.make I sc D Q n L = (L, .ok S) ∧ Spec.BaseOk I L.script sc D Q n S := by
  classical
  unfold Base.make
  iterate 6 rw [bind_ok (optMember_eq I sc _ _ L ht)]
  refine ⟨_, rfl, rfl, ?_, ?_, ?_, ?_, ?_, ?_⟩
  · exact optional I L.script sc "warp" D D id _ _ (callsMethod I sc "warp" D D) fun _ _ => rfl
  all_goals exact maybe I L.script sc _ _ _ (callsMethod I sc _ _ _)

/-- C88 (static elasticity): as `C88_seas`; here the default of both Lamé parameters is one. -/
theorem C88_elasticity [One N] (I : Interp N σ) (sc : String) (D : ℕ) (n : List N) (L : State N σ)
    (ht : Spec.IsTable (I.global L.script sc)) :
    ∃ S, ElasticitySc.make I sc D n L = (L, .ok S) ∧ Spec.BaseOk I L.script sc D D n S.base ∧
      Spec.OptionalTagged I L.script sc "mu" D 1 S.mu ∧ Spec.OptionalTagged I L.script sc "lam" D 1 S.lam := by
  classical
  obtain ⟨B, hB, hok⟩ := base_make I sc D D n L ht
  unfold ElasticitySc.make
  rw [bind_ok hB]
  iterate 2 rw [bind_ok (optMember_eq I sc _ _ L ht)]
  exact ⟨_, rfl, hok, optionalTag I L.script sc "mu" D 1 _ (callsTagged I sc "mu" D 1),
    optionalTag I L.script sc "lam" D 1 _ (callsTagged I sc "lam" D 1)⟩

/-- C88 (static Poisson problem): as `C88_seas`. -/
theorem C88_poisson [One N] (I : Interp N σ) (sc : String) (D : ℕ) (n : List N) (L : State N σ)
    (ht : Spec.IsTable (I.global L.script sc)) :
    ∃ S, PoissonSc.make I sc D n L = (L, .ok S) ∧ Spec.BaseOk I L.script sc D 1 n S.base ∧
      Spec.OptionalTagged I L.script sc "mu" D 1 S.coefficient := by
  classical
  obtain ⟨B, hB, hok⟩ := base_make I sc D 1 n L ht
  unfold PoissonSc.make
  rw [bind_ok hB, bind_ok (optMember_eq I sc _ _ L ht)]
  exact ⟨_, rfl, hok, optionalTag I L.script sc "mu" D 1 _ (callsTagged I sc "mu" D 1)⟩

/-- C88 (what the operator is told): exactly the functions the scenario has are set, boundary and slip
functions with the scenario's reference normal; the others keep their value. -/
theorem C88_set (S : Base N σ) (lop : Lop N σ) :
    ((S.set lop).force = if S.force.isSome then S.force else lop.force) ∧
    ((S.set lop).dirichlet = if S.boundary.isSome then S.boundary.map (·, S.ref_normal) else lop.dirichlet) ∧
    ((S.set lop).slip = if S.slip.isSome then S.slip.map (·, S.ref_normal) else lop.slip) := by
  unfold Base.set
  rcases S with ⟨n, w, f, b, s, so, sj⟩
  cases f <;> cases b <;> cases s <;> simp

/-- C88 (missing scenario): if the script does not define the scenario as a table, creating it fails. -/
theorem C88_no_table [Zero N] [One N] (I : Interp N σ) (sc : String) (D Q T : ℕ) (n : List N) (L : State N σ)
    (ht : ¬Spec.IsTable (I.global L.script sc)) :
    (Seas.make I sc D Q L).2 = .error .notATable ∧ (Base.make I sc D Q n L).2 = .error .notATable ∧
    (Friction.make I sc D T L).2 = .error .notATable := by
  have hm : ∀ (α : Type) (name : String) (F : α), ∃ L', optMember I sc name F L = (L', .error .notATable) :=
    fun α name F => optMember_error I sc name F L ht
  refine ⟨?_, ?_, ?_⟩
  · unfold Seas.make
    obtain ⟨L', h⟩ := hm _ "warp" (callMember I sc "warp" D D)
    rw [bind_error h]
  · unfold Base.make
    obtain ⟨L', h⟩ := hm _ "warp" (callMember I sc "warp" D D)
    rw [bind_error h]
  · unfold Friction.make
    obtain ⟨L', h⟩ := hm _ "sn_pre" (callMember I sc "sn_pre" D 1)
    rw [bind_error h]

/-- Reading a constant. -/
theorem constant_ok (I : Interp N σ) (sc name : String) (L : State N σ) (v : N)
    (ht : Spec.IsTable (I.global L.script sc))
    (hv : Spec.CountsAs I (I.field L.script (I.global L.script sc) name) v) :
    memberConstant I sc name L = (L, .ok v) := by
  have h := C52_constant I sc name L
  have h1 := (h.2.1 v).2 ⟨ht, hv⟩
  have h2 := h.2.2 (by rw [h1]; rfl)
  rcases hr : memberConstant I sc name L with ⟨⟨s, st⟩, r⟩
  rw [hr] at h h1 h2
  simp only at h h1 h2
  rw [h1, h2, h.1]

theorem constant_error (I : Interp N σ) (sc name : String) (L : State N σ)
    (hv : ¬∃ v, Spec.CountsAs I (I.field L.script (I.global L.script sc) name) v) :
    ∃ L' e, memberConstant I sc name L = (L', .error e) := by
  rcases hr : memberConstant I sc name L with ⟨L', r⟩
  cases r with
  | error e => exact ⟨L', e, rfl⟩
  | ok v =>
    have h := (C52_constant I sc name L).2.1 v
    rw [hr] at h
    exact absurd ⟨v, (h.1 rfl).2⟩ hv

/-- C88 (friction): if the scenario is a table and has numbers `V0`, `b` and `f0`, the friction scenario
is created without changing the script or the stack, with these constants; `a`, `eta`, `L` and `Vinit`
are always the script's methods (calling a missing one is an error of the script), the prestress and the
initial slip default to zero, and source, stress perturbations and solution are functions of space and
time that are there exactly if the script has them. -/
theorem C88_friction [Zero N] (I : Interp N σ) (sc : String) (D T : ℕ) (L : State N σ) (V0 b f0 : N)
    (ht : Spec.IsTable (I.global L.script sc))
    (h1 : Spec.CountsAs I (I.field L.script (I.global L.script sc) "V0") V0)
    (h2 : Spec.CountsAs I (I.field L.script (I.global L.script sc) "b") b)
    (h3 : Spec.CountsAs I (I.field L.script (I.global L.script sc) "f0") f0) :
    ∃ S, Friction.make I sc D T L = (L, .ok S) ∧ S.cp.V0 = V0 ∧ S.cp.b = b ∧ S.cp.f0 = f0 ∧
      Spec.CallsMethod I sc "a" D 1 S.a ∧ Spec.CallsMethod I sc "eta" D 1 S.eta ∧
      Spec.CallsMethod I sc "L" D 1 S.L ∧ Spec.CallsMethod I sc "Vinit" D T S.Vinit ∧
      Spec.OptionalMethod I L.script sc "sn_pre" D 1 (fun _ => [0]) S.sn_pre ∧
      Spec.OptionalMethod I L.script sc "tau_pre" D T (fun _ => List.replicate T 0) S.tau_pre ∧
      Spec.OptionalMethod I L.script sc "Sinit" D T (fun _ => List.replicate T 0) S.Sinit ∧
      Spec.MaybeMethod I L.script sc "source"
        (fun F => ∀ time, Spec.CallsAtTime I sc "source" D 1 time (atTime F time)) S.source ∧
      Spec.MaybeMethod I L.script sc "delta_tau"
        (fun F => ∀ time, Spec.CallsAtTime I sc "delta_tau" D T time (atTime F time)) S.delta_tau ∧
      Spec.MaybeMethod I L.script sc "delta_sn"
        (fun F => ∀ time, Spec.CallsAtTime I sc "delta_sn" D 1 time (atTime F time)) S.delta_sn ∧
      (∀ time, Spec.MaybeMethod I L.script sc "fault_solution" (Spec.CallsAtTime I sc "fault_solution" D (T + 1) time)
        (solutionAt S.solution time)) := by
  classical
  unfold Friction.make
  iterate 6 rw [bind_ok (optMember_eq I sc _ _ L ht)]
  rw [bind_ok (constant_ok I sc "V0" L V0 ht h1), bind_ok (constant_ok I sc "b" L b ht h2),
    bind_ok (constant_ok I sc "f0" L f0 ht h3), bind_ok (optMember_eq I sc _ _ L ht)]
  refine ⟨_, rfl, rfl, rfl, rfl, callsMethod I sc "a" D 1, callsMethod I sc "eta" D 1, callsMethod I sc "L" D 1,
    callsMethod I sc "Vinit" D T, ?_, ?_, ?_, ?_, ?_, ?_, ?_⟩
  · exact optional I L.script sc "sn_pre" D 1 _ _ _ (callsMethod I sc "sn_pre" D 1) fun _ _ => rfl
  · exact optional I L.script sc "tau_pre" D T _ _ _ (callsMethod I sc "tau_pre" D T) fun _ _ => rfl
  · exact optional I L.script sc "Sinit" D T _ _ _ (callsMethod I sc "Sinit" D T) fun _ _ => rfl
  · exact maybe I L.script sc "source" _ _ fun time => callsAtTime (callsMethod I sc "source" (D + 1) 1) time
  · exact maybe I L.script sc "delta_tau" _ _ fun time => callsAtTime (callsMethod I sc "delta_tau" (D + 1) T) time
  · exact maybe I L.script sc "delta_sn" _ _ fun time => callsAtTime (callsMethod I sc "delta_sn" (D + 1) 1) time
  · intro time
    have := maybe I L.script sc "fault_solution" (atTime (callMember I sc "fault_solution" (D + 1) (T + 1)) time) _
      (callsAtTime (callsMethod I sc "fault_solution" (D + 1) (T + 1)) time)
    unfold solutionAt
    convert this using 1
    split_ifs <;> rfl

/-- C88 (missing constants): without one of the constants `V0`, `b`, `f0` the friction scenario is not
created. -/
theorem C88_constants_required [Zero N] (I : Interp N σ) (sc : String) (D T : ℕ) (L : State N σ) (name : String)
    (hn : name = "V0" ∨ name = "b" ∨ name = "f0")
    (hv : ¬∃ v, Spec.CountsAs I (I.field L.script (I.global L.script sc) name) v) :
    (Friction.make I sc D T L).2.isOk = false := by
  classical
  by_cases ht : Spec.IsTable (I.global L.script sc)
  swap
  · have : (Friction.make I sc D T L).2 = .error .notATable := by
      unfold Friction.make
      obtain ⟨L', h⟩ := optMember_error I sc "sn_pre" (callMember I sc "sn_pre" D 1) L ht
      rw [bind_error h]
    rw [this]; rfl
  unfold Friction.make
  iterate 6 rw [bind_ok (optMember_eq I sc _ _ L ht)]
  by_cases h1 : ∃ v, Spec.CountsAs I (I.field L.script (I.global L.script sc) "V0") v
  swap
  · obtain ⟨L', e, he⟩ := constant_error I sc "V0" L h1
    rw [bind_error he]; rfl
  obtain ⟨v1, h1⟩ := h1
  rw [bind_ok (constant_ok I sc "V0" L v1 ht h1)]
  by_cases h2 : ∃ v, Spec.CountsAs I (I.field L.script (I.global L.script sc) "b") v
  swap
  · obtain ⟨L', e, he⟩ := constant_error I sc "b" L h2
    rw [bind_error he]; rfl
  obtain ⟨v2, h2⟩ := h2
  rw [bind_ok (constant_ok I sc "b" L v2 ht h2)]
  by_cases h3 : ∃ v, Spec.CountsAs I (I.field L.script (I.global L.script sc) "f0") v
  swap
  · obtain ⟨L', e, he⟩ := constant_error I sc "f0" L h3
    rw [bind_error he]; rfl
  rcases hn with rfl | rfl | rfl
  · exact absurd ⟨v1, h1⟩ hv
  · exact absurd ⟨v2, h2⟩ hv
  · exact absurd h3 hv

/-- The result of a call that returns numbers. -/
theorem calls_returns {I : Interp N σ} {sc name : String} {Din : ℕ} {F : Fn N σ} {x v : List N} {L : State N σ}
    (h : Spec.CallsMethod I sc name Din v.length F) (hx : x.length = Din)
    (ht : Spec.IsTable (I.global L.script sc)) (hr : Spec.Returns I L.script sc name (x.map Val.number) v) :
    F x L = (L, .ok v) := by
  obtain ⟨rs, hc, hv⟩ := hr
  have h1 := h x L hx ht
  unfold Spec.LuaCall at h1
  rw [hc] at h1
  obtain ⟨⟨hs, hres⟩, hst⟩ := h1
  have hok : (F x L).2 = .ok v := by
    rcases hres with ⟨v', hl, he, hv'⟩ | ⟨d, hd, hn, _, _⟩
    · rw [he]
      congr 1
      refine List.ext_getElem hl fun d h1 h2 => ?_
      have a := (countsAs_iff I _ _).1 (hv d h2)
      have b := (countsAs_iff I _ _).1 (hv' d h1)
      rw [a] at b
      exact (Option.some.inj b).symm
    · exact absurd ⟨_, hv d hd⟩ hn
  have := hst (by rw [hok]; rfl)
  rcases hF : F x L with ⟨⟨s, st⟩, r⟩
  rw [hF] at hs hok this
  simp only at hs hok this
  rw [hs, hok, this]

theorem optional_gives {I : Interp N σ} {sc name : String} {Din : ℕ} {F : Fn N σ} {x v dflt : List N} {L : State N σ}
    (h : Spec.OptionalMethod I L.script sc name Din v.length (fun _ => dflt) F) (hx : x.length = Din)
    (ht : Spec.IsTable (I.global L.script sc)) (hg : Spec.Gives I L.script sc name dflt x v) : F x L = (L, .ok v) := by
  rcases hg with ⟨hh, hr⟩ | ⟨hh, rfl⟩
  · exact calls_returns (h.1 hh) hx ht hr
  · exact h.2 hh x L

/-- C88 (friction parameters): at a point of the fault the program uses the numbers the script's methods
return there, each in its place. -/
theorem C88_params [Zero N] (I : Interp N σ) (sc : String) (D T : ℕ) (L : State N σ) (S : Friction N σ)
    (ht : Spec.IsTable (I.global L.script sc)) (hS : Friction.make I sc D T L = (L, .ok S))
    (x : List N) (hx : x.length = D) (a eta l sn : N) (tau V S0 : List N)
    (htau : tau.length = T) (hV : V.length = T) (hS0 : S0.length = T)
    (ha : Spec.Returns I L.script sc "a" (x.map Val.number) [a])
    (heta : Spec.Returns I L.script sc "eta" (x.map Val.number) [eta])
    (hl : Spec.Returns I L.script sc "L" (x.map Val.number) [l])
    (hsn : Spec.Gives I L.script sc "sn_pre" [0] x [sn])
    (htau' : Spec.Gives I L.script sc "tau_pre" (List.replicate T 0) x tau)
    (hVr : Spec.Returns I L.script sc "Vinit" (x.map Val.number) V)
    (hS0' : Spec.Gives I L.script sc "Sinit" (List.replicate T 0) x S0) :
    S.params x L = (L, .ok ⟨a, eta, l, sn, tau, V, S0⟩) := by
  have hc : ∀ name, name = "V0" ∨ name = "b" ∨ name = "f0" →
      ∃ v, Spec.CountsAs I (I.field L.script (I.global L.script sc) name) v := by
    intro name hn
    by_contra hv
    have := C88_constants_required I sc D T L name hn hv
    rw [hS] at this
    exact absurd this (by simp [Except.isOk, Except.toBool])
  obtain ⟨V0, h1⟩ := hc "V0" (Or.inl rfl)
  obtain ⟨b, h2⟩ := hc "b" (Or.inr (Or.inl rfl))
  obtain ⟨f0, h3⟩ := hc "f0" (Or.inr (Or.inr rfl))
  obtain ⟨S', hS', -, -, -, ka, keta, kl, kV, ksn, ktau, kS, -⟩ := C88_friction I sc D T L V0 b f0 ht h1 h2 h3
  have : S' = S := by
    rw [hS] at hS'
    exact (Except.ok.inj (Prod.mk.inj hS').2).symm
  subst this
  unfold Friction.params
  rw [bind_ok (calls_returns (v := [a]) ka hx ht ha), bind_ok (calls_returns (v := [eta]) keta hx ht heta),
    bind_ok (calls_returns (v := [l]) kl hx ht hl), bind_ok (optional_gives (v := [sn]) ksn hx ht hsn),
    bind_ok (optional_gives (v := tau) (by rw [htau]; exact ktau) hx ht htau'),
    bind_ok (calls_returns (v := V) (by rw [hV]; exact kV) hx ht hVr),
    bind_ok (optional_gives (v := S0) (by rw [hS0]; exact kS) hx ht hS0')]
  rfl

/-- A two-dimensional scenario with friction parameters but without prestress. -/
def sample : Interp Int Unit where
  global _ name := if name = "bp1" then .table 0 else .nil
  field _ v name := match v with
    | .table _ => if name = "a" then .function 1 else if name = "eta" then .function 2 else if name = "L" then .function 3
      else if name = "Vinit" then .function 4 else if name = "boundary" then .function 5
      else if name = "V0" then .number 6 else if name = "b" then .integer 7 else if name = "f0" then .string "8" else .nil
    | _ => .nil
  call _ f args := match f, args with
    | .function 1, [.table 0, .number x, .number y] => ((), .ok [.number (x + y)])
    | .function 2, [.table 0, .number _, .number y] => ((), .ok [.number y, .nil])
    | .function 3, [.table 0, .number x, .number _] => ((), .ok [.number (x * x)])
    | .function 4, [.table 0, .number _, .number _] => ((), .ok [.number 9])
    | .function 5, [.table 0, .number x, .number y, .number t] => ((), .ok [.number (x + 10 * y + 100 * t)])
    | _, _ => ((), .error (.string "error"))
  ofInt := id
  ofString s := if s = "8" then some 8 else none

/-- The hypotheses of the theorems are met, and the values are the expected ones. -/
example : Spec.IsTable (sample.global () "bp1") ∧ ¬Spec.IsTable (sample.global () "bp2") :=
  ⟨⟨0, rfl⟩, fun ⟨_, h⟩ => by cases h⟩
example : ((Friction.make sample "bp1" 2 1).bind fun S => S.params [3, 4]) ⟨(), []⟩
    = (⟨(), []⟩, .ok ⟨7, 4, 9, 0, [0], [9], [0]⟩) := rfl
example : ((Friction.make sample "bp1" 2 1).bind fun S => M.pure S.cp) ⟨(), []⟩ = (⟨(), []⟩, .ok ⟨6, 7, 8⟩) := rfl
example : ((Seas.make sample "bp1" 2 1).bind fun S => atTime (S.boundary.getD idFn) 7 [1, 2]) ⟨(), []⟩
    = (⟨(), []⟩, .ok [721]) := rfl
example : ((Seas.make sample "bp1" 2 1).bind fun S => S.lam [1, 2] 5) ⟨(), []⟩ = (⟨(), []⟩, .ok [0]) := rfl
example : ((ElasticitySc.make sample "bp1" 2 [0, 1]).bind fun S => S.lam [1, 2] 5) ⟨(), []⟩ = (⟨(), []⟩, .ok [1]) := rfl

end Tandem.Scenario
