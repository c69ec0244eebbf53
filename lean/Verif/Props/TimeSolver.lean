/-
C92: the time integrator and the operator are wired together correctly; loading a checkpoint; step limits.
-/
import Verif.Spec.TimeSolver
import Mathlib.Tactic.Common

namespace Tandem.TimeSolver
open Tandem.Spec

variable {K V : Type}

theorem fillArgs_get (N : Nat) (u F : List Nat) (n k : Nat) (hn : n ≤ N) :
    fillArgs N u F n k = if k < n then u[k]? else if N ≤ k ∧ k < N + n then F[k - N]? else none := by
  induction n with
  | zero => simp [fillArgs]; omega
  | succ n ih =>
    rw [fillArgs]
    beta_reduce
    rw [ih (by omega)]
    by_cases h1 : k = N + n
    · subst h1
      have h2 : ¬ N + n < n + 1 := by omega
      simp [h2]
    · rw [if_neg h1]
      by_cases h2 : k = n
      · subst h2; simp
      · rw [if_neg h2]
        by_cases h3 : k < n
        · simp [h3, show k < n + 1 by omega]
        · rw [if_neg h3, if_neg (show ¬ k < n + 1 by omega)]
          by_cases h4 : N ≤ k ∧ k < N + n
          · rw [if_pos h4, if_pos (by omega)]
          · rw [if_neg h4, if_neg (by omega)]

theorem filterMap_getElem (u : List Nat) (N : Nat) (h : u.length = N) :
    (List.range N).filterMap (fun n => u[n]?) = u := by
  subst h
  induction u with
  | nil => rfl
  | cons a u ih =>
    rw [List.length_cons, List.range_succ_eq_map, List.filterMap_cons]
    simp only [List.getElem?_cons_zero, List.filterMap_map]
    congr 1

/-- C92: the arguments of the right-hand side are the state vectors and then the result vectors, each in order. -/
theorem C92_rhs_arguments (N : Nat) (u F : List Nat) (hu : u.length = N) (hF : F.length = N) :
    rhsArgs N u F = (u ++ F).map some := by
  apply List.ext_getElem?
  intro k
  simp only [rhsArgs, List.getElem?_map]
  by_cases hk : k < 2 * N
  · rw [List.getElem?_range hk, Option.map_some, fillArgs_get N u F N k (Nat.le_refl _)]
    by_cases h1 : k < N
    · have h1' : k < u.length := by omega
      rw [if_pos h1, List.getElem?_append_left h1', List.getElem?_eq_getElem h1']
      rfl
    · have h2 : k - N < F.length := by omega
      rw [if_neg h1, if_pos (by omega), List.getElem?_append_right (by omega), hu, List.getElem?_eq_getElem h2]
      rfl
  · rw [List.getElem?_eq_none (by simp; omega), List.getElem?_eq_none (by simp; omega)]
    rfl

theorem setAll_other (σ : Store V) (hs : List Nat) (vs : List V) (k : Nat) (h : k ∉ hs) :
    σ.setAll hs vs k = σ k := by
  induction hs generalizing σ vs with
  | nil => rfl
  | cons a hs ih =>
    cases vs with
    | nil => rfl
    | cons v vs =>
      rw [Store.setAll, ih _ _ (fun h' => h (List.mem_cons_of_mem _ h')), Store.set, if_neg]
      rintro rfl; exact h List.mem_cons_self

theorem setAll_contents (σ : Store V) (hs : List Nat) (vs : List V) (hd : hs.Nodup) (hl : vs.length = hs.length) :
    hs.map (σ.setAll hs vs) = vs := by
  induction hs generalizing σ vs with
  | nil => cases vs with
    | nil => rfl
    | cons v vs => simp at hl
  | cons a hs ih =>
    cases vs with
    | nil => simp at hl
    | cons v vs =>
      rw [List.nodup_cons] at hd
      rw [Store.setAll, List.map_cons, ih _ _ hd.2 (by simpa using hl), setAll_other _ _ _ _ hd.1]
      simp [Store.set]

/-- C92: the right-hand side PETSc sees is the one of the operator: the result vector holds the operator's right-hand
side at the given time and state, and the state vector and all other vectors keep their content. -/
theorem C92_rhs (op : TimeOp K V) (N : Nat) (hop : ∀ t xs, xs.length = N → (op.rhs t xs).length = N)
    (σ : Store V) (t : K) (u F : List Nat) (hu : u.length = N) (hF : F.length = N)
    (hd : F.Nodup) (hdis : ∀ h ∈ u, h ∉ F) :
    contents (rhsFunction op N σ t u F) F = op.rhs t (contents σ u) ∧
    contents (rhsFunction op N σ t u F) u = contents σ u ∧
    ∀ h, h ∉ F → rhsFunction op N σ t u F h = σ h := by
  have e : (rhsArgs N u F).filterMap id = u ++ F := by
    rw [C92_rhs_arguments N u F hu hF]; simp
  have e' : rhsFunction op N σ t u F = σ.setAll F (op.rhs t (contents σ u)) := by
    unfold rhsFunction
    simp only [e]
    rw [List.drop_left' hu, List.take_left' hu]; rfl
  rw [e']
  refine ⟨setAll_contents σ F _ hd ?_, ?_, fun h hh => setAll_other _ _ _ _ hh⟩
  · rw [hop _ _ (by simp [contents, hu]), hF]
  · apply List.map_congr_left
    intro h hh
    exact setAll_other _ _ _ _ (hdis h hh)

/-- C92: after construction the solution of the integrator is the operator's initial condition; the solution vector
and the state vectors are the same memory. -/
theorem C92_initial (op : TimeOp K V) (N : Nat) (hop : ∀ xs, xs.length = N → (op.initial xs).length = N)
    (σ : Store V) (state : List Nat) (hs : state.length = N) (hd : state.Nodup) :
    (construct op N σ state).2 = state ∧
    contents (construct op N σ state).1 (construct op N σ state).2 = op.initial (contents σ state) := by
  have h1 : (construct op N σ state).2 = state := filterMap_getElem state N hs
  refine ⟨h1, ?_⟩
  rw [h1]
  exact setAll_contents σ state _ hd (by rw [hop _ (by simp [hs]), hs])

/-- C92: the monitor gets the state vectors in order. -/
theorem C92_monitor_arguments (N : Nat) (σ : Store V) (u : List Nat) (hu : u.length = N) :
    monitorArgs N σ u = contents σ u := by
  unfold monitorArgs contents
  rw [filterMap_getElem u N hu]

/-- C92: the output of the simulation is always registered, exactly once and last; the log line is printed unless
PETSc's monitor was asked for or it was disabled, and never together with PETSc's. -/
theorem C92_monitors (tsMonitor disable : Bool) :
    (monitors tsMonitor disable).getLast? = some .user ∧ (monitors tsMonitor disable).count .user = 1 ∧
    (.log ∈ monitors tsMonitor disable ↔ tsMonitor = false ∧ disable = false) ∧
    (.petsc ∈ monitors tsMonitor disable ↔ tsMonitor = true) := by
  cases tsMonitor <;> cases disable <;> decide

/-- C92: only a Runge-Kutta scheme whose tableau says so counts as first-same-as-last. -/
theorem C92_fsal (s : Scheme) : fsal s = true ↔ s = .rk true := by
  rcases s with _ | _ <;> simp [fsal]

/-- C92: with a stability limit the first step and all later ones are limited by `cfl` times the limit; without one
the limits are PETSc's. -/
theorem C92_step_limit [Mul K] (s : Steps K) (c : Option K) (cfl : K) :
    (∀ x, c = some x → (limitSteps s c cfl).dtMax = x * cfl ∧ (limitSteps s c cfl).dt = x * cfl) ∧
    (c = none → limitSteps s c cfl = s) ∧ (limitSteps s c cfl).dtMin = s.dtMin := by
  cases c <;> simp [limitSteps, setMaxTimeStep]

/-- C92: on rank 0 `load_directory` may be a directory or a file whose first line names one; nothing else is loaded,
and an exception is thrown exactly for a file whose first line is not a directory (or that is empty or
unreadable). -/
theorem C92_load_root (d : Disk) (path : String) (dir : String) :
    loadCalls d (some path) 0 = .ok [.restart dir] ↔ IsCheckpointDirectory d path dir := by
  unfold loadCalls rootDirectory IsCheckpointDirectory
  simp only [if_true]
  cases hr : d.regular path with
  | false =>
    simp only [Bool.false_eq_true, if_false, Except.map, Except.ok.injEq, List.cons.injEq, Call.restart.injEq,
      and_true, false_and, or_false, true_and]
    exact eq_comm
  | true =>
    simp only [if_true]
    cases hl : d.lines path with
    | none => simp [Except.map]
    | some ls =>
      cases ls with
      | nil => simp [Except.map]
      | cons l ls =>
        simp only [Option.some.injEq, List.cons.injEq]
        by_cases hd : d.directory l = true
        · simp only [hd, if_true, Except.map, Except.ok.injEq, List.cons.injEq, Call.restart.injEq, and_true]
          constructor
          · rintro rfl; exact Or.inr ⟨trivial, hd, ls, rfl, rfl⟩
          · rintro (⟨h, -⟩ | ⟨-, -, rest, h, -⟩)
            · simp at h
            · exact h
        · rw [if_neg hd]
          simp only [Except.map, reduceCtorEq, false_iff]
          rintro (⟨h, -⟩ | ⟨-, h1, rest, h, -⟩)
          · simp at h
          · rw [h] at hd; exact hd h1

/-- C92: without `load_directory` nothing is loaded on any rank. -/
theorem C92_no_load (d : Disk) (procs : Nat) : Collective procs (loadCalls d none) := fun _ _ _ _ => rfl

/-- C92, negative: with more than one rank the load branch is not collective, whatever is on disk: the ranks other
than 0 start a broadcast that rank 0 never joins, of zero bytes, and continue with an empty directory name. -/
theorem C92_load_not_collective (d : Disk) (path : String) (procs : Nat) (h : 2 ≤ procs) :
    ¬ Collective procs (loadCalls d (some path)) ∧
    ∀ r, 0 < r → loadCalls d (some path) r = .ok [.bcast 0, .restart ""] := by
  have h1 : ∀ r, 0 < r → loadCalls d (some path) r = .ok [.bcast 0, .restart ""] := by
    intro r hr; unfold loadCalls; simp [show r ≠ 0 by omega]
  refine ⟨fun hc => ?_, h1⟩
  have := hc 0 (by omega) 1 (by omega)
  rw [h1 1 (by omega)] at this
  unfold loadCalls at this
  simp only [if_true] at this
  cases hr : rootDirectory d path <;> rw [hr] at this <;> simp [Except.map] at this

/-! A concrete operator with three state vectors, like the fully dynamic one. -/

/-- The initial condition is (1, 2, 3); the right-hand side is (u, s + t, v). -/
def exOp : TimeOp Int Int := ⟨fun _ => [1, 2, 3], fun t xs => [xs.getD 1 0, xs.getD 2 0 + t, xs.getD 0 0]⟩

example : (construct exOp 3 (fun _ => 0) [4, 7, 2]).2 = [4, 7, 2] := by decide
example : contents (rhsFunction exOp 3 (construct exOp 3 (fun _ => 0) [4, 7, 2]).1 10 [4, 7, 2] [11, 12, 13])
    [11, 12, 13] = [2, 13, 1] := by decide
example : IsCheckpointDirectory ⟨fun p => p == "last.txt", fun _ => some ["step20", "# comment"], fun p => p == "step20"⟩
    "last.txt" "step20" := Or.inr ⟨rfl, rfl, _, rfl⟩

end Tandem.TimeSolver
