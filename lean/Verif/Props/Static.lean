import Verif.Props.Options
import Verif.Spec.Static
import Mathlib.Tactic.Linarith
import Mathlib.Algebra.Order.Field.Basic
import Mathlib.Algebra.Field.Rat
import Mathlib.Algebra.BigOperators.Group.List.Basic
import Mathlib.Algebra.Order.BigOperators.Group.List
/-! # Property C93: the program `static` -/
namespace Tandem.Static
open Tandem.Schema Tandem.Main Tandem.Spec

variable {α : Type}

/-! ## Options -/

theorem staticFields_nodup (e : Env α) (D : Nat) :
    ((fieldList (staticFields e D)).map Prod.fst).Nodup := by
  show (["resolution", "method", "type", "lib", "scenario", "ref_normal", "matrix_free",
    "test_matrix_free", "mg_coarse_level", "mg_strategy", "profile", "output", "mesh_file",
    "generate_mesh"] : List String).Nodup
  decide

theorem method_ok {t : List Char} {x : Leaf} (ht : '\x00' ∉ t)
    (hx : some (Leaf.dg (methodConv t)) = some x)
    (h : (match (generalizing := false) x with | .dg m => m != .unknown | _ => false) = true) :
    (abbreviated methodWords t).map .dg = some x := by
  refine word_eq (unknown := DG.unknown)
    (ok := fun x => match x with | .dg m => m != .unknown | _ => false) rfl ?_ ht hx h
  intro v hv
  unfold methodConv
  rw [ieq_eq hv "ip" (by decide), ieq_eq hv "br2" (by decide)]
  simp only [abbreviated, methodWords, List.find?]
  cases decide (lowerCase v <+: lowerCase "ip".toList) <;>
  cases decide (lowerCase v <+: lowerCase "br2".toList) <;> rfl

/-- C93 (options): in an accepted configuration every documented scalar option of `static` has the value
of the command line argument if there is one, otherwise that of the file, otherwise the documented
default; `ref_normal` defaults to the first unit vector; a mesh generation section exists iff it is in
the file.  (Strings contain no NUL characters.) -/
theorem C93_options (e : Env α) (D : Nat) (present : String → Option (List Char))
    (l : List (String × Node α)) (vs : List (Option (Val Leaf)))
    (hs : ∀ a s, e.str a = some s → '\x00' ∉ s) (hp : ∀ k t, present k = some t → '\x00' ∉ t)
    (h : readConfig (staticFields e D) (fun _ => true) (some present) (some l) = some vs) :
    let m := memberOf (staticFields e D) vs
    (∀ o ∈ staticOptions e, Follows o (present o.key) ((Node.tbl l).get o.key) (m o.key)) ∧
    FollowsVector e D (some ((List.range D).map (fun i => if i = 0 then 1 else 0)))
      ((Node.tbl l).get "ref_normal") (m "ref_normal") ∧
    (m "generate_mesh" = none ↔ (Node.tbl l).get "generate_mesh" = none) := by
  have hn := staticFields_nodup e D
  have fo := fun (o : ScalarOption α) => @follows_outer α (staticFields e D) (fun _ => true) hn present l
    vs h hp o
  intro m
  refine ⟨?_, ?_, ?_⟩
  · simp only [staticOptions, List.forall_mem_cons, List.not_mem_nil, false_implies, implies_true,
      and_true]
    refine ⟨?_, ?_, ?_, ?_, ?_, ?_, ?_, ?_, ?_, ?_, ?_, ?_⟩
    · exact fo _ (by simp [realOption]) (List.mem_of_getElem? (i := 0) rfl) (fun _ _ h _ => h)
        (fun _ _ _ h _ => h) trivial
    · exact fo _ (by simp [wordOption]) (List.mem_of_getElem? (i := 1) rfl)
        (bind_ok _ hs (fun _ _ a b c => method_ok a b c)) (fun _ _ a b c => method_ok a b c) rfl
    · exact fo _ (by simp [wordOption]) (List.mem_of_getElem? (i := 2) rfl)
        (bind_ok _ hs (fun _ _ a b c => op_ok a b c)) (fun _ _ a b c => op_ok a b c) trivial
    · exact fo _ (by simp [fileOption]) (List.mem_of_getElem? (i := 3) rfl) (fun _ _ h _ => h)
        (fun _ _ _ h _ => h) trivial
    · exact fo _ (by simp [textOption]) (List.mem_of_getElem? (i := 4) rfl) (fun _ _ h _ => h)
        (fun _ _ _ h _ => h) trivial
    · exact fo _ (by simp [boolOption]) (List.mem_of_getElem? (i := 6) rfl) (fun _ _ h _ => h)
        (fun _ _ _ h _ => h) rfl
    · exact fo _ (by simp [boolOption]) (List.mem_of_getElem? (i := 7) rfl) (fun _ _ h _ => h)
        (fun _ _ _ h _ => h) rfl
    · exact fo _ (by simp [intOption]) (List.mem_of_getElem? (i := 8) rfl) (fun _ _ h _ => h)
        (fun _ _ _ h _ => h) rfl
    · exact fo _ (by simp [wordOption]) (List.mem_of_getElem? (i := 9) rfl)
        (bind_ok _ hs (fun _ _ a b c => mg_ok a b c)) (fun _ _ a b c => mg_ok a b c) rfl
    · exact fo _ (by simp [intOption]) (List.mem_of_getElem? (i := 10) rfl) (fun _ _ h _ => h)
        (fun _ _ _ h _ => h) rfl
    · exact fo _ (by simp [textOption]) (List.mem_of_getElem? (i := 11) rfl) (fun _ _ h _ => h)
        (fun _ _ _ h _ => h) trivial
    · exact fo _ (by simp [fileOption]) (List.mem_of_getElem? (i := 12) rfl) (fun _ _ h _ => h)
        (fun _ _ _ h _ => h) trivial
  · exact follows_vector (staticFields e D) (fun _ => true) hn h e D _ (by decide)
      (List.mem_of_getElem? (i := 5) rfl) (Or.inr ⟨_, rfl, by
        rw [defaultNormal, List.map_map]; rfl⟩)
  · have h1 := section_read (staticFields e D) (fun _ => true) hn h (k := "generate_mesh") (by decide)
      (List.mem_of_getElem? (i := 13) rfl)
    cases hg : (Node.tbl l).get "generate_mesh" with
    | none => rw [hg] at h1; exact ⟨fun _ => rfl, fun _ => h1⟩
    | some n =>
      rw [hg] at h1
      obtain ⟨us, h2, _⟩ := h1
      constructor
      · intro h3
        rw [show m "generate_mesh" = _ from h2] at h3
        cases h3
      · intro h3; cases h3

/-- C93 (accepted configurations): the resolution is positive, the method, the type and the multigrid
strategy are known, the number of repetitions is not negative, and library and mesh file exist. -/
theorem C93_valid (e : Env α) (D : Nat) (args : Option (String → Option (List Char)))
    (file : Option (List (String × Node α))) (vs : List (Option (Val Leaf)))
    (h : readConfig (staticFields e D) (fun _ => true) args file = some vs) :
    let m := memberOf (staticFields e D) vs
    (∀ v, m "resolution" = some v → ∃ x, v = .leaf (.real x) ∧ 0 < x) ∧
    (∃ x, m "method" = some (.leaf (.dg x)) ∧ (x = .ip ∨ x = .br2)) ∧
    (∃ x, m "type" = some (.leaf (.op x)) ∧ (x = .poisson ∨ x = .elasticity)) ∧
    (∃ x, m "mg_strategy" = some (.leaf (.mg x)) ∧ x ≠ .unknown) ∧
    (∃ n, m "profile" = some (.leaf (.int n)) ∧ 0 ≤ n) ∧
    (∃ p, m "lib" = some (.leaf (.str p)) ∧ e.exist p = true) ∧
    (∀ v, m "mesh_file" = some v → ∃ p, v = .leaf (.str p) ∧ e.exist p = true) := by
  have hn := staticFields_nodup e D
  have get : ∀ {i : Nat} {k : String} {d : Kind Leaf} {c f ok},
      (fieldList (staticFields e D))[i]? = some (k, d, Schema.value c f ok) → _ :=
    fun {i k d c f ok} hi => member_value (staticFields e D) (fun _ => true) hn h
      (List.mem_of_getElem? hi)
  intro m
  refine ⟨?_, ?_, ?_, ?_, ?_, ?_, ?_⟩
  · intro v hv
    rcases get (i := 0) rfl with ⟨x, h1, h2, _⟩ | ⟨v, h1, _⟩ | ⟨_, h1⟩
    · have : v = .leaf x := Option.some.inj (hv.symm.trans h1)
      cases x with
      | real x => exact ⟨x, this, of_decide_eq_true h2⟩
      | _ => cases h2
    · cases h1
    · have := hv.symm.trans h1
      cases this
  · rcases get (i := 1) rfl with ⟨x, h1, h2, _⟩ | ⟨v, h1, h2⟩ | ⟨h1, _⟩
    · cases x with
      | dg x =>
        refine ⟨x, h1, ?_⟩
        cases x with
        | ip => exact Or.inl rfl
        | br2 => exact Or.inr rfl
        | unknown => cases h2
      | _ => cases h2
    · cases h1; exact ⟨_, h2, Or.inl rfl⟩
    · cases h1
  · rcases get (i := 2) rfl with ⟨x, h1, h2, _⟩ | ⟨v, h1, _⟩ | ⟨h1, _⟩
    · cases x with
      | op x =>
        refine ⟨x, h1, ?_⟩
        cases x with
        | poisson => exact Or.inl rfl
        | elasticity => exact Or.inr rfl
        | unknown => cases h2
      | _ => cases h2
    · cases h1
    · cases h1
  · rcases get (i := 9) rfl with ⟨x, h1, h2, _⟩ | ⟨v, h1, h2⟩ | ⟨h1, _⟩
    · cases x with
      | mg x => exact ⟨x, h1, by simpa using h2⟩
      | _ => cases h2
    · cases h1; exact ⟨_, h2, by decide⟩
    · cases h1
  · rcases get (i := 10) rfl with ⟨x, h1, h2, _⟩ | ⟨v, h1, h2⟩ | ⟨h1, _⟩
    · cases x with
      | int x => exact ⟨x, h1, of_decide_eq_true h2⟩
      | _ => cases h2
    · cases h1; exact ⟨0, h2, le_refl _⟩
    · cases h1
  · rcases get (i := 3) rfl with ⟨x, h1, h2, _⟩ | ⟨v, h1, _⟩ | ⟨h1, _⟩
    · cases x with
      | str x => exact ⟨x, h1, h2⟩
      | _ => cases h2
    · cases h1
    · cases h1
  · intro v hv
    rcases get (i := 12) rfl with ⟨x, h1, h2, _⟩ | ⟨v, h1, _⟩ | ⟨_, h1⟩
    · have : v = .leaf x := Option.some.inj (hv.symm.trans h1)
      cases x with
      | str x => exact ⟨x, this, h2⟩
      | _ => cases h2
    · cases h1
    · have := hv.symm.trans h1
      cases this

/-- A small configuration file. -/
def exStatic : List (String × Node (ℚ ⊕ String)) :=
  [("type", .leaf (.inr "Poisson")), ("lib", .leaf (.inr "x.lua")), ("scenario", .leaf (.inr "s")),
   ("resolution", .leaf (.inl (1 / 2))), ("unknown", .leaf (.inl 3))]

/-- The scalar in a member. -/
def exLeaf (vs : List (Option (Val Leaf))) (k : String) : Option Leaf :=
  match memberOf (staticFields exEnv' 2) vs k with
  | some (.leaf x) => some x
  | _ => none

example : (readConfig (staticFields exEnv' 2) (fun _ => true)
      (some (fun k => if k = "profile" then some "7".toList else none)) (some exStatic)).map
      (fun vs => [exLeaf vs "resolution", exLeaf vs "method", exLeaf vs "lib", exLeaf vs "profile",
        exLeaf vs "mesh_file"]) =
    some [some (.real (1 / 2)), some (.dg .ip), some (.str "dir/x.lua".toList), some (.int 7), none] := by
  decide +kernel

/-! ## The run -/

theorem callsOf_append (a b : List Ev) : callsOf (a ++ b) = callsOf a ++ callsOf b := by
  unfold callsOf; rw [List.filterMap_append]
theorem linesOf_append (a b : List Ev) : linesOf (a ++ b) = linesOf a ++ linesOf b := by
  unfold linesOf; rw [List.filterMap_append]

theorem callsOf_onRoot (r : Nat) (l : List Line) : callsOf (onRoot r l) = [] := by
  unfold onRoot
  split
  · simp [callsOf, List.filterMap_map]
  · rfl
theorem linesOf_onRoot (r : Nat) (l : List Line) :
    linesOf (onRoot r l) = if r = 0 then l else [] := by
  unfold onRoot
  split
  · simp [linesOf, List.filterMap_map, Function.comp_def]
  · rfl
theorem callsOf_replicate (n : Nat) (c : Call) :
    callsOf (List.replicate n (.call c)) = List.replicate n c := by
  induction n with
  | zero => rfl
  | succ n ih => rw [List.replicate_succ, List.replicate_succ, ← ih]; rfl
theorem linesOf_replicate (n : Nat) (c : Call) : linesOf (List.replicate n (.call c)) = [] := by
  induction n with
  | zero => rfl
  | succ n ih => rw [List.replicate_succ, ← ih]; rfl
theorem callsOf_call (c : Call) (l : List Ev) : callsOf (.call c :: l) = c :: callsOf l := rfl
theorem linesOf_call (c : Call) (l : List Ev) : linesOf (.call c :: l) = linesOf l := rfl
theorem callsOf_print (c : Line) (l : List Ev) : callsOf (.print c :: l) = callsOf l := rfl
theorem linesOf_print (c : Line) (l : List Ev) : linesOf (.print c :: l) = c :: linesOf l := rfl
theorem callsOf_nil : callsOf [] = [] := rfl
theorem linesOf_nil : linesOf [] = [] := rfl

/-- C93 (what a run does): the collective operations are exactly these, in this order, on every rank: the
operator of the configured type and method, with `test_matrix_free` the reduction of the operation count
and 100 products, the reductions of the number of unknowns and of the mesh size, the linear solver with
the configured parameters, then a warm-up and one solution, or one and `profile` further solutions if
`profile` is positive; and, if the solver converged, the errors for which the scenario has a reference
and the output file if one is configured. -/
theorem C93_calls (cfg : Cfg) (sol jac conv : Bool) (rank : Nat) :
    callsOf (staticProblem cfg sol jac conv rank) =
      [Call.operator cfg.type cfg.method] ++
      (if cfg.testMatrixFree then Call.reduceFlops :: List.replicate 100 .matMult else []) ++
      [.reduceDofs, .reduceSize, .assemble cfg.matrixFree cfg.mgCoarseLevel cfg.mgStrategy] ++
      (if cfg.profile = 0 then [.warmup, .solve] else List.replicate (cfg.profile + 1) .solve) ++
      (if conv then (if sol then [.l2] else []) ++ (if jac then [.h1] else []) ++
        cfg.output.toList.map .write else []) := by
  have hw : callsOf (warm cfg rank ++ timed cfg rank) =
      if cfg.profile = 0 then [.warmup, .solve] else List.replicate (cfg.profile + 1) .solve := by
    unfold warm timed
    by_cases hp : cfg.profile = 0
    · simp [hp, callsOf_append, callsOf_onRoot, callsOf_call, callsOf_nil]
    · simp [Nat.pos_of_ne_zero hp, hp, callsOf_append, callsOf_onRoot, callsOf_call, callsOf_nil,
        callsOf_replicate, List.replicate_succ]
  have ht : callsOf (testShell cfg rank) =
      if cfg.testMatrixFree then Call.reduceFlops :: List.replicate 100 .matMult else [] := by
    unfold testShell
    split
    · rw [callsOf_append, callsOf_onRoot, callsOf_call, callsOf_replicate, List.append_nil]
    · rfl
  have hf : callsOf (finish cfg sol jac conv rank) =
      if conv then (if sol then [.l2] else []) ++ (if jac then [.h1] else []) ++
        cfg.output.toList.map .write else [] := by
    unfold finish errors output
    cases conv <;> cases sol <;> cases jac <;> cases cfg.output <;>
      simp [callsOf_append, callsOf_onRoot, callsOf_call, callsOf_nil, callsOf_print]
  unfold staticProblem
  simp only [callsOf_append, callsOf_call, callsOf_onRoot, callsOf_nil, ht, hf, List.append_nil,
    List.cons_append, List.nil_append, List.append_assoc]
  rw [← hw, callsOf_append, List.append_assoc]

/-- C93 (ranks agree): all ranks take part in the same collective operations in the same order, so no
rank waits for another one for ever. -/
theorem C93_collective (cfg : Cfg) (sol jac conv : Bool) (r r' : Nat) :
    callsOf (staticProblem cfg sol jac conv r) = callsOf (staticProblem cfg sol jac conv r') := by
  rw [C93_calls, C93_calls]

/-- C93 (reports): rank 0 prints the size of the problem, the times, and - if the solver converged -
residual, iterations and the available errors; other ranks print nothing, except that every rank reports
that the solver did not converge. -/
theorem C93_reports (cfg : Cfg) (sol jac conv : Bool) (rank : Nat) :
    linesOf (staticProblem cfg sol jac conv rank) =
      (if rank = 0 then
        (if cfg.testMatrixFree then [.shellTime, .shellFlops, .shellGflops] else []) ++
        [.dofs, .meshSize, .assembly, .solverWarmup] ++
        (if cfg.profile = 0 then [.solve] else [.solveMin, .solveAvg, .solveMax]) ++
        (if conv then [.residual, .iterations] ++ (if sol then [.l2] else []) ++
          (if jac then [.h1] else []) else [])
      else []) ++ (if conv then [] else [.notConverged]) := by
  have hw : linesOf (warm cfg rank) = if rank = 0 then [.solverWarmup] else [] := by
    unfold warm
    by_cases hp : 0 < cfg.profile
    · rw [if_pos hp, linesOf_append, linesOf_onRoot]; rfl
    · rw [if_neg hp, linesOf_append, linesOf_onRoot]; rfl
  have ht : linesOf (timed cfg rank) = if rank = 0 then
      (if cfg.profile = 0 then [.solve] else [.solveMin, .solveAvg, .solveMax]) else [] := by
    unfold timed
    by_cases hp : cfg.profile = 0
    · simp [hp, linesOf_call, linesOf_onRoot]
    · simp [hp, Nat.pos_of_ne_zero hp, linesOf_append, linesOf_replicate, linesOf_onRoot]
  have hs : linesOf (testShell cfg rank) = if rank = 0 then
      (if cfg.testMatrixFree then [.shellTime, .shellFlops, .shellGflops] else []) else [] := by
    unfold testShell
    split
    · rw [linesOf_append, linesOf_onRoot, linesOf_call, linesOf_replicate, List.nil_append]
    · simp [linesOf_nil]
  have hf : linesOf (finish cfg sol jac conv rank) = (if rank = 0 then
      (if conv then [.residual, .iterations] ++ (if sol then [.l2] else []) ++
          (if jac then [.h1] else []) else []) else []) ++ (if conv then [] else [.notConverged]) := by
    unfold finish errors output
    by_cases hr : rank = 0 <;> cases conv <;> cases sol <;> cases jac <;> cases cfg.output <;>
      simp [hr, linesOf_append, linesOf_onRoot, linesOf_call, linesOf_nil, linesOf_print]
  unfold staticProblem
  simp only [linesOf_append, linesOf_call, linesOf_onRoot, linesOf_nil, hw, ht, hs, hf]
  by_cases hr : rank = 0
  · simp [hr]
  · simp [hr]

example : linesOf (staticProblem ⟨none, .ip, .poisson, false, false, .full, 1, 2, some ['o'], none, true⟩
      true false true 0) =
    [.dofs, .meshSize, .assembly, .solverWarmup, .solveMin, .solveAvg, .solveMax, .residual,
      .iterations, .l2] := by decide

/-! ## Times in profile mode -/

theorem profileLoop_spec (ts : List ℚ) : ∀ (s mx mn : ℚ),
    (profileLoop ts (s, mx, mn)).1 = s + ts.sum ∧
    (∀ x, (profileLoop ts (s, mx, mn)).2.1 ≤ x ↔ mx ≤ x ∧ ∀ t ∈ ts, t ≤ x) ∧
    (∀ x, x ≤ (profileLoop ts (s, mx, mn)).2.2 ↔ x ≤ mn ∧ ∀ t ∈ ts, x ≤ t) := by
  induction ts with
  | nil => intro s mx mn; simp [profileLoop]
  | cons t ts ih =>
    intro s mx mn
    rw [profileLoop]
    obtain ⟨h1, h2, h3⟩ := ih (s + t) (max mx t) (min mn t)
    refine ⟨by rw [h1, List.sum_cons, add_assoc], ?_, ?_⟩
    · intro x; rw [h2, max_le_iff, List.forall_mem_cons, and_assoc]
    · intro x; rw [h3, le_min_iff, List.forall_mem_cons, and_assoc]

theorem profileLoop_mem (ts : List ℚ) : ∀ (s mx mn : ℚ),
    ((profileLoop ts (s, mx, mn)).2.1 = mx ∨ (profileLoop ts (s, mx, mn)).2.1 ∈ ts) ∧
    ((profileLoop ts (s, mx, mn)).2.2 = mn ∨ (profileLoop ts (s, mx, mn)).2.2 ∈ ts) := by
  induction ts with
  | nil => intro s mx mn; simp [profileLoop]
  | cons t ts ih =>
    intro s mx mn
    rw [profileLoop]
    obtain ⟨h1, h2⟩ := ih (s + t) (max mx t) (min mn t)
    constructor
    · rcases h1 with h1 | h1
      · rw [h1]
        rcases max_choice mx t with h | h
        · exact Or.inl h
        · right; rw [h]; exact List.mem_cons_self
      · exact Or.inr (List.mem_cons_of_mem _ h1)
    · rcases h2 with h2 | h2
      · rw [h2]
        rcases min_choice mn t with h | h
        · exact Or.inl h
        · right; rw [h]; exact List.mem_cons_self
      · exact Or.inr (List.mem_cons_of_mem _ h2)

/-- C93 (profile mode): with at least one repetition, and times that are not negative and not larger than
the largest number, the reported minimum and maximum are the least and the greatest time, the average is
the arithmetic mean, and minimum ≤ average ≤ maximum. -/
theorem C93_profile (big : ℚ) (ts : List ℚ) (hne : ts ≠ []) (h0 : ∀ t ∈ ts, 0 ≤ t)
    (hb : ∀ t ∈ ts, t ≤ big) :
    let r := profileStats big ts
    r.1 = ts.sum / ts.length ∧ r.2.1 ∈ ts ∧ (∀ t ∈ ts, t ≤ r.2.1) ∧ r.2.2 ∈ ts ∧
      (∀ t ∈ ts, r.2.2 ≤ t) ∧ r.2.2 ≤ r.1 ∧ r.1 ≤ r.2.1 := by
  obtain ⟨h1, h2, h3⟩ := profileLoop_spec ts 0 0 big
  intro r
  have e1 : r.1 = ts.sum / ts.length := by
    show (profileLoop ts (0, 0, big)).1 / ts.length = _
    rw [h1, zero_add]
  have hle : ∀ t ∈ ts, t ≤ r.2.1 := ((h2 _).1 le_rfl).2
  have hge : ∀ t ∈ ts, r.2.2 ≤ t := ((h3 _).1 le_rfl).2
  have hlen : (0 : ℚ) < ts.length := by
    have := List.length_pos_iff.2 hne
    exact_mod_cast this
  obtain ⟨a, ha⟩ := List.exists_mem_of_ne_nil _ hne
  refine ⟨e1, ?_, hle, ?_, hge, ?_, ?_⟩
  · rcases (profileLoop_mem ts 0 0 big).1 with h4 | h4
    · have h5 : r.2.1 = 0 := h4
      have h6 : a = 0 := le_antisymm (h5 ▸ hle a ha) (h0 a ha)
      rw [h5, ← h6]; exact ha
    · exact h4
  · rcases (profileLoop_mem ts 0 0 big).2 with h4 | h4
    · have h5 : r.2.2 = big := h4
      have h6 : a = big := le_antisymm (hb a ha) (h5 ▸ hge a ha)
      rw [h5, ← h6]; exact ha
    · exact h4
  · rw [e1, le_div_iff₀ hlen]
    have := List.card_nsmul_le_sum ts r.2.2 hge
    rw [nsmul_eq_mul] at this
    linarith
  · rw [e1, div_le_iff₀ hlen]
    have := List.sum_le_card_nsmul ts r.2.1 hle
    rw [nsmul_eq_mul] at this
    linarith

example : profileStats (10 ^ 308) [3, 1, 2] = (2, 3, 1) := by decide +kernel

/-! ## `main` -/

/-- C93 (when the problem is solved): with the mesh of the file iff the configuration is accepted, names a
mesh file and rank 0 can read it; with the generated mesh iff it names none but has mesh generation and
resolution.  Otherwise nothing is computed, the return value is -1, and a message appears on rank 0 (file
not readable) or on all ranks (no mesh).  The return value of a run with a mesh is that of `PetscFinalize`
whether or not the solver converged. -/
theorem C93_main (parse : List Char → Bool) (cfg : Option Cfg) (sol jac conv : Bool) (fin : Int)
    (procs rank : Nat) (ht : ∀ c, cfg = some c → c.type ≠ .unknown) :
    let x := mainRank parse cfg sol jac conv fin procs rank
    (∀ f b, x.mesh = some (.file f b) ↔ ∃ c, cfg = some c ∧ c.meshFile = some f ∧ parse f = true ∧
      (b = true ↔ 1 < procs)) ∧
    (∀ h, x.mesh = some (.generated h) ↔ ∃ c, cfg = some c ∧ c.meshFile = none ∧
      c.generateMesh = true ∧ c.resolution = some h) ∧
    (∀ c, cfg = some c → x.mesh ≠ none →
      x.events = staticProblem c sol jac conv rank ∧ x.code = fin ∧ x.errors = []) ∧
    (x.mesh = none → x.events = [] ∧ x.code = -1) ∧
    (ErrLine.meshError ∈ x.errors ↔ rank = 0 ∧ ∃ c f, cfg = some c ∧ c.meshFile = some f ∧
      parse f = false) ∧
    (ErrLine.noMesh ∈ x.errors ↔ ∃ c, cfg = some c ∧ c.meshFile = none ∧
      (c.generateMesh = false ∨ c.resolution = none)) := by
  cases cfg with
  | none => simp [mainRank]
  | some c =>
    have hty := ht c rfl
    have sw : ∀ m, solveWith c m sol jac conv fin rank =
        ⟨fin, some m, staticProblem c sol jac conv rank, []⟩ := by
      intro m
      unfold solveWith
      cases h : c.type with
      | unknown => exact absurd h hty
      | _ => rfl
    simp only [mainRank, bcast, localOk, if_pos, Option.some.injEq, exists_eq_left', sw]
    cases hm : c.meshFile with
    | some f =>
      by_cases hp : parse f = true
      · simp only [hp, if_true]
        refine ⟨?_, ?_, ?_, ?_, ?_, ?_⟩
        · intro f' b
          simp only [Mesh.file.injEq, Option.some.injEq]
          constructor
          · rintro ⟨rfl, rfl⟩; exact ⟨rfl, hp, by simp⟩
          · rintro ⟨rfl, _, h⟩
            refine ⟨rfl, ?_⟩
            cases b <;> simp_all
        · simp
        · intro c' hc _; cases hc; exact ⟨rfl, trivial, trivial⟩
        · simp
        · simp [hm, hp]
        · simp
      · simp only [hp]
        refine ⟨?_, ?_, ?_, ?_, ?_, ?_⟩
        · intro f' b
          constructor
          · intro h; cases h
          · rintro ⟨h1, h2, _⟩; cases h1; exact absurd h2 hp
        · intro h; simp
        · simp
        · simp
        · by_cases hr : rank = 0 <;> simp [hr, hm, hp]
        · by_cases hr : rank = 0 <;> simp [hr]
    | none =>
      cases hg : c.generateMesh <;> cases hr : c.resolution <;> simp [hm]

/-- C93 (ranks agree on the decision). -/
theorem C93_same_decision (parse : List Char → Bool) (cfg : Option Cfg) (sol jac conv : Bool) (fin : Int)
    (procs r r' : Nat) :
    let x := mainRank parse cfg sol jac conv fin procs r
    let y := mainRank parse cfg sol jac conv fin procs r'
    x.code = y.code ∧ x.mesh = y.mesh ∧ callsOf x.events = callsOf y.events := by
  have sw : ∀ c m, (solveWith c m sol jac conv fin r).code = (solveWith c m sol jac conv fin r').code ∧
      (solveWith c m sol jac conv fin r).mesh = (solveWith c m sol jac conv fin r').mesh ∧
      callsOf (solveWith c m sol jac conv fin r).events =
        callsOf (solveWith c m sol jac conv fin r').events := by
    intro c m
    unfold solveWith
    cases c.type with
    | unknown => exact ⟨rfl, rfl, rfl⟩
    | _ => exact ⟨rfl, rfl, C93_collective c sol jac conv r r'⟩
  cases cfg with
  | none => exact ⟨rfl, rfl, rfl⟩
  | some c =>
    simp only [mainRank, bcast, localOk, if_pos]
    cases hm : c.meshFile with
    | some f =>
      by_cases hp : parse f = true
      · simp only [hp, if_true]; exact sw _ _
      · simp only [hp]; exact ⟨rfl, rfl, rfl⟩
    | none =>
      cases hg : c.generateMesh <;> cases hr : c.resolution <;> first | exact sw _ _ | exact ⟨rfl, rfl, rfl⟩

/-- C93 (weakness): a run whose solver does not converge ends with the return value of success and
without output file. -/
theorem C93_not_converged :
    ∃ c : Cfg, let x := mainRank (fun _ => true) (some c) true true false 0 1 0
      c.output ≠ none ∧ x.code = 0 ∧ (∀ f, Call.write f ∉ callsOf x.events) ∧
      Line.notConverged ∈ linesOf x.events := by
  refine ⟨⟨none, .ip, .poisson, false, false, .full, 1, 0, some ['o'], some ['m'], false⟩, by decide,
    by decide, ?_, by decide⟩
  intro f hf
  simp [mainRank, bcast, localOk, solveWith, C93_calls] at hf

end Tandem.Static
