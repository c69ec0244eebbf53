import Verif.Spec.Lua
import Mathlib.Data.List.GetD
import Mathlib.Order.Basic
/-! # C52: calls into the Lua script -/
namespace Tandem.Lua
variable {N σ : Type}

theorem pushAll_eq (L : State N σ) (x : List N) :
    pushAll L x = ⟨L.script, (x.map Val.number).reverse ++ L.stack⟩ := by
  induction x generalizing L with
  | nil => rfl
  | cons v x ih =>
    unfold pushAll
    rw [List.foldl_cons]
    have := ih (push L (.number v))
    unfold pushAll at this
    rw [this]
    simp [push]

theorem adjust_length (n : ℕ) (rs : List (Val N)) : (adjust n rs).length = n := by simp [adjust]

/-- Reading the results off the stack. -/
theorem readResults_spec (I : Interp N σ) (s : σ) (rs rest : List (Val N)) (Dout : ℕ) :
    ∀ n acc, n ≤ Dout → acc.length = Dout - n →
      (∀ d, (h : d < acc.length) → toNumber I (rs.getD d .nil) = some acc[d]) →
      (∃ v : List N, v.length = Dout ∧ readResults I ⟨s, (adjust Dout rs).reverse ++ rest⟩ Dout n acc = .ok v ∧
        ∀ d, (h : d < v.length) → toNumber I (rs.getD d .nil) = some v[d]) ∨
      (∃ d < Dout, toNumber I (rs.getD d .nil) = none ∧ (∀ d' < d, toNumber I (rs.getD d' .nil) ≠ none) ∧
        readResults I ⟨s, (adjust Dout rs).reverse ++ rest⟩ Dout n acc = .error (.notANumber d)) := by
  intro n
  induction n with
  | zero =>
    intro acc hn hl hacc
    exact Or.inl ⟨acc, by omega, rfl, hacc⟩
  | succ n ih =>
    intro acc hn hl hacc
    have hat : at_ (σ := σ) ⟨s, (adjust Dout rs).reverse ++ rest⟩ (Dout - (Dout - (n + 1)) - 1)
        = rs.getD (Dout - (n + 1)) .nil := by
      have e : Dout - (Dout - (n + 1)) - 1 = n := by omega
      have h1 : n < (adjust Dout rs).reverse.length := by rw [List.length_reverse, adjust_length]; omega
      unfold at_
      simp only
      rw [e, List.getD_append _ _ _ _ h1, List.getD_eq_getElem _ _ h1, List.getElem_reverse]
      simp only [adjust, List.getElem_map, List.getElem_range, List.length_map, List.length_range]
      congr 1; omega
    unfold readResults
    simp only [hat]
    cases ht : toNumber I (rs.getD (Dout - (n + 1)) .nil) with
    | none =>
      refine Or.inr ⟨Dout - (n + 1), by omega, ht, fun d' hd' => ?_, rfl⟩
      rw [hacc d' (by omega)]; simp
    | some v =>
      simp only
      refine ih (acc ++ [v]) (by omega) (by simp; omega) fun d h => ?_
      rcases Nat.lt_or_ge d acc.length with hd | hd
      · rw [List.getElem_append_left hd]; exact hacc d hd
      · have : d = acc.length := by simp at h; omega
        subst this
        have e : toNumber I (rs.getD acc.length .nil) = some v := by rw [← ht, hl]
        rw [e]; simp

theorem countsAs_iff (I : Interp N σ) (v : Val N) (x : N) : Spec.CountsAs I v x ↔ toNumber I v = some x := by
  unfold Spec.CountsAs
  cases v <;> simp [toNumber, eq_comm]

theorem isTable_iff (v : Val N) : Spec.IsTable v ↔ isTable v = true := by
  unfold Spec.IsTable
  cases v <;> simp [isTable]

theorem not_isTable_iff (v : Val N) : ¬Spec.IsTable v ↔ isTable v = false := by
  rw [isTable_iff]; simp

/-- The call with the function and its arguments on top of the stack. -/
theorem finish_spec (I : Interp N σ) (s : σ) (f : Val N) (args rest : List (Val N)) (Dout : ℕ) :
    let r := finish I ⟨s, args.reverse ++ f :: rest⟩ args.length Dout
    Spec.LuaCall I s f args Dout r.1.script r.2 ∧
      (r.2.isOk = true → r.1.stack = rest) ∧
      (∀ m, r.2 = .error (.script m) → r.1.stack.length = rest.length + 1) ∧
      (∀ d, r.2 = .error (.notANumber d) → r.1.stack.length = rest.length + Dout) := by
  intro r
  have h1 : ((args.reverse ++ f :: rest).take args.length).reverse = args := by
    rw [List.take_left' (by simp), List.reverse_reverse]
  have h2 : (args.reverse ++ f :: rest).getD args.length .nil = f := by
    rw [List.getD_append_right _ _ _ _ (by simp)]; simp
  have h3 : (args.reverse ++ f :: rest).drop (args.length + 1) = rest := by
    rw [show args.reverse ++ f :: rest = (args.reverse ++ [f]) ++ rest by simp, List.drop_left' (by simp)]
  have hr : r = finish I ⟨s, args.reverse ++ f :: rest⟩ args.length Dout := rfl
  unfold finish pcall at hr
  simp only [at_, h1, h2, h3] at hr
  unfold Spec.LuaCall
  simp only [countsAs_iff]
  rcases hc : I.call s f args with ⟨s', res⟩
  rw [hc] at hr
  cases res with
  | error e =>
    simp only at hr
    rw [hr]
    refine ⟨⟨rfl, rfl⟩, by simp [Except.isOk, Except.toBool], by simp, by simp⟩
  | ok rs =>
    simp only at hr
    rcases readResults_spec I s' rs rest Dout Dout [] (Nat.le_refl _) (by simp) (by simp) with
      ⟨v, hv, hok, hd⟩ | ⟨d, hd, hn, hb, herr⟩
    · rw [hok] at hr
      rw [hr]
      refine ⟨⟨rfl, Or.inl ⟨v, hv, rfl, hd⟩⟩, fun _ => ?_, by simp, by simp⟩
      simp only [pop]
      exact List.drop_left' (by simp [adjust_length])
    · rw [herr] at hr
      rw [hr]
      refine ⟨⟨rfl, Or.inr ⟨d, hd, by rw [hn]; simp, fun d' hd' => Option.ne_none_iff_exists'.1 (hb d' hd'), rfl⟩⟩,
        by simp [Except.isOk, Except.toBool], by simp, fun d' _ => ?_⟩
      simp [adjust_length]; omega

/-- C52 (global function): calling a global function with `Din` numbers passes exactly these, in order,
and returns its first `Dout` results; afterwards the stack is as before, if there is no error.  This
holds whatever is on the stack (also after earlier errors). -/
theorem C52_function (I : Interp N σ) (name : String) (Din Dout : ℕ) (x : List N) (hx : x.length = Din)
    (L : State N σ) :
    let r := callFunction I name Din Dout x L
    Spec.LuaCall I L.script (I.global L.script name) (x.map Val.number) Dout r.1.script r.2 ∧
      (r.2.isOk = true → r.1.stack = L.stack) := by
  have := finish_spec I L.script (I.global L.script name) (x.map Val.number) L.stack Dout
  unfold callFunction
  rw [pushAll_eq]
  simp only [List.length_map, hx] at this
  exact ⟨this.1, this.2.1⟩

/-- The stack before a method is called. -/
theorem member_stack (I : Interp N σ) (table method : String) (L : State N σ) :
    insert2 (getField I (getGlobal I L table) method)
      = ⟨L.script, I.global L.script table :: I.field L.script (I.global L.script table) method :: L.stack⟩ := rfl

/-- C52 (method): calling a method of a table passes the table itself, then the numbers, in order, and
returns the first `Dout` results; afterwards the stack is as before, if there is no error.  If the
global variable is not a table, nothing is called and the error says so. -/
theorem C52_method (I : Interp N σ) (table method : String) (Din Dout : ℕ) (x : List N) (hx : x.length = Din)
    (L : State N σ) :
    let r := callMember I table method Din Dout x L
    let t := I.global L.script table
    (Spec.IsTable t → Spec.LuaCall I L.script (I.field L.script t method) (t :: x.map Val.number) Dout r.1.script r.2) ∧
    (¬Spec.IsTable t → r.1.script = L.script ∧ r.2 = .error .notATable) ∧
    (r.2.isOk = true → r.1.stack = L.stack) := by
  intro r t
  have hr : r = callMember I table method Din Dout x L := rfl
  simp only [isTable_iff, Bool.not_eq_true]
  unfold callMember at hr
  have ht : at_ (getGlobal I L table) 0 = t := rfl
  simp only [ht] at hr
  cases hT : isTable t with
  | false =>
    rw [hT, if_neg (by simp)] at hr
    rw [hr]
    exact ⟨by simp, fun _ => ⟨rfl, rfl⟩, by simp [Except.isOk, Except.toBool]⟩
  | true =>
    rw [hT, if_pos rfl, member_stack, pushAll_eq] at hr
    have := finish_spec I L.script (I.field L.script t method) (t :: x.map Val.number) L.stack Dout
    simp only [List.length_cons, List.length_map, hx, Nat.add_comm Din 1, List.reverse_cons, List.append_assoc,
      List.singleton_append] at this
    rw [hr]
    exact ⟨fun _ => this.1, by simp, this.2.1⟩

/-- C52 (method with tag): as `C52_method`; the tag of the region is the last argument. -/
theorem C52_method_tagged (I : Interp N σ) (table method : String) (Din Dout : ℕ) (x : List N) (hx : x.length = Din)
    (tag : Int) (L : State N σ) :
    let r := callMemberTagged I table method Din Dout x tag L
    let t := I.global L.script table
    (Spec.IsTable t → Spec.LuaCall I L.script (I.field L.script t method)
      (t :: x.map Val.number ++ [.integer tag]) Dout r.1.script r.2) ∧
    (¬Spec.IsTable t → r.1.script = L.script ∧ r.2 = .error .notATable) ∧
    (r.2.isOk = true → r.1.stack = L.stack) := by
  intro r t
  have hr : r = callMemberTagged I table method Din Dout x tag L := rfl
  simp only [isTable_iff, Bool.not_eq_true]
  unfold callMemberTagged at hr
  have ht : at_ (getGlobal I L table) 0 = t := rfl
  simp only [ht] at hr
  cases hT : isTable t with
  | false =>
    rw [hT, if_neg (by simp)] at hr
    rw [hr]
    exact ⟨by simp, fun _ => ⟨rfl, rfl⟩, by simp [Except.isOk, Except.toBool]⟩
  | true =>
    rw [hT, if_pos rfl, member_stack, pushAll_eq] at hr
    have := finish_spec I L.script (I.field L.script t method) (t :: x.map Val.number ++ [.integer tag]) L.stack Dout
    simp only [List.length_cons, List.length_map, hx, List.length_append, List.length_nil, List.reverse_cons,
      List.reverse_append, List.append_assoc, List.singleton_append, List.cons_append, List.nil_append,
      List.reverse_nil] at this
    simp only [push, List.cons_append] at hr
    rw [show 1 + Din + 1 = Din + (0 + 1) + 1 by omega] at hr
    rw [hr]
    exact ⟨fun _ => this.1, by simp, this.2.1⟩

/-- C52 (members): `hasMember` tells whether the field of the table is not `nil` (a field that is
`false` counts as present); it changes neither the script nor the stack, and needs a table. -/
theorem C52_hasMember (I : Interp N σ) (table name : String) (L : State N σ) :
    let r := hasMember I table name L
    let t := I.global L.script table
    r.1.script = L.script ∧
    (Spec.IsTable t → r.1.stack = L.stack ∧ ∃ b, r.2 = .ok b ∧ (b = true ↔ I.field L.script t name ≠ .nil)) ∧
    (¬Spec.IsTable t → r.2 = .error .notATable) := by
  intro r t
  have hr : r = hasMember I table name L := rfl
  simp only [isTable_iff, Bool.not_eq_true]
  unfold hasMember at hr
  have ht : at_ (getGlobal I L table) 0 = t := rfl
  simp only [ht] at hr
  cases hT : isTable t with
  | false =>
    rw [hT, if_neg (by simp)] at hr
    rw [hr]
    exact ⟨rfl, by simp, fun _ => rfl⟩
  | true =>
    rw [hT, if_pos rfl] at hr
    rw [hr]
    refine ⟨rfl, fun _ => ⟨rfl, _, rfl, ?_⟩, by simp⟩
    have : at_ (getField I (getGlobal I L table) name) 0 = I.field L.script t name := rfl
    rw [this]
    cases I.field L.script t name <;> simp [isNil]

/-- C52 (constants): `getMemberConstant` returns the number in the field of the table, and restores the
stack. -/
theorem C52_constant (I : Interp N σ) (table name : String) (L : State N σ) :
    let r := memberConstant I table name L
    let t := I.global L.script table
    r.1.script = L.script ∧
    (∀ v, r.2 = .ok v ↔ Spec.IsTable t ∧ Spec.CountsAs I (I.field L.script t name) v) ∧
    (r.2.isOk = true → r.1.stack = L.stack) := by
  intro r t
  have hr : r = memberConstant I table name L := rfl
  simp only [isTable_iff, countsAs_iff]
  unfold memberConstant at hr
  have ht : at_ (getGlobal I L table) 0 = t := rfl
  have ht2 : at_ (getField I (getGlobal I L table) name) 0 = I.field L.script t name := rfl
  simp only [ht, ht2] at hr
  cases hT : isTable t with
  | false =>
    rw [hT, if_neg (by simp)] at hr
    rw [hr]
    exact ⟨rfl, by simp, by simp [Except.isOk, Except.toBool]⟩
  | true =>
    rw [hT, if_pos rfl] at hr
    cases hn : toNumber I (I.field L.script t name) with
    | none =>
      rw [hn] at hr
      rw [hr]
      exact ⟨rfl, by simp, by simp [Except.isOk, Except.toBool]⟩
    | some v =>
      rw [hn] at hr
      rw [hr]
      exact ⟨rfl, by simp, fun _ => rfl⟩

/-- A request of the program to the script. -/
inductive Request (N : Type) where
  | function (name : String) (Dout : ℕ) (x : List N)
  | method (table name : String) (Dout : ℕ) (x : List N)
  | tagged (table name : String) (Dout : ℕ) (x : List N) (tag : Int)
  | has (table name : String)
  | constant (table name : String)

/-- Carry out a request: the state afterwards, and whether it succeeded. -/
def Request.run (I : Interp N σ) (L : State N σ) : Request N → State N σ × Bool
  | .function name Dout x => ((callFunction I name x.length Dout x L).1, (callFunction I name x.length Dout x L).2.isOk)
  | .method t name Dout x => ((callMember I t name x.length Dout x L).1, (callMember I t name x.length Dout x L).2.isOk)
  | .tagged t name Dout x tag =>
    ((callMemberTagged I t name x.length Dout x tag L).1, (callMemberTagged I t name x.length Dout x tag L).2.isOk)
  | .has t name => ((hasMember I t name L).1, (hasMember I t name L).2.isOk)
  | .constant t name => ((memberConstant I t name L).1, (memberConstant I t name L).2.isOk)

/-- Carry out requests one after the other. -/
def runAll (I : Interp N σ) (L : State N σ) : List (Request N) → State N σ × Bool
  | [] => (L, true)
  | r :: rs => ((runAll I (r.run I L).1 rs).1, (r.run I L).2 && (runAll I (r.run I L).1 rs).2)

/-- C52 (history): after any sequence of requests that all succeed, the stack is as it was at the
start: it does not grow however long the program runs. -/
theorem C52_history (I : Interp N σ) (rs : List (Request N)) (L : State N σ) (h : (runAll I L rs).2 = true) :
    (runAll I L rs).1.stack = L.stack := by
  induction rs generalizing L with
  | nil => rfl
  | cons r rs ih =>
    simp only [runAll, Bool.and_eq_true] at h ⊢
    rw [ih _ h.2]
    have h1 := h.1
    cases r with
    | function name Dout x => exact (C52_function I name _ Dout x rfl L).2 h1
    | method t name Dout x => exact (C52_method I t name _ Dout x rfl L).2.2 h1
    | tagged t name Dout x tag => exact (C52_method_tagged I t name _ Dout x rfl tag L).2.2 h1
    | has t name =>
      have := C52_hasMember I t name L
      simp only [Request.run] at h1 ⊢
      cases hT : isTable (I.global L.script t) with
      | true => exact (this.2.1 ((isTable_iff _).2 hT)).1
      | false =>
        rw [this.2.2 ((not_isTable_iff _).2 hT)] at h1
        simp [Except.isOk, Except.toBool] at h1
    | constant t name => exact (C52_constant I t name L).2.2 h1

/-- C52 (errors leak): an error leaves values on the stack: one for an error of the script, `Dout` if a
result is not a number, one if the global variable is not a table.  (The program does not remove them;
it does not go on after such an error.) -/
theorem C52_errors_leak (I : Interp N σ) (table method : String) (Din Dout : ℕ) (x : List N)
    (hx : x.length = Din) (L : State N σ) :
    let r := callMember I table method Din Dout x L
    (∀ m, r.2 = .error (.script m) → r.1.stack.length = L.stack.length + 1) ∧
    (∀ d, r.2 = .error (.notANumber d) → r.1.stack.length = L.stack.length + Dout) ∧
    (r.2 = .error .notATable → r.1.stack.length = L.stack.length + 1) := by
  intro r
  have hr : r = callMember I table method Din Dout x L := rfl
  unfold callMember at hr
  have ht : at_ (getGlobal I L table) 0 = I.global L.script table := rfl
  simp only [ht] at hr
  cases hT : isTable (I.global L.script table) with
  | false =>
    rw [hT, if_neg (by simp)] at hr
    rw [hr]
    refine ⟨by simp, by simp, fun _ => ?_⟩
    simp [getGlobal, push]
  | true =>
    rw [hT, if_pos rfl, member_stack, pushAll_eq] at hr
    have := finish_spec I L.script (I.field L.script (I.global L.script table) method)
      (I.global L.script table :: x.map Val.number) L.stack Dout
    simp only [List.length_cons, List.length_map, hx, Nat.add_comm Din 1, List.reverse_cons, List.append_assoc,
      List.singleton_append] at this
    rw [hr]
    refine ⟨this.2.2.1, this.2.2.2, fun h => ?_⟩
    have hs := this.1.2
    rw [h] at hs
    cases hc : (I.call L.script (I.field L.script (I.global L.script table) method)
        (I.global L.script table :: x.map Val.number)).2 with
    | error e => rw [hc] at hs; simp at hs
    | ok rs =>
      rw [hc] at hs
      rcases hs with ⟨_, _, h2, _⟩ | ⟨_, _, _, _, h2⟩ <;> simp at h2

/-- A script with a table `tandem` that has a method `add` (sum of the coordinates and the negative of
the first one) and a field `V0` that holds the string "7"; it counts the calls. -/
def sample : Interp Int Nat where
  global _ name := if name = "tandem" then .table 0 else .nil
  field _ v name := match v with
    | .table _ => if name = "add" then .function 1 else if name = "V0" then .string "7" else .nil
    | _ => .nil
  call s f args := match f, args with
    | .function 1, [.table 0, .number a, .number b] => (s + 1, .ok [.number (a + b), .number (-a), .nil])
    | _, _ => (s, .error (.string "attempt to call a nil value"))
  ofInt := id
  ofString s := if s = "7" then some 7 else none

/-- The hypotheses are met, and the results are the expected ones. -/
example : (callMember sample "tandem" "add" 2 2 [3, 4] ⟨0, [.nil]⟩) = (⟨1, [.nil]⟩, .ok [7, -3]) := rfl
example : (callMember sample "tandem" "add" 2 3 [3, 4] ⟨0, []⟩).2 = .error (.notANumber 2) := rfl
example : (callMember sample "tandem" "sub" 2 2 [3, 4] ⟨0, []⟩).2
    = .error (.script (.string "attempt to call a nil value")) := rfl
example : (callMember sample "other" "add" 2 2 [3, 4] ⟨0, []⟩).2 = .error .notATable := rfl
example : (memberConstant sample "tandem" "V0" ⟨0, []⟩) = (⟨0, []⟩, .ok 7) := rfl
example : (runAll sample ⟨0, [.nil]⟩ [.has "tandem" "add", .method "tandem" "add" 1 [1, 2], .constant "tandem" "V0"])
    = (⟨1, [.nil]⟩, true) := rfl

end Tandem.Lua
