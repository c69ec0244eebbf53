import Mathlib.Data.List.Basic
/-!
# Model of `src/script/LuaLib.h`: calls from the program into the Lua script

The Lua interpreter is a parameter: what a global variable or a field is, what calling a value does
(it may change the state of the script, return values or raise an error), and which strings Lua
converts to numbers.  The C API keeps a stack of values; the model has it as a list with the top
first.  `lua_getglobal` and `lua_getfield` are taken to raise no error (they can if the script defines
metamethods that do).
-/
namespace Tandem.Lua

/-- A Lua value; `N` is the type of numbers (`double`).
The values seen in src/script/LuaLib.h lines 30-160. -/
inductive Val (N : Type) where
  | nil
  | bool (b : Bool)
  | number (x : N)
  | integer (i : Int)
  | string (s : String)
  | table (id : Nat)
  | function (id : Nat)

/-- The interpreter (see the head of the file): the Lua library, used by src/script/LuaLib.h.
Its functions are called in src/script/LuaLib.h lines 30-160. -/
structure Interp (N σ : Type) where
  global : σ → String → Val N
  field : σ → Val N → String → Val N
  call : σ → Val N → List (Val N) → σ × Except (Val N) (List (Val N))
  ofInt : Int → N
  ofString : String → Option N

/-- `lua_State`, as far as src/script/LuaLib.h sees it: the script and the stack.
Member `L`, used in src/script/LuaLib.h lines 33, 75, 115. -/
structure State (N σ : Type) where
  script : σ
  stack : List (Val N)

/-- The exceptions thrown in src/script/LuaLib.h: lines 65, 83, 125, 170 (not a table), lines 46, 95,
147 (error of the script), lines 53, 103, 156, 176 (not a number, with the number of the result). -/
inductive Error (N : Type) where
  | notATable
  | script (message : Val N)
  | notANumber (d : Nat)

variable {N σ : Type}

/-- `lua_tonumber` and `lua_isnumber` of the Lua library: numbers, and strings that can be converted;
used in src/script/LuaLib.h lines 50, 55, 99, 105, 152, 158, 173, 178. -/
def toNumber (I : Interp N σ) : Val N → Option N
  | .number x => some x
  | .integer i => some (I.ofInt i)
  | .string s => I.ofString s
  | _ => none

/-- `lua_istable`, src/script/LuaLib.h lines 64, 82, 124, 169. -/
def isTable : Val N → Bool
  | .table _ => true
  | _ => false

/-- `lua_isnil`, src/script/LuaLib.h line 68. -/
def isNil : Val N → Bool
  | .nil => true
  | _ => false

/-- `lua_push...`, src/script/LuaLib.h lines 40, 88, 134, 138. -/
def push (L : State N σ) (v : Val N) : State N σ := ⟨L.script, v :: L.stack⟩

/-- `lua_getglobal`, src/script/LuaLib.h lines 38, 63, 81, 123, 168. -/
def getGlobal (I : Interp N σ) (L : State N σ) (name : String) : State N σ :=
  push L (I.global L.script name)

/-- The value at index `-(k+1)`, counted from the top of the stack (Lua library).
The indices used in src/script/LuaLib.h lines 45-70 and 94-105. -/
def at_ (L : State N σ) (k : Nat) : Val N := L.stack.getD k .nil

/-- `lua_getfield(L, -1, name)`, src/script/LuaLib.h lines 67, 85, 129, 172. -/
def getField (I : Interp N σ) (L : State N σ) (name : String) : State N σ :=
  push L (I.field L.script (at_ L 0) name)

/-- `lua_insert(L, -2)`: moves the top below the value under it, src/script/LuaLib.h lines 86, 130. -/
def insert2 (L : State N σ) : State N σ :=
  match L.stack with
  | a :: b :: rest => ⟨L.script, b :: a :: rest⟩
  | st => ⟨L.script, st⟩

/-- `lua_pop`, src/script/LuaLib.h lines 57, 69, 107, 162, 179. -/
def pop (L : State N σ) (n : Nat) : State N σ := ⟨L.script, L.stack.drop n⟩

/-- `lua_pcall` adjusts the number of results: missing ones are `nil` (Lua library), used in
src/script/LuaLib.h lines 42, 90, 142. -/
def adjust (n : Nat) (rs : List (Val N)) : List (Val N) :=
  (List.range n).map fun d => rs.getD d .nil

/-- `lua_pcall(L, nargs, nresults, 0)`: takes the arguments and the function off the stack; pushes the
results in order, or the error message (Lua library), used in src/script/LuaLib.h lines 42, 90, 142.
The Boolean is the return value `error`. -/
def pcall (I : Interp N σ) (L : State N σ) (nargs nresults : Nat) : State N σ × Bool :=
  let args := (L.stack.take nargs).reverse
  let f := at_ L nargs
  let rest := L.stack.drop (nargs + 1)
  match I.call L.script f args with
  | (s, .ok rs) => (⟨s, (adjust nresults rs).reverse ++ rest⟩, false)
  | (s, .error e) => (⟨s, e :: rest⟩, true)

/-- The loop that pushes the coordinates, src/script/LuaLib.h lines 39-41, 87-89, 133-135. -/
def pushAll (L : State N σ) (x : List N) : State N σ := x.foldl (fun L v => push L (.number v)) L

/-- The loop that reads the results from the indices `d - Dout`, src/script/LuaLib.h lines 49-56,
98-106, 151-159. -/
def readResults (I : Interp N σ) (L : State N σ) (Dout : Nat) : Nat → List N → Except (Error N) (List N)
  | 0, acc => .ok acc
  | n + 1, acc =>
    let d := Dout - (n + 1)
    match toNumber I (at_ L (Dout - d - 1)) with
    | none => .error (.notANumber d)
    | some v => readResults I L Dout n (acc ++ [v])

/-- Call, test for errors, read and pop the results: src/script/LuaLib.h lines 42-58, 90-108,
141-163. -/
def finish (I : Interp N σ) (L : State N σ) (nargs Dout : Nat) : State N σ × Except (Error N) (List N) :=
  match pcall I L nargs Dout with
  | (L', true) => (L', .error (.script (at_ L' 0)))
  | (L', false) =>
    match readResults I L' Dout Dout [] with
    | .error e => (L', .error e)
    | .ok r => (pop L' Dout, .ok r)

/-- `getFunction<Din, Dout>(name)(x)`, src/script/LuaLib.h lines 32-60. -/
def callFunction (I : Interp N σ) (name : String) (Din Dout : Nat) (x : List N) (L : State N σ) :
    State N σ × Except (Error N) (List N) :=
  finish I (pushAll (getGlobal I L name) x) Din Dout

/-- `hasMember`, src/script/LuaLib.h lines 62-71. -/
def hasMember (I : Interp N σ) (table name : String) (L : State N σ) : State N σ × Except (Error N) Bool :=
  let L1 := getGlobal I L table
  if isTable (at_ L1 0) then
    let L2 := getField I L1 name
    (pop L2 2, .ok (!isNil (at_ L2 0)))
  else (L1, .error .notATable)

/-- `getMemberFunction<Din, Dout>(table, method)(x)`, src/script/LuaLib.h lines 73-110. -/
def callMember (I : Interp N σ) (table method : String) (Din Dout : Nat) (x : List N) (L : State N σ) :
    State N σ × Except (Error N) (List N) :=
  let L1 := getGlobal I L table
  if isTable (at_ L1 0) then
    finish I (pushAll (insert2 (getField I L1 method)) x) (1 + Din) Dout
  else (L1, .error .notATable)

/-- `getMemberFunctionTagged<Din, Dout>(table, method)(x, tag)`, src/script/LuaLib.h lines 112-165. -/
def callMemberTagged (I : Interp N σ) (table method : String) (Din Dout : Nat) (x : List N) (tag : Int)
    (L : State N σ) : State N σ × Except (Error N) (List N) :=
  let L1 := getGlobal I L table
  if isTable (at_ L1 0) then
    finish I (push (pushAll (insert2 (getField I L1 method)) x) (.integer tag)) (1 + Din + 1) Dout
  else (L1, .error .notATable)

/-- `getMemberConstant`, src/script/LuaLib.h lines 167-181. -/
def memberConstant (I : Interp N σ) (table name : String) (L : State N σ) : State N σ × Except (Error N) N :=
  let L1 := getGlobal I L table
  if isTable (at_ L1 0) then
    let L2 := getField I L1 name
    match toNumber I (at_ L2 0) with
    | none => (L2, .error (.notANumber 0))
    | some v => (pop L2 2, .ok v)
  else (L1, .error .notATable)

end Tandem.Lua
