import Verif.Model.SeasRun
import Verif.Spec.SeasOp
/-! # Specification of the run of the program tandem (C100) -/
namespace Tandem.Spec
open Tandem.SeasRun

variable {K U S R M B : Type}

/-- Time, displacement and fault state of the last evaluation of the right-hand side in a history. -/
def lastEval : List (Event K U S) → Option (K × U × S)
  | [] => none
  | e :: es =>
    match lastEval es with
    | some x => some x
    | none => match e with
      | .rhs t _ u s => some (t, u, s)
      | .monitor _ _ _ _ => none

/-- Data written at time `t` with velocity `v`, displacement `u` and fault state `s`, whose traction, slip rate
and moment rate are those of `(t', u', s')`. -/
def WrittenWith (P : Physics K U S R M B) (t : K) (v u : U) (s : S) (t' : K) (u' : U) (s' : S) :
    Payload K U B M → Prop
  | .scalar V => V = P.vmax t' (P.trac u' s') s'
  | .fault b => b = P.fault t (P.trac u' s') s
  | .volume fs => fs.map Prod.snd = [v, u]
  | .moment m => m = P.moment t' (P.trac u' s') s'

/-- The level that data belong to. -/
def fdKindOfData : Payload K U B M → Tandem.Monitor.Level
  | .scalar _ => .scalar
  | .fault _ => .boundary
  | .volume _ => .volume
  | .moment _ => .momentRate

/-- The monitor calls of a history with their times and the maximum slip rate of the last evaluation before (`V` before
the first evaluation). -/
def fdCalls (P : Physics K U S R M B) : K → List (Event K U S) → List (K × K)
  | _, [] => []
  | _, .rhs t _ u s :: es => fdCalls P (P.vmax t (P.trac u s) s) es
  | V, .monitor t _ _ _ :: es => (t, V) :: fdCalls P V es

/-- First-same-as-last: every monitor call is for the time, displacement and fault state of the last
evaluation of the right-hand side (or of the initial condition), `cur`. -/
def FDFirstSameAsLast (cur : K × U × S) : List (Event K U S) → Prop
  | [] => True
  | .rhs t _ u s :: es => FDFirstSameAsLast (t, u, s) es
  | .monitor t _ u s :: es => (t, u, s) = cur ∧ FDFirstSameAsLast cur es

/-- Data that belong to the time and state they are written for, except moment rates. -/
def FDCurrent (P : Physics K U S R M B) (t : K) (v u : U) (s : S) : Payload K U B M → Prop
  | .moment _ => True
  | d => WrittenWith P t v u s t u s d

/-- `e` is a list of the elements of the mesh, each once. -/
def ListsElements (P : Nat) (elems : Nat → List (List Nat)) (l : List (List Nat)) : Prop :=
  l.Nodup ∧ ∀ e, e ∈ l ↔ InElems P elems e

/-- `l` lists the facets of the mesh with tag `bc`, each once. -/
def ListsFacets (P : Nat) (elems : Nat → List (List Nat)) (tag : List Nat → Nat) (bc : Nat)
    (l : List (List Nat)) : Prop :=
  l.Nodup ∧ ∀ f, f ∈ l ↔ (∃ e, InElems P elems e ∧ IsFacet e f) ∧ tag f = bc

/-- `h` is the largest distance of two corners of an element. -/
def IsMeshSize {X : Type} [LE K] (P : Nat) (elems : Nat → List (List Nat)) (pos : Nat → X)
    (dist : X → X → K) (h : K) : Prop :=
  (∀ e, InElems P elems e → ∀ a ∈ e, ∀ b ∈ e, dist (pos a) (pos b) ≤ h) ∧
  ∃ e, InElems P elems e ∧ ∃ a ∈ e, ∃ b ∈ e, dist (pos a) (pos b) = h

/-- The operations of a history. -/
def seasCalls : List (Ev K) → List (Call K)
  | [] => []
  | .call c :: l => c :: seasCalls l
  | .print _ :: l => seasCalls l

/-- The lines printed in a history. -/
def seasLines : List (Ev K) → List Line
  | [] => []
  | .call _ :: l => seasLines l
  | .print x :: l => x :: seasLines l

end Tandem.Spec
