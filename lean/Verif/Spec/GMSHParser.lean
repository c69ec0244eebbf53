import Verif.Model.GMSHParser
/-!
# The content of an MSH 2 file, its tokens, and what a reader must deliver
-/
namespace Tandem.Spec
open Tandem.GMSHLexer Tandem.GMSHParser

/-- A number as a token. -/
def numTok : Num → Tok
  | .int v => .integer v
  | .real t => .real t

/-- One line of `$Nodes`: number and three coordinates. -/
structure MshNode where
  id : Int
  x : Num
  y : Num
  z : Num

/-- One line of `$Elements`. -/
structure MshElem where
  number : Int
  type : Int
  tags : List Int
  nodes : List Int

/-- Sections of the file after the header; `other` is any token that does not start one of the two
sections. -/
inductive MshItem where
  | nodes (l : List MshNode)
  | elements (l : List MshElem)
  | other (t : Tok)

/-- Tokens of a node line. -/
def MshNode.toks (n : MshNode) : List Tok := [.integer n.id, numTok n.x, numTok n.y, numTok n.z]

/-- Tokens of an element line. -/
def MshElem.toks (e : MshElem) : List Tok :=
  [.integer e.number, .integer e.type, .integer e.tags.length] ++ e.tags.map Tok.integer ++
    e.nodes.map Tok.integer

/-- Tokens of a section. -/
def MshItem.toks : MshItem → List Tok
  | .nodes l => [.nodes, .integer l.length] ++ l.flatMap MshNode.toks ++ [.endNodes]
  | .elements l => [.elements, .integer l.length] ++ l.flatMap MshElem.toks ++ [.endElements]
  | .other t => [t]

/-- A well-formed element line: a known element type with the right number of nodes, positive node
numbers, and at least one tag. -/
def MshElem.Ok (e : MshElem) : Prop :=
  1 ≤ e.type ∧ e.type ≤ 128 ∧ e.nodes.length = numNodes.getD (e.type - 1).toNat 0 ∧
    (∀ v ∈ e.nodes, 1 ≤ v) ∧ e.tags ≠ []

/-- A well-formed section. -/
def MshItem.Ok : MshItem → Prop
  | .nodes l => ∀ n ∈ l, 1 ≤ n.id ∧ n.id ≤ l.length
  | .elements l => ∀ e ∈ l, e.Ok
  | .other t => t ≠ .nodes ∧ t ≠ .elements ∧ t ≠ .eof

/-- What the builder must be told about a section: zero-based vertex ids, the first tag of each
element, zero-based node ids. -/
def MshItem.calls : MshItem → List Call
  | .nodes l => .setNumVertices l.length :: l.map (fun n => .setVertex (n.id - 1) [n.x, n.y, n.z])
  | .elements l => .setNumElements l.length ::
      l.map (fun e => .addElement e.type (e.tags.headD 0) (e.nodes.map (· - 1)))
  | .other _ => []

/-- Tokens of the header section. -/
def header (version : Num) (dataSize : Tok) : List Tok :=
  [.meshFormat, numTok version, .integer 0, dataSize, .endMeshFormat]

/-- Does the file have a node (element) section? -/
def hasNodes (l : List MshItem) : Bool := l.any (fun i => match i with | .nodes _ => true | _ => false)
/-- See `hasNodes`. -/
def hasElements (l : List MshItem) : Bool :=
  l.any (fun i => match i with | .elements _ => true | _ => false)

end Tandem.Spec
