/-!
# Model of `app/localoperator/RateAndState.h`

The blocks of `state`, `result` and `traction` are memories indexed by the position in the block; `reshape(x, nbf, q)`
addresses entry `(node, q)` at `node + q * nbf` (column-major, src/tensor/Reshape.h).  The numbers are an arbitrary type
`R` with the operations the code uses, so that NaN is covered; the friction law is a parameter.
-/
namespace Tandem.RateAndState

/-- Operations on `double` used by RateAndState.h;
app/localoperator/RateAndState.h lines 60-260. -/
structure Arith (R : Type) where
  zero : R
  add : R → R → R
  /-- `operator<`; false if an operand is NaN -/
  lt : R → R → Bool
  /-- `norm`, src/geometry/Vector.h lines 56-62 -/
  norm : List R → R

/-- What RateAndState.h needs of `Law`: `psi_init`, `slip_rate` with its error number, `state_rhs`, `S_init`, `tau_hat`, `sn_hat`
(app/localoperator/DieterichRuinaBase.h lines 51-177), each with the index of the node as first argument. -/
structure Law (R X : Type) where
  psi_init : Nat → R → List R → R
  slip_rate : Nat → Nat → R → List R → R → X → List R × Nat
  state_rhs : Nat → R → R → R
  S_init : Nat → List R
  tau_hat : Nat → List R → List R → List R
  sn_hat : Nat → R → R

/-- The operator: `nbf` basis functions per facet, `T` tangential components, node coordinates and the optional functions
(app/localoperator/RateAndState.h lines 103-106). -/
structure Op (R X : Type) where
  ar : Arith R
  law : Law R X
  nbf : Nat
  T : Nat
  coords : Nat → Nat → X
  source : Option (X → R → R)
  delta_tau : Option (X → R → List R)
  delta_sn : Option (X → R → R)

variable {R X : Type}

/-- A store to position `i` of a block (the assignments `s_mat(node, q) = …` of app/localoperator/RateAndState.h lines 109-264). -/
def write (m : Nat → R) (i : Nat) (v : R) : Nat → R := fun j => if j = i then v else m j

/-- Position of `(node, q)` in a block of `nbf` rows: `state_mat` and `traction_mat`, app/localoperator/RateAndState.h lines 69-76. -/
def pos (nbf node q : Nat) : Nat := node + q * nbf

/-- `operator+` for two vectors, src/geometry/Vector.h lines 8-15. -/
def vadd (ar : Arith R) (x y : List R) : List R := List.zipWith ar.add x y

/-- Normal stress at a node with the perturbation, app/localoperator/RateAndState.h lines 136-139, 171-174, 240-243. -/
def snAt (o : Op R X) (time : R) (faultNo : Nat) (traction : Nat → R) (node : Nat) : R :=
  match o.delta_sn with
  | some f => o.ar.add (traction (pos o.nbf node 0)) (f (o.coords faultNo node) time)
  | none => traction (pos o.nbf node 0)

/-- `get_tau` with the perturbation, app/localoperator/RateAndState.h lines 77-83, 140-143, 176-179, 244-247. -/
def tauAt (o : Op R X) (time : R) (faultNo : Nat) (traction : Nat → R) (node : Nat) : List R :=
  let tau := (List.range o.T).map (fun t => traction (pos o.nbf node (t + 1)))
  match o.delta_tau with
  | some f => vadd o.ar tau (f (o.coords faultNo node) time)
  | none => tau

/-- Writes the entries of a vector to the components `q0`, `q0 + 1`, … of a node: the loops over `t` of
app/localoperator/RateAndState.h lines 117-119, 188-190, 253-261. -/
def writeVec (m : Nat → R) (nbf node q0 : Nat) : List R → Nat → R
  | [] => m
  | v :: vs => writeVec (write m (pos nbf node q0) v) nbf node (q0 + 1) vs

/-- `pre_init`, app/localoperator/RateAndState.h lines 109-121. -/
def preInit (o : Op R X) (faultNo : Nat) (state : Nat → R) : Nat → R :=
  (List.range o.nbf).foldl (fun s node => writeVec s o.nbf node 0 ((o.law.S_init (faultNo * o.nbf + node)).take o.T)) state

/-- `std::max(VMax, V)` of app/localoperator/RateAndState.h lines 149 and 187: NaN as second argument is ignored. -/
def maxR (ar : Arith R) (a b : R) : R := if ar.lt a b then b else a

/-- `init`, app/localoperator/RateAndState.h lines 123-154: the state block, `VMax` and the error number. -/
def init (o : Op R X) (time : R) (faultNo : Nat) (traction state : Nat → R) : (Nat → R) × R × Nat :=
  (List.range o.nbf).foldl (fun acc node =>
    let sn := snAt o time faultNo traction node
    let tau := tauAt o time faultNo traction node
    let psi := o.law.psi_init (faultNo * o.nbf + node) sn tau
    let (Vi, ierr) := o.law.slip_rate (faultNo * o.nbf + node) faultNo sn tau psi (o.coords faultNo node)
    (write acc.1 (pos o.nbf node o.T) psi, maxR o.ar acc.2.1 (o.ar.norm Vi), if acc.2.2 < ierr then ierr else acc.2.2))
    (state, o.ar.zero, 0)

/-- First loop of `rhs`, app/localoperator/RateAndState.h lines 167-192. -/
def rhsLoop (o : Op R X) (time : R) (faultNo : Nat) (traction state result : Nat → R) : (Nat → R) × R × Nat :=
  (List.range o.nbf).foldl (fun acc node =>
    let sn := snAt o time faultNo traction node
    let psi := state (pos o.nbf node o.T)
    let tau := tauAt o time faultNo traction node
    let (Vi, ierr) := o.law.slip_rate (faultNo * o.nbf + node) faultNo sn tau psi (o.coords faultNo node)
    let V := o.ar.norm Vi
    (write (writeVec acc.1 o.nbf node 0 (Vi.take o.T)) (pos o.nbf node o.T) (o.law.state_rhs (faultNo * o.nbf + node) V psi),
      maxR o.ar acc.2.1 V, if acc.2.2 < ierr then ierr else acc.2.2))
    (result, o.ar.zero, 0)

/-- `rhs`, app/localoperator/RateAndState.h lines 156-204. -/
def rhs (o : Op R X) (time : R) (faultNo : Nat) (traction state result : Nat → R) : (Nat → R) × R × Nat :=
  let r := rhsLoop o time faultNo traction state result
  match o.source with
  | some f => ((List.range o.nbf).foldl (fun m node =>
      write m (pos o.nbf node o.T) (o.ar.add (m (pos o.nbf node o.T)) (f (o.coords faultNo node) time))) r.1, r.2)
  | none => r

/-- `state`, app/localoperator/RateAndState.h lines 229-264: the output block with columns state, slip, shear stress, slip rate and
normal stress. -/
def stateOut (o : Op R X) (time : R) (faultNo : Nat) (traction state result : Nat → R) : Nat → R :=
  (List.range o.nbf).foldl (fun m node =>
    let sn := snAt o time faultNo traction node
    let tau := tauAt o time faultNo traction node
    let psi := state (pos o.nbf node o.T)
    let V := (o.law.slip_rate (faultNo * o.nbf + node) faultNo sn tau psi (o.coords faultNo node)).1
    let tauHat := o.law.tau_hat (faultNo * o.nbf + node) tau V
    let m := write m (pos o.nbf node 0) psi
    let m := writeVec m o.nbf node 1 ((List.range o.T).map (fun t => state (pos o.nbf node t)))
    let m := writeVec m o.nbf node (1 + o.T) (tauHat.take o.T)
    let m := writeVec m o.nbf node (1 + 2 * o.T) (V.take o.T)
    write m (pos o.nbf node (1 + 3 * o.T)) (o.law.sn_hat (faultNo * o.nbf + node) sn)) result

/-- Names of the output columns: `state_prototype`, app/localoperator/RateAndState.h lines 206-227. -/
def stateNames (T : Nat) : List String :=
  ["state"] ++ (List.range T).map (fun t => s!"slip{t}") ++ (List.range T).map (fun t => s!"traction{t}") ++
    (List.range T).map (fun t => s!"slip-rate{t}") ++ ["normal-stress"]

end Tandem.RateAndState
