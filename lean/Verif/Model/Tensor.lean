/-!
# Model of `src/tensor/Tensor.h`, `TensorBase.h`, `Reshape.h`

A tensor object is a view: base position of `data_`, `shape_`, `stride_`.  Positions, extents and
strides are natural numbers (`std::ptrdiff_t` without overflow).  Memory is a function from positions
to values.
-/
namespace Tandem.Tensor

/-- `data_`, `shape_`, `stride_`, src/tensor/TensorBase.h line 39, src/tensor/Tensor.h lines 162-163,
and the template parameter `Packed`, line 20. -/
structure View where
  base : Nat
  shape : List Nat
  stride : List Nat
  packed : Bool
deriving DecidableEq, Repr

/-- The loop of `computeStride`, src/tensor/Tensor.h lines 109-111; `acc` is the current stride. -/
def strides (acc : Nat) : List Nat → List Nat
  | [] => []
  | n :: ns => acc :: strides (acc * n) ns

/-- `computeStride`, src/tensor/Tensor.h lines 107-112. -/
def computeStride (shape : List Nat) : List Nat := strides 1 shape

/-- `Tensor(memory, shape)`, src/tensor/Tensor.h lines 28-31. -/
def mkPacked (base : Nat) (shape : List Nat) : View := ⟨base, shape, computeStride shape, true⟩

/-- `address(multi_index_t const&)`, src/tensor/Tensor.h lines 125-131, and the variadic version,
lines 114-123: the sum of `entry[d] * stride_[d]`. -/
def address (stride entry : List Nat) : Nat :=
  (entry.zip stride).foldr (fun p a => p.1 * p.2 + a) 0

/-- `operator()`, src/tensor/Tensor.h lines 51-61: the position of the element. -/
def View.at (v : View) (entry : List Nat) : Nat := v.base + address v.stride entry

/-- `size`, src/tensor/Tensor.h line 49. -/
def View.size (v : View) : Nat := v.shape.getLastD 0 * v.stride.getLastD 0

/-- `make_filtered_sequence<is_slice, Entry...>`, used at src/tensor/Tensor.h line 140: positions of
the `slice` arguments (`none`); `d` is the position of the first argument. -/
def filtered (d : Nat) : List (Option Nat) → List Nat
  | [] => []
  | none :: es => d :: filtered (d + 1) es
  | some _ :: es => filtered (d + 1) es

/-- `filter_entry`, src/tensor/Tensor.h lines 141-147. -/
def filterEntry (e : Option Nat) : Nat := e.getD 0

/-- `extractNumbers`, src/tensor/Tensor.h lines 133-137. -/
def extractNumbers (l : List Nat) (seq : List Nat) : List Nat := seq.map (fun i => l.getD i 0)

/-- `extractSubtensor`, src/tensor/Tensor.h lines 139-160. -/
def View.subtensor (v : View) (entries : List (Option Nat)) : View :=
  let seq := filtered 0 entries
  let addr := address v.stride (entries.map filterEntry)
  let subPacked := v.packed && decide (seq = List.range seq.length)
  if subPacked then mkPacked (v.base + addr) (extractNumbers v.shape seq)
  else ⟨v.base + addr, extractNumbers v.shape seq, extractNumbers v.stride seq, false⟩

/-- `reshape`, src/tensor/Reshape.h lines 11-17; `none` is the failed assertion (or the
`static_assert` for tensors that are not packed). -/
def reshape (v : View) (sizes : List Nat) : Option View :=
  if v.packed = true ∧ sizes.foldr (· * ·) 1 = v.size then some (mkPacked v.base sizes) else none

/-- Assignment of one memory cell;
src/tensor/Tensor.h lines 60 and 78. -/
def write {R : Type} (m : Nat → R) (a : Nat) (x : R) : Nat → R := fun b => if b = a then x else m b

/-- `set_constant`, src/tensor/Tensor.h line 78: `std::fill(data_, data_ + size(), c)`. -/
def setConstant {R : Type} (v : View) (c : R) (m : Nat → R) : Nat → R :=
  (List.range v.size).foldl (fun m i => write m (v.base + i) c) m

/-- The inner loop of `copy_values`, src/tensor/Tensor.h lines 87-91. -/
def copyLine {R : Type} (src : Nat → R) (ts ss : Nat) : Nat → Nat → Nat → (Nat → R) → (Nat → R)
  | 0, _, _, m => m
  | n + 1, target, source, m =>
    copyLine src ts ss n (target + ts) (source + ss) (write m target (src source))

/-- The do-while loop of `copy_values`, src/tensor/Tensor.h lines 97-102, on the components
`entry[1..D-1]` (`entry[0]` is always zero). -/
def incr : List Nat → List Nat → List Nat
  | n :: m :: ns, x :: y :: xs => if x + 1 = n then 0 :: incr (m :: ns) (y :: xs) else (x + 1) :: y :: xs
  | _, x :: xs => (x + 1) :: xs
  | _, [] => []

/-- The while loop of `copy_values`, src/tensor/Tensor.h lines 84-103, for `D ≥ 2`; `e` is
`entry[1..D-1]`.  `none`: not finished after `fuel` iterations. -/
def copyLoop {R : Type} (t s : View) (src : Nat → R) : Nat → List Nat → (Nat → R) → Option (Nat → R)
  | fuel, e, m =>
    if e.getLastD 0 = t.shape.getLastD 0 then some m
    else match fuel with
      | 0 => none
      | fuel + 1 =>
        let m := copyLine src (t.stride.headD 0) (s.stride.headD 0) (t.shape.headD 0)
          (t.at (0 :: e)) (s.at (0 :: e)) m
        copyLoop t s src fuel (incr t.shape.tail e) m

/-- `copy_values`, src/tensor/Tensor.h lines 80-104; for `D = 1` the body is executed at most once. -/
def copyValues {R : Type} (t s : View) (src : Nat → R) (fuel : Nat) (m : Nat → R) :
    Option (Nat → R) :=
  match t.shape with
  | [] => none
  | [n] =>
    if 0 = n then some m
    else some (copyLine src (t.stride.headD 0) (s.stride.headD 0) n (t.at [0]) (s.at [0]) m)
  | _ :: ns => copyLoop t s src fuel (ns.map (fun _ => 0)) m

end Tandem.Tensor
