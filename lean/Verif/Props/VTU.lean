import Verif.Lemmas.VTU
import Verif.Props.GMSHLexer
/-! # Properties C39, C40 and C66: VTU files -/
namespace Tandem.VTU
open Tandem.Spec

variable {α : Type}

/-! ## C39: points -/

/-- **C39.**  After the loop the array holds for element `e`, node `i` three components: component
`d < pointDim` is the one the adapter computed, the remaining ones are zero; no access is out of bounds.
The adapter writes its `pointDim × pointsPerElement` matrix into the front of the element's slot. -/
theorem C39_widening (zero : α) (numElements ppe pd : Nat) (hpd : 1 ≤ pd ∧ pd ≤ 3)
    (x : Nat → Nat → Nat → α) :
    ∃ m, vertices zero numElements ppe pd
        (fun e => (List.range (ppe * pd)).map (fun j => x e (j / pd) (j % pd))) = some m ∧
      m.length = numElements * ppe * 3 ∧
      ∀ e i d, e < numElements → i < ppe → d < 3 →
        m[(e * ppe + i) * 3 + d]? = some (if d < pd then x e i d else zero) := by
  obtain ⟨m, h, l, a⟩ := vertices_loop zero ppe pd (by omega)
    (fun e => (List.range (ppe * pd)).map (fun j => x e (j / pd) (j % pd))) numElements
    (by simp) numElements (Nat.le_refl _)
  refine ⟨m, h, l, fun e i d he hi hd => ?_⟩
  rw [a e i d he hi hd]
  split
  · next hdp =>
    have hlt : i * pd + d < ppe * pd := by
      calc i * pd + d < i * pd + pd := by omega
        _ = (i + 1) * pd := by rw [Nat.succ_mul]
        _ ≤ ppe * pd := Nat.mul_le_mul_right _ hi
    rw [List.getElem?_map, List.getElem?_range hlt]
    simp only [Option.map_some]
    rw [show i * pd + d = d + pd * i by rw [Nat.mul_comm]; omega, Nat.add_mul_div_left _ _ (by omega),
      Nat.add_mul_mod_self_left, Nat.div_eq_of_lt hdp, Nat.mod_eq_of_lt hdp, Nat.zero_add]
  · rfl

example : vertices 0 2 2 2 (fun e => (List.range 4).map (fun j => 100 * e + 10 * (j / 2) + j % 2 + 7)) =
    some [7, 8, 0, 17, 18, 0, 107, 108, 0, 117, 118, 0] := by decide

/-- The same for the array gathered on the node's first rank: the point `i` of element `e` of rank `r` has
the number `(elements of earlier ranks + e) * ppe + i`. -/
theorem flatten_block (L : List (List α)) (n : List Nat) (B : Nat)
    (hL : L.length = n.length) (hlen : ∀ r, r < n.length → (L.getD r []).length = n.getD r 0 * B)
    (r j : Nat) (hr : r < n.length) (hj : j < n.getD r 0 * B) :
    L.flatten[(n.take r).sum * B + j]? = (L.getD r [])[j]? := by
  induction L generalizing n r with
  | nil => simp at hL; omega
  | cons l ls ih =>
    cases n with
    | nil => simp at hL
    | cons a n =>
      have h0 := hlen 0 (by simp)
      simp only [List.getD_cons_zero] at h0
      cases r with
      | zero =>
        simp only [List.getD_cons_zero] at hj ⊢
        simp only [List.take_zero, List.sum_nil, Nat.zero_mul, Nat.zero_add, List.flatten_cons]
        rw [List.getElem?_append_left (by omega)]
      | succ r =>
        simp only [List.getD_cons_succ] at hj ⊢
        simp only [List.take_succ_cons, List.sum_cons, List.flatten_cons, Nat.add_mul]
        rw [List.getElem?_append_right (by omega), h0,
          show a * B + (n.take r).sum * B + j - a * B = (n.take r).sum * B + j by omega]
        refine ih n (by simpa using hL) ?_ r (by simpa using hr) hj
        intro s hs
        have := hlen (s + 1) (by simpa using hs)
        simpa using this

/-- **C39**, gathered: in the file, point number `(elements of the earlier ranks + e) * ppe + i` is
node `i` of element `e` of rank `r`. -/
theorem C39_gathered (zero : α) (ns : List Nat) (ppe pd : Nat) (hpd : 1 ≤ pd ∧ pd ≤ 3)
    (x : Nat → Nat → Nat → Nat → α) (V : Nat → List α)
    (hV : ∀ r, r < ns.length → vertices zero (ns.getD r 0) ppe pd
        (fun e => (List.range (ppe * pd)).map (fun j => x r e (j / pd) (j % pd))) = some (V r))
    (r e i d : Nat) (hr : r < ns.length) (he : e < ns.getD r 0) (hi : i < ppe) (hd : d < 3) :
    (gather ((List.range ns.length).map V))[(((ns.take r).sum + e) * ppe + i) * 3 + d]? =
      some (if d < pd then x r e i d else zero) := by
  have hV' : ∀ s, s < ns.length → (V s).length = ns.getD s 0 * ppe * 3 ∧
      ∀ e i d, e < ns.getD s 0 → i < ppe → d < 3 →
        (V s)[(e * ppe + i) * 3 + d]? = some (if d < pd then x s e i d else zero) := by
    intro s hs
    obtain ⟨m, h, l, a⟩ := C39_widening zero (ns.getD s 0) ppe pd hpd (x s)
    have : some m = some (V s) := by rw [← h, ← hV s hs]
    cases this
    exact ⟨l, a⟩
  have hg : ∀ s, s < ns.length → ((List.range ns.length).map V).getD s [] = V s := by
    intro s hs
    simp [List.getD, List.getElem?_range hs]
  have hb : e * ppe + ppe ≤ ns.getD r 0 * ppe := by
    rw [← Nat.succ_mul]; exact Nat.mul_le_mul_right _ he
  have := flatten_block ((List.range ns.length).map V) ns (ppe * 3) (by simp)
    (fun s hs => by rw [hg s hs, (hV' s hs).1, Nat.mul_assoc]) r ((e * ppe + i) * 3 + d) hr
    (by rw [← Nat.mul_assoc]; omega)
  rw [hg r hr, (hV' r hr).2 e i d he hi hd] at this
  rw [← this, gather]
  congr 1
  rw [Nat.add_mul ((ns.take r).sum), ← Nat.mul_assoc, Nat.add_mul, Nat.add_mul, Nat.add_mul]
  omega

theorem pointDataOf_length (ppe : Nat) (f : Nat → Nat → α) : ∀ n,
    (pointDataOf n ppe f).length = n * ppe := by
  intro n
  induction n with
  | zero => simp [pointDataOf]
  | succ n ih =>
    rw [pointDataOf] at ih ⊢
    rw [List.range_succ, List.flatMap_append, List.length_append, ih, Nat.succ_mul]
    simp

theorem pointDataOf_get (ppe : Nat) (f : Nat → Nat → α) (e i : Nat) (hi : i < ppe) : ∀ n, e < n →
    (pointDataOf n ppe f)[e * ppe + i]? = some (f e i) := by
  intro n
  induction n with
  | zero => intro h; omega
  | succ n ih =>
    intro h
    have hl := pointDataOf_length ppe f n
    have : pointDataOf (n + 1) ppe f = pointDataOf n ppe f ++ (List.range ppe).map (fun i => f n i) := by
      simp [pointDataOf, List.range_succ, List.flatMap_append]
    rw [this]
    rcases Nat.lt_or_ge e n with he | he
    · have hb : e * ppe + ppe ≤ n * ppe := by
        rw [← Nat.succ_mul]; exact Nat.mul_le_mul_right _ he
      rw [List.getElem?_append_left (by omega), ih he]
    · obtain rfl : e = n := by omega
      rw [List.getElem?_append_right (by omega), hl, Nat.add_sub_cancel_left, List.getElem?_map,
        List.getElem?_range hi]
      rfl

/-- Point data are aligned with the points: the value of element `e`, node `i` of rank `r` is stored at
the same point number. -/
theorem C39_point_data (ns : List Nat) (ppe : Nat) (value : Nat → Nat → Nat → α)
    (r e i : Nat) (hr : r < ns.length) (he : e < ns.getD r 0) (hi : i < ppe) :
    (gather ((List.range ns.length).map (fun r => pointDataOf (ns.getD r 0) ppe (value r))))[
      ((ns.take r).sum + e) * ppe + i]? = some (value r e i) := by
  have hg : ∀ s, s < ns.length → ((List.range ns.length).map
      (fun r => pointDataOf (ns.getD r 0) ppe (value r))).getD s [] =
      pointDataOf (ns.getD s 0) ppe (value s) := by
    intro s hs
    rw [List.getD, List.getElem?_map, List.getElem?_range hs]
    rfl
  have hb : e * ppe + ppe ≤ ns.getD r 0 * ppe := by
    rw [← Nat.succ_mul]; exact Nat.mul_le_mul_right _ he
  have h := flatten_block ((List.range ns.length).map
    (fun r => pointDataOf (ns.getD r 0) ppe (value r))) ns ppe (by rw [List.length_map, List.length_range])
    (fun s hs => by rw [hg s hs, pointDataOf_length]) r (e * ppe + i) hr (by omega)
  rw [hg r hr, pointDataOf_get ppe (value r) e i hi _ he] at h
  rw [gather, Nat.add_mul, Nat.add_assoc, h]

/-! ## C40: cells and offsets -/

theorem toInt32_small (n : Nat) (h : n < 2 ^ 31) : toInt32 n = n := by
  have key : ∀ m : Nat, m = 2 ^ 32 → Int.bmod n m = n := by
    intro m hm
    apply Int.bmod_eq_of_le <;> omega
  exact key _ rfl

/-- **C40**, cells: cell `c` of the file consists of the points `c * ppe, ..., c * ppe + ppe - 1`, as long
as the number of points fits into an `int32_t`. -/
theorem C40_cells (numElements ppe : Nat) (h : numElements * ppe < 2 ^ 31) (c : Nat)
    (hc : c < numElements) :
    cellPoints (connectivity numElements ppe) (offsets numElements ppe) c =
      (List.range ppe).map (fun i => ((c * ppe + i : Nat) : Int)) := by
  have hb : c * ppe + ppe ≤ numElements * ppe := by
    rw [← Nat.succ_mul]; exact Nat.mul_le_mul_right _ hc
  have h32 : ∀ n, n ≤ numElements * ppe → toInt32 n = n := fun n hn =>
    toInt32_small n (Nat.lt_of_le_of_lt hn h)
  clear h
  have ho : ∀ k, k < numElements → (offsets numElements ppe).getD k 0 = ((k * ppe + ppe : Nat) : Int) := by
    intro k hk
    have e : (List.range numElements).map (fun n => toInt32 (ppe * (n + 1))) =
        (List.range numElements).map (fun n => ((n * ppe + ppe : Nat) : Int)) := by
      apply List.map_congr_left
      intro n hn
      have : (n + 1) * ppe ≤ numElements * ppe := Nat.mul_le_mul_right _ (List.mem_range.1 hn)
      rw [Nat.succ_mul] at this
      have e2 : ppe * (n + 1) = n * ppe + ppe := by rw [Nat.mul_comm, Nat.succ_mul]
      rw [h32 _ (by omega), e2]
    rw [offsets, e, List.getD, List.getElem?_map, List.getElem?_range hk]
    rfl
  have hs : (if c = 0 then (0 : Int) else (offsets numElements ppe).getD (c - 1) 0) =
      ((c * ppe : Nat) : Int) := by
    split
    · next h0 => simp [h0]
    · next h0 =>
      rw [ho (c - 1) (by omega), ← Nat.succ_mul, show (c - 1).succ = c by omega]
  rw [cellPoints, hs, ho c hc]
  rw [show (((c * ppe + ppe : Nat) : Int) - ((c * ppe : Nat) : Int)).toNat = ppe by omega,
    Int.toNat_natCast]
  apply List.ext_getElem?
  intro i
  rw [connectivity, List.getElem?_take]
  split
  · next hi =>
    rw [List.getElem?_drop, List.getElem?_map, List.getElem?_map, List.getElem?_range (by omega),
      List.getElem?_range hi]
    simp only [Option.map_some]
    rw [h32 _ (by omega)]
  · next hi => rw [List.getElem?_eq_none (by simpa using hi)]

example : cellPoints (connectivity 3 4) (offsets 3 4) 1 = [4, 5, 6, 7] := by decide

/-- Reading an array that was written anywhere in the appended section. -/
theorem read_makeAppended (zlib : Option (List Nat → List Nat))
    (unzip : Option (List Nat → Option (List Nat))) (data pre suf : List Nat)
    (hz : match zlib, unzip with
      | none, none => True
      | some c, some u => u (c data) = some data ∧ (c data).length < 2 ^ 64
      | _, _ => False)
    (hl : data.length < 2 ^ 64) :
    readArray unzip (pre ++ makeAppended zlib data ++ suf) pre.length = some data := by
  match zlib, unzip, hz with
  | none, none, _ =>
    rw [readArray, readRaw, makeAppended]
    have e : pre ++ (leBytes 8 data.length ++ data) ++ suf = pre ++ leBytes 8 data.length ++ (data ++ suf) := by
      simp only [List.append_assoc]
    rw [e, u64At_append pre _ _ _ hl rfl]
    simp only [Option.bind_eq_bind, Option.bind_some]
    rw [show pre ++ leBytes 8 data.length ++ (data ++ suf) = (pre ++ leBytes 8 data.length) ++ data ++ suf by
      simp only [List.append_assoc]]
    exact bytesAt_append _ _ _ _ _ (by simp [leBytes_length]) rfl
  | some c, some u, ⟨hu, hcl⟩ =>
    rw [readArray, readCompressed, makeAppended]
    have e1 := u64At_append pre (leBytes 8 data.length ++ leBytes 8 data.length ++
      leBytes 8 (c data).length ++ c data ++ suf) 1 pre.length (by decide) rfl
    have e2 := u64At_append (pre ++ leBytes 8 1) (leBytes 8 data.length ++
      leBytes 8 (c data).length ++ c data ++ suf) data.length (pre.length + 8) hl (by simp [leBytes_length])
    have e3 := u64At_append (pre ++ leBytes 8 1 ++ leBytes 8 data.length)
      (leBytes 8 (c data).length ++ c data ++ suf) data.length (pre.length + 16) hl
      (by simp [leBytes_length])
    have e4 := u64At_append (pre ++ leBytes 8 1 ++ leBytes 8 data.length ++ leBytes 8 data.length)
      (c data ++ suf) (c data).length (pre.length + 24 + 8 * 0) hcl
      (by simp [leBytes_length])
    have e5 := bytesAt_append (pre ++ leBytes 8 1 ++ leBytes 8 data.length ++ leBytes 8 data.length ++
      leBytes 8 (c data).length) (c data) suf (pre.length + 24 + 8 * 1) (c data).length
      (by simp [leBytes_length]) rfl
    simp only [List.append_assoc] at e1 e2 e3 e4 e5 ⊢
    simp only [e1, e2, e3, Option.bind_eq_bind, Option.bind_some]
    rw [show List.range 1 = [0] from rfl]
    simp only [List.mapM_cons, List.mapM_nil, Option.bind_eq_bind, Option.pure_def, Option.bind_some, e4,
      List.map_cons, List.map_nil, List.zip_cons_cons, List.zip_nil_left, readBlocks, e5, hu]
    rw [if_neg]
    · simp
    · split <;> simp

/-- What the user handed to a piece: number of points and cells and the arrays. -/
structure PieceInput where
  numPoints : Nat
  numCells : Nat
  points : Input
  connectivity : Input
  offsets : Input
  types : Input
  pointData : List Input
  cellData : List Input

/-- The piece with these arrays. -/
def mkPiece (zlib : Option (List Nat → List Nat)) (p : PieceInput) : Piece :=
  ⟨p.numPoints, p.numCells, mkArray zlib p.points, mkArray zlib p.connectivity, mkArray zlib p.offsets,
    mkArray zlib p.types, p.pointData.map (mkArray zlib), p.cellData.map (mkArray zlib)⟩

/-- The writer with these pieces and field data. -/
def mkWriter (zlib : Option (List Nat → List Nat)) (pieces : List PieceInput) (fieldData : List Input) :
    Writer :=
  ⟨fieldData.map (mkArray zlib), pieces.map (mkPiece zlib)⟩

/-- A reader resolves the `DataArray` elements of an XML node. -/
def readArrays (unzip : Option (List Nat → Option (List Nat))) (buf : List Nat) (xs : List ArrayXML) :
    Option (List Input) :=
  xs.mapM (fun x => (readArray unzip buf x.offset).map (fun b => ⟨x.type, x.name, x.components, b⟩))

/-- A reader resolves a `Piece` element: the cells node has the arrays connectivity, offsets, types. -/
def readPiece (unzip : Option (List Nat → Option (List Nat))) (buf : List Nat) (x : PieceXML) :
    Option PieceInput := do
  let points ← readArrays unzip buf x.points
  let cells ← readArrays unzip buf x.cells
  let cellData ← readArrays unzip buf x.cellData
  let pointData ← readArrays unzip buf x.pointData
  match points, cells with
  | [p], [c, o, t] => return ⟨x.numberOfPoints, x.numberOfCells, p, c, o, t, pointData, cellData⟩
  | _, _ => none

/-- The (de)compressor undoes compression of this array, and its sizes are 64-bit numbers. -/
def Codec (zlib : Option (List Nat → List Nat)) (unzip : Option (List Nat → Option (List Nat)))
    (i : Input) : Prop :=
  i.bytes.length < 2 ^ 64 ∧
  match zlib, unzip with
  | none, none => True
  | some c, some u => u (c i.bytes) = some i.bytes ∧ (c i.bytes).length < 2 ^ 64
  | _, _ => False

theorem readArrays_makeXmls (zlib : Option (List Nat → List Nat))
    (unzip : Option (List Nat → Option (List Nat))) (is : List Input) (h : ∀ i ∈ is, Codec zlib unzip i) :
    ∀ pre suf : List Nat,
    readArrays unzip (pre ++ ((is.map (mkArray zlib)).map (·.appended)).flatten ++ suf)
      (makeXmls (is.map (mkArray zlib)) pre.length).1 = some is ∧
    (makeXmls (is.map (mkArray zlib)) pre.length).2 =
      (pre ++ ((is.map (mkArray zlib)).map (·.appended)).flatten).length := by
  induction is with
  | nil => intro pre suf; exact ⟨rfl, by simp [makeXmls]⟩
  | cons i is ih =>
    intro pre suf
    have hi := h i (by simp)
    have ih := ih (fun j hj => h j (by simp [hj])) (pre ++ makeAppended zlib i.bytes) suf
    have e1 := read_makeAppended zlib unzip i.bytes pre
      (((is.map (mkArray zlib)).map (·.appended)).flatten ++ suf) hi.2 hi.1
    simp only [List.length_append, List.append_assoc] at ih e1
    constructor
    · have := ih.1
      simp only [readArrays, makeXmls, List.map_cons, mkArray, DataArray.makeXml, List.mapM_cons,
        List.flatten_cons, List.append_assoc, Option.bind_eq_bind, Option.pure_def] at this ⊢
      rw [e1, this]
      rfl
    · have := ih.2
      simp only [makeXmls, List.map_cons, mkArray, DataArray.makeXml, List.flatten_cons,
        List.length_append, List.append_assoc] at this ⊢
      rw [this]

/-- All arrays of a piece. -/
def PieceInput.all (p : PieceInput) : List Input :=
  [p.points, p.connectivity, p.offsets, p.types] ++ p.cellData ++ p.pointData

theorem readPiece_makeXml (zlib : Option (List Nat → List Nat))
    (unzip : Option (List Nat → Option (List Nat))) (p : PieceInput)
    (h : ∀ i ∈ p.all, Codec zlib unzip i) (pre suf : List Nat) :
    readPiece unzip (pre ++ (mkPiece zlib p).writeAppended ++ suf) ((mkPiece zlib p).makeXml pre.length).1 =
      some p ∧
    ((mkPiece zlib p).makeXml pre.length).2 = (pre ++ (mkPiece zlib p).writeAppended).length := by
  obtain ⟨np, nc, pt, co, of, ty, pd, cd⟩ := p
  have a1 := readArrays_makeXmls zlib unzip [pt] (fun i hi => h i (by
    simp only [List.mem_singleton] at hi; simp [PieceInput.all, hi])) pre
    ((makeAppended zlib co.bytes ++ makeAppended zlib of.bytes ++ makeAppended zlib ty.bytes ++
      ((cd.map (mkArray zlib)).map (·.appended)).flatten ++
      ((pd.map (mkArray zlib)).map (·.appended)).flatten) ++ suf)
  have a2 := readArrays_makeXmls zlib unzip [co, of, ty] (fun i hi => h i (by
    simp only [List.mem_cons, List.not_mem_nil, or_false] at hi
    rcases hi with rfl | rfl | rfl <;> simp [PieceInput.all])) (pre ++ makeAppended zlib pt.bytes)
    ((((cd.map (mkArray zlib)).map (·.appended)).flatten ++
      ((pd.map (mkArray zlib)).map (·.appended)).flatten) ++ suf)
  have a3 := readArrays_makeXmls zlib unzip cd (fun i hi => h i (by simp [PieceInput.all, hi]))
    (pre ++ makeAppended zlib pt.bytes ++ makeAppended zlib co.bytes ++ makeAppended zlib of.bytes ++
      makeAppended zlib ty.bytes)
    (((pd.map (mkArray zlib)).map (·.appended)).flatten ++ suf)
  have a4 := readArrays_makeXmls zlib unzip pd (fun i hi => h i (by simp [PieceInput.all, hi]))
    (pre ++ makeAppended zlib pt.bytes ++ makeAppended zlib co.bytes ++ makeAppended zlib of.bytes ++
      makeAppended zlib ty.bytes ++ ((cd.map (mkArray zlib)).map (·.appended)).flatten) suf
  have b3 := a3.2
  have b4 := a4.2
  replace a1 := a1.1
  replace a2 := a2.1
  replace a3 := a3.1
  replace a4 := a4.1
  simp only [List.map_cons, List.map_nil, makeXmls, mkArray, DataArray.makeXml, List.length_append,
    List.flatten_cons, List.flatten_nil, List.append_assoc, List.append_nil, List.nil_append, Nat.add_assoc]
    at a1 a2 a3 a4 b3 b4
  constructor
  · simp only [readPiece, mkPiece, Piece.makeXml, Piece.writeAppended, makeXmls, mkArray,
      DataArray.makeXml, List.append_assoc, Nat.add_assoc, b3]
    rw [a1, a2, a3, a4]
    rfl
  · simp only [mkPiece, Piece.makeXml, Piece.writeAppended, makeXmls, mkArray,
      DataArray.makeXml, List.append_assoc, Nat.add_assoc, b3, List.length_append]
    rw [b4]

theorem readPieces (zlib : Option (List Nat → List Nat))
    (unzip : Option (List Nat → Option (List Nat))) (ps : List PieceInput)
    (h : ∀ p ∈ ps, ∀ i ∈ p.all, Codec zlib unzip i) : ∀ pre suf : List Nat,
    (piecesXml (ps.map (mkPiece zlib)) pre.length).1.mapM
      (readPiece unzip (pre ++ ((ps.map (mkPiece zlib)).map Piece.writeAppended).flatten ++ suf)) = some ps ∧
    (piecesXml (ps.map (mkPiece zlib)) pre.length).2 =
      (pre ++ ((ps.map (mkPiece zlib)).map Piece.writeAppended).flatten).length := by
  induction ps with
  | nil => intro pre suf; exact ⟨rfl, by simp [piecesXml]⟩
  | cons p ps ih =>
    intro pre suf
    have hp := readPiece_makeXml zlib unzip p (h p (by simp)) pre
      (((ps.map (mkPiece zlib)).map Piece.writeAppended).flatten ++ suf)
    have ih := ih (fun q hq => h q (by simp [hq])) (pre ++ (mkPiece zlib p).writeAppended) suf
    rw [← hp.2] at ih
    simp only [List.append_assoc] at hp ih
    constructor
    · simp only [List.map_cons, piecesXml, List.mapM_cons, List.flatten_cons, List.append_assoc]
      rw [hp.1, ih.1]
      rfl
    · simp only [List.map_cons, piecesXml, List.flatten_cons]
      exact ih.2

/-- **C40.**  Whatever arrays and pieces were added, a reader that follows the announced offsets into the
appended section (and whatever comes after it) finds for every `DataArray` element exactly the bytes that
were handed to the writer, under the right type, name and number of components; the last offset is the
length of the section. -/
theorem C40_roundtrip (zlib : Option (List Nat → List Nat))
    (unzip : Option (List Nat → Option (List Nat))) (pieces : List PieceInput) (fieldData : List Input)
    (hp : ∀ p ∈ pieces, ∀ i ∈ p.all, Codec zlib unzip i) (hf : ∀ i ∈ fieldData, Codec zlib unzip i)
    (trailer : List Nat) :
    let w := mkWriter zlib pieces fieldData
    let buf := w.writeAppended ++ trailer
    (w.makeXml 0).1.mapM (readPiece unzip buf) = some pieces ∧
      readArrays unzip buf (w.makeXml 0).2.1 = some fieldData ∧
      (w.makeXml 0).2.2 = w.writeAppended.length := by
  intro w buf
  have h1 := readPieces zlib unzip pieces hp [] (((fieldData.map (mkArray zlib)).map (·.appended)).flatten
    ++ trailer)
  have h2 := readArrays_makeXmls zlib unzip fieldData hf
    ((pieces.map (mkPiece zlib)).map Piece.writeAppended).flatten trailer
  simp only [List.nil_append, List.length_nil] at h1
  refine ⟨?_, ?_, ?_⟩
  · simp only [w, buf, mkWriter, Writer.makeXml, Writer.writeAppended, List.append_assoc]
    exact h1.1
  · simp only [w, buf, mkWriter, Writer.makeXml, Writer.writeAppended]
    rw [h1.2]
    exact h2.1
  · simp only [w, mkWriter, Writer.makeXml, Writer.writeAppended]
    rw [h1.2]
    exact h2.2

/-- The hypotheses are met: one piece, two bytes of cell data, no compression. -/
example : ∀ i ∈ (PieceInput.all ⟨3, 1, ⟨"Float64", "Points", 3, [1, 2, 3]⟩, ⟨"Int32", "connectivity", 1, [0]⟩,
    ⟨"Int32", "offsets", 1, [3]⟩, ⟨"UInt8", "types", 1, [5]⟩, [], [⟨"Int32", "partition", 1, [9, 9]⟩]⟩),
    Codec none none i := by
  simp [PieceInput.all, Codec]

/-- and with a compressor (here: one that puts a marker byte in front). -/
example : Codec (some (fun d => 120 :: d)) (some (fun c => some c.tail)) ⟨"Float64", "u", 1, [1, 2]⟩ := by
  simp [Codec]

/-! ## C66: the .pvtu file lists exactly the .vtu files -/

theorem count_take_succ (l : List Bool) (r : Nat) (h : l[r]? = some true) :
    (l.take (r + 1)).count true = (l.take r).count true + 1 := by
  rw [List.take_succ, h]
  simp

theorem writerNos (l : List Bool) : ∀ k, k ≤ l.length →
    (List.range k).filterMap (writerNo l) = List.range ((l.take k).count true) := by
  intro k
  induction k with
  | zero => intro _; simp
  | succ k ih =>
    intro hk
    rw [List.range_succ, List.filterMap_append, ih (by omega)]
    have hk' : k < l.length := hk
    by_cases h : l[k]? = some true
    · rw [count_take_succ l k h, List.range_succ]
      congr 1
      simp [writerNo, h, count_take_succ l k h]
    · have hf : l[k] = false := by
        rw [List.getElem?_eq_getElem hk'] at h
        simpa using h
      have : (l.take (k + 1)).count true = (l.take k).count true := by
        rw [List.take_succ, List.getElem?_eq_getElem hk', hf]
        simp
      rw [this]
      simp [writerNo, h]

/-- **C66.**  However the ranks are grouped into nodes, the files listed in the `.pvtu` file are exactly
the files written, in order; their numbers are 0, 1, ..., and exactly one rank writes the `.pvtu` file
if there is a writer at all. -/
theorem C66_pvtu_lists_files (base : String) (isWriter : List Bool) :
    filesWritten base isWriter = pvtuSources base isWriter ∧
    (isWriter.count true ≠ 0 → (pvtuWriters isWriter).length = 1) := by
  have h := writerNos isWriter isWriter.length (Nat.le_refl _)
  rw [List.take_length] at h
  constructor
  · rw [filesWritten, pvtuSources, ← h, List.map_filterMap]
  · intro hne
    have hc := congrArg (List.count 0) h
    have h1 : (List.range (isWriter.count true)).count 0 = 1 := by
      rw [List.Nodup.count List.nodup_range, if_pos (List.mem_range.2 (by omega))]
    rw [h1] at hc
    rw [pvtuWriters, ← hc, List.count_filterMap, List.countP_eq_length_filter]

/-- Different file numbers give different file names, so no two writers write the same file. -/
theorem C66_names_differ (base : String) (isWriter : List Bool) : (filesWritten base isWriter).Nodup := by
  rw [(C66_pvtu_lists_files base isWriter).1, pvtuSources]
  refine List.Pairwise.map _ ?_ List.nodup_range
  intro a b hab heq
  apply hab
  simp only [formatName] at heq
  have h1 := String.ext_iff.1 heq
  simp only [String.toList_append, List.append_assoc, List.append_cancel_left_eq,
    List.append_cancel_right_eq] at h1
  rw [← GMSHLexer.digitsVal_repr a, ← GMSHLexer.digitsVal_repr b, h1]

example : filesWritten "out" [true, false, true, false] = ["out_0.vtu", "out_1.vtu"] := by decide

end Tandem.VTU
