import Verif.Lemmas.Vandermonde
import Verif.Props.Functions
/-! # C78: modal and nodal reference elements, C83: prolongation between polynomial degrees -/
namespace Tandem.RefElement
open Functions Finset

theorem permute_symm {r : ℕ} (p : Equiv.Perm (Fin r)) (idx : Fin r → ℕ) :
    permute p.symm (permute p idx) = idx := by
  funext d; simp [permute]

theorem modalBasis_val {D : ℕ} (N : ℕ) (points : List (Fin D → ℝ)) (perm : Equiv.Perm (Fin 2)) (i q : ℕ) :
    (modalBasis N points perm).val (permute perm ![i, q])
      = dubinerP D (index D N i) (points.getD q 0) := by
  simp only [modalBasis, permute_symm]; rfl

theorem modalGradient_val {D : ℕ} (N : ℕ) (points : List (Fin D → ℝ)) (perm : Equiv.Perm (Fin 3))
    (i q : ℕ) (d : Fin D) :
    (modalGradient N points perm).val (permute perm ![i, d.val, q])
      = gradDubinerP D (index D N i) (points.getD q 0) d := by
  simp only [modalGradient, permute_symm]
  simp

theorem perm2 (p : Equiv.Perm (Fin 2)) : (p 0 = 0 ∧ p 1 = 1) ∨ (p 0 = 1 ∧ p 1 = 0) := by
  revert p; decide

theorem perm3 (p : Equiv.Perm (Fin 3)) : (p 0 = 0 ∧ p 1 = 1 ∧ p 2 = 2) ∨ (p 0 = 0 ∧ p 1 = 2 ∧ p 2 = 1)
    ∨ (p 0 = 1 ∧ p 1 = 2 ∧ p 2 = 0) ∨ (p 0 = 2 ∧ p 1 = 1 ∧ p 2 = 0)
    ∨ (p 0 = 1 ∧ p 1 = 0 ∧ p 2 = 2) ∨ (p 0 = 2 ∧ p 1 = 0 ∧ p 2 = 1) := by
  revert p; decide

theorem permute2 (p : Equiv.Perm (Fin 2)) (a b : ℕ) : permute p ![a, b] = ![![a, b] (p 0), ![a, b] (p 1)] := by
  funext d; fin_cases d <;> rfl

theorem permute3 (p : Equiv.Perm (Fin 3)) (a b c : ℕ) :
    permute p ![a, b, c] = ![![a, b, c] (p 0), ![a, b, c] (p 1), ![a, b, c] (p 2)] := by
  funext d; fin_cases d <;> rfl

theorem range_fin (n : ℕ) (f : ℕ → ℝ) : ∑ k ∈ range n, f k = ∑ k : Fin n, f k.val :=
  (Fin.sum_univ_eq_sum_range f n).symm

/-- Entries of `evaluateBasisAt` of the nodal element. -/
theorem nodalBasis_val {D : ℕ} (N : ℕ) (nodes points : List (Fin D → ℝ)) (perm : Equiv.Perm (Fin 2))
    (i : Fin (nbf D N)) (q : ℕ) :
    (nodalBasis N nodes points perm).val (permute perm ![i.val, q])
      = ∑ k : Fin (nbf D N), vInv N nodes k i * dubinerP D (index D N k) (points.getD q 0) := by
  simp only [nodalBasis, range_fin]
  rcases perm2 perm with ⟨h0, h1⟩ | ⟨h0, h1⟩
  · rw [if_pos h0]
    refine sum_congr rfl fun k _ => ?_
    have := modalBasis_val N points perm k q
    rw [permute2] at this ⊢
    simp only [h0, h1, Matrix.cons_val_zero, Matrix.cons_val_one] at this ⊢
    rw [this, entry_eq]
  · rw [if_neg (by rw [h0]; decide)]
    refine sum_congr rfl fun k _ => ?_
    have := modalBasis_val N points perm k q
    rw [permute2] at this ⊢
    simp only [h0, h1, Matrix.cons_val_zero, Matrix.cons_val_one] at this ⊢
    rw [this, entry_eq, mul_comm]

theorem store_eq (T : Ten 3) (a b c : ℕ) (ha : a < T.shape 0) (hb : b < T.shape 1) :
    store T (a + T.shape 0 * (b + T.shape 1 * c)) = T.val ![a, b, c] := by
  have h0 : 0 < T.shape 0 := by omega
  have h1 : 0 < T.shape 1 := by omega
  have e1 : (a + T.shape 0 * (b + T.shape 1 * c)) % T.shape 0 = a := by
    rw [Nat.add_mul_mod_self_left, Nat.mod_eq_of_lt ha]
  have e2 : (a + T.shape 0 * (b + T.shape 1 * c)) / T.shape 0 = b + T.shape 1 * c := by
    rw [Nat.add_mul_div_left _ _ h0, Nat.div_eq_of_lt ha, zero_add]
  have e3 : (b + T.shape 1 * c) % T.shape 1 = b := by
    rw [Nat.add_mul_mod_self_left, Nat.mod_eq_of_lt hb]
  have e4 : (b + T.shape 1 * c) / T.shape 1 = c := by
    rw [Nat.add_mul_div_left _ _ h1, Nat.div_eq_of_lt hb, zero_add]
  unfold store
  rw [e1, e2, e3, e4]

/-- Entries of `evaluateGradientAt` of the nodal element. -/
theorem nodalGradient_val {D : ℕ} (N : ℕ) (nodes points : List (Fin D → ℝ)) (perm : Equiv.Perm (Fin 3))
    (i : Fin (nbf D N)) (d : Fin D) (q : ℕ) (hq : q < points.length) :
    (nodalGradient N nodes points perm).val (permute perm ![i.val, d.val, q])
      = ∑ k : Fin (nbf D N), vInv N nodes k i * gradDubinerP D (index D N k) (points.getD q 0) d := by
  have hd := d.2
  have hi := i.2
  have hval := fun k : ℕ => modalGradient_val N points perm k q d
  have hsh : (modalGradient N points perm).shape = permute perm ![nbf D N, D, points.length] := rfl
  rw [permute3] at hsh
  simp only [permute3] at hval
  rw [permute3]
  rcases perm3 perm with h | h | h | h | h | h <;> obtain ⟨h0, h1, h2⟩ := h <;>
    simp only [h0, h1, h2, Matrix.cons_val_zero, Matrix.cons_val_one, Matrix.cons_val_two,
      Matrix.head_cons, Matrix.tail_cons, Matrix.cons_val] at hval hsh ⊢ <;>
    unfold nodalGradient <;> simp only [h0, h2]
  · rw [if_pos trivial]
    simp only [ofStore, range_fin]
    refine sum_congr rfl fun k _ => ?_
    have s0 := congrFun hsh 0
    have s1 := congrFun hsh 1
    simp only [Matrix.cons_val_zero, Matrix.cons_val_one, Matrix.cons_val] at s0 s1 ⊢
    have st := store_eq (modalGradient N points perm) k.val d.val q (by rw [s0]; exact k.2) (by rw [s1]; exact hd)
    rw [s0, s1] at st
    rw [s0, s1, Nat.add_mul_mod_self_left, Nat.mod_eq_of_lt hi, Nat.add_mul_div_left _ _ (by omega),
      Nat.div_eq_of_lt hi, zero_add, st, hval, entry_eq]
  · rw [if_pos trivial]
    simp only [ofStore, range_fin]
    refine sum_congr rfl fun k _ => ?_
    have s0 := congrFun hsh 0
    have s1 := congrFun hsh 1
    simp only [Matrix.cons_val_zero, Matrix.cons_val_one, Matrix.cons_val] at s0 s1 ⊢
    have st := store_eq (modalGradient N points perm) k.val q d.val (by rw [s0]; exact k.2) (by rw [s1]; exact hq)
    rw [s0, s1] at st
    rw [s0, s1, Nat.add_mul_mod_self_left, Nat.mod_eq_of_lt hi, Nat.add_mul_div_left _ _ (by omega),
      Nat.div_eq_of_lt hi, zero_add, st, hval, entry_eq]
  · rw [if_neg (by decide), if_pos trivial]
    simp only [ofStore, range_fin]
    refine sum_congr rfl fun k _ => ?_
    have s0 := congrFun hsh 0
    have s1 := congrFun hsh 1
    simp only [Matrix.cons_val_zero, Matrix.cons_val_one, Matrix.cons_val] at s0 s1 ⊢
    have st := store_eq (modalGradient N points perm) d.val q k.val (by rw [s0]; exact hd) (by rw [s1]; exact hq)
    rw [s0, s1] at st
    have hlt : d.val + D * q < D * points.length := by
      have := Nat.mul_le_mul_left D (show q + 1 ≤ points.length from hq)
      rw [Nat.mul_add] at this; omega
    rw [s0, s1, show d.val + D * (q + points.length * i.val) = (d.val + D * q) + (D * points.length) * i.val by ring,
      Nat.add_mul_mod_self_left, Nat.mod_eq_of_lt hlt, Nat.add_mul_div_left _ _ (by omega),
      Nat.div_eq_of_lt hlt, zero_add,
      show (d.val + D * q) + (D * points.length) * k.val = d.val + D * (q + points.length * k.val) by ring,
      st, hval, entry_eq, mul_comm]
  · rw [if_neg (by decide), if_pos trivial]
    simp only [ofStore, range_fin]
    refine sum_congr rfl fun k _ => ?_
    have s0 := congrFun hsh 0
    have s1 := congrFun hsh 1
    simp only [Matrix.cons_val_zero, Matrix.cons_val_one, Matrix.cons_val] at s0 s1 ⊢
    have st := store_eq (modalGradient N points perm) q d.val k.val (by rw [s0]; exact hq) (by rw [s1]; exact hd)
    rw [s0, s1] at st
    have hlt : q + points.length * d.val < D * points.length := by
      have := Nat.mul_le_mul_left points.length (show d.val + 1 ≤ D from hd)
      rw [Nat.mul_add, Nat.mul_comm _ D] at this; omega
    rw [s0, s1, show q + points.length * (d.val + D * i.val) = (q + points.length * d.val) + (D * points.length) * i.val by ring,
      Nat.add_mul_mod_self_left, Nat.mod_eq_of_lt hlt, Nat.add_mul_div_left _ _ (by omega),
      Nat.div_eq_of_lt hlt, zero_add,
      show (q + points.length * d.val) + (D * points.length) * k.val = q + points.length * (d.val + D * k.val) by ring,
      st, hval, entry_eq, mul_comm]
  · rw [if_neg (by decide), if_neg (by decide)]
    simp only [range_fin]
    refine sum_congr rfl fun k _ => ?_
    simp only [Matrix.cons_val_zero, Matrix.cons_val_one, Matrix.cons_val]
    rw [hval, entry_eq, mul_comm]
  · rw [if_neg (by decide), if_neg (by decide)]
    simp only [range_fin]
    refine sum_congr rfl fun k _ => ?_
    simp only [Matrix.cons_val_zero, Matrix.cons_val_one, Matrix.cons_val]
    rw [hval, entry_eq, mul_comm]

/-- The value at `x` of basis function `i` of the modal element: what `evaluateBasisAt({x})` returns. -/
noncomputable def modalFunction (D N i : ℕ) (x : Fin D → ℝ) : ℝ := (modalBasis N [x] 1).val ![i, 0]

/-- The value at `x` of basis function `i` of the nodal element: what `evaluateBasisAt({x})` returns. -/
noncomputable def nodalFunction {D : ℕ} (N : ℕ) (nodes : List (Fin D → ℝ)) (i : ℕ) (x : Fin D → ℝ) : ℝ :=
  (nodalBasis N nodes [x] 1).val ![i, 0]

theorem modalFunction_eq (D N i : ℕ) (x : Fin D → ℝ) :
    modalFunction D N i x = dubinerP D (index D N i) x := modalBasis_val N [x] 1 i 0

theorem nodalFunction_eq {D : ℕ} (N : ℕ) (nodes : List (Fin D → ℝ)) (i : Fin (nbf D N)) (x : Fin D → ℝ) :
    nodalFunction N nodes i x = ∑ k : Fin (nbf D N), vInv N nodes k i * dubinerP D (index D N k) x :=
  nodalBasis_val N nodes [x] 1 i 0

/-- C78 (evaluation): for every list of points and both storage orders, the entry for basis function
`i` and point `q` is the value of basis function `i` at that point, and the table has the permuted
shape. -/
theorem C78_evaluation {D : ℕ} (N : ℕ) (nodes points : List (Fin D → ℝ)) (perm : Equiv.Perm (Fin 2))
    (i : Fin (nbf D N)) (q : ℕ) (hq : q < points.length) :
    (modalBasis N points perm).val (permute perm ![i.val, q]) = modalFunction D N i points[q] ∧
    (nodalBasis N nodes points perm).val (permute perm ![i.val, q]) = nodalFunction N nodes i points[q] ∧
    (nodalBasis N nodes points perm).shape = permute perm ![nbf D N, points.length] := by
  rw [modalBasis_val, nodalBasis_val, modalFunction_eq, nodalFunction_eq, List.getD_eq_getElem _ _ hq]
  exact ⟨rfl, rfl, rfl⟩

/-- C78 (modal basis): the modal basis functions are polynomials of degree at most `N`, and every
polynomial of degree at most `N` is a combination of them with unique coefficients. -/
theorem C78_modal_basis (D N : ℕ) (hD : D = 1 ∨ D = 2 ∨ D = 3) :
    (∀ i : Fin (nbf D N), Spec.IsPoly D N (modalFunction D N i)) ∧
    ∀ f, Spec.IsPoly D N f →
      ∃! c : Fin (nbf D N) → ℝ, ∀ x, f x = ∑ i : Fin (nbf D N), c i * modalFunction D N i x := by
  have hD0 : 0 < D := by omega
  refine ⟨fun i => ?_, fun f hf => ?_⟩
  · have := modal_isPoly D N i hD0 i.2
    have e : modalFunction D N i = dubinerP D (index D N i) := by funext x; exact modalFunction_eq D N i x
    rw [e]; exact this
  · obtain ⟨c, hc⟩ := poly_expand D N hD f hf
    refine ⟨c, fun x => ?_, fun c' hc' => ?_⟩
    · rw [hc]
      exact sum_congr rfl fun k _ => by rw [modalFunction_eq, mul_comm]
    · have := modal_indep D N hD (c' - c) fun x => ?_
      · funext k
        have := congrFun this k
        simp only [Pi.sub_apply, Pi.zero_apply] at this
        linarith
      · have h1 := hc x
        have h2 := hc' x
        simp only [modalFunction_eq] at h2
        simp only [Pi.sub_apply, mul_sub, sum_sub_distrib]
        rw [← h1, h2, sub_eq_zero]
        exact sum_congr rfl fun k _ => by rw [mul_comm]

/-- C78 (Lagrange basis): if the Vandermonde matrix is not singular, nodal basis function `i` is a
polynomial of degree at most `N` that is one at node `i` and zero at all other nodes. -/
theorem C78_lagrange (D N : ℕ) (hD : 0 < D) (nodes : List (Fin D → ℝ))
    (hlen : nodes.length = nbf D N) (hV : IsUnit (vandermonde N nodes).det) (i : Fin (nbf D N)) :
    Spec.IsPoly D N (nodalFunction N nodes i) ∧
    ∀ j : Fin (nbf D N), nodalFunction N nodes i (nodes[j.val]'(by omega)) = if i = j then 1 else 0 := by
  constructor
  · have e : nodalFunction N nodes i
        = fun x => ∑ k : Fin (nbf D N), vInv N nodes k i * dubinerP D (index D N k) x := by
      funext x; exact nodalFunction_eq N nodes i x
    rw [e]
    exact isPoly_sum D N univ _ fun k _ => isPoly_const_mul D N _ _ (modal_isPoly D N k hD k.2)
  · intro j
    rw [nodalFunction_eq]
    have h1 : (vandermonde N nodes * vInv N nodes) j i = if j = i then 1 else 0 := by
      rw [vInv, Matrix.mul_nonsing_inv _ hV, Matrix.one_apply]
    rw [Matrix.mul_apply] at h1
    rw [show (if i = j then (1:ℝ) else 0) = if j = i then 1 else 0 by simp [eq_comm], ← h1]
    refine sum_congr rfl fun k _ => ?_
    simp only [vandermonde, Matrix.of_apply]
    rw [List.getD_eq_getElem _ _ (by omega), mul_comm]

/-- C78 (reproduction): interpolation in the nodes is exact for every polynomial of degree at most
`N`, at every point. -/
theorem C78_reproduces (D N : ℕ) (hD : D = 1 ∨ D = 2 ∨ D = 3) (nodes : List (Fin D → ℝ))
    (hlen : nodes.length = nbf D N) (hV : IsUnit (vandermonde N nodes).det)
    (f : (Fin D → ℝ) → ℝ) (hf : Spec.IsPoly D N f) (x : Fin D → ℝ) :
    ∑ i : Fin (nbf D N), f (nodes[i.val]'(by omega)) * nodalFunction N nodes i x = f x := by
  obtain ⟨c, hc⟩ := poly_expand D N hD f hf
  have h1 : ∀ i : Fin (nbf D N), f (nodes[i.val]'(by omega)) = (vandermonde N nodes).mulVec c i := by
    intro i
    rw [hc]
    simp only [Matrix.mulVec, dotProduct, vandermonde, Matrix.of_apply]
    rw [List.getD_eq_getElem _ _ (by omega)]
  have h2 : (vInv N nodes).mulVec ((vandermonde N nodes).mulVec c) = c := by
    rw [vInv, Matrix.mulVec_mulVec, Matrix.nonsing_inv_mul _ hV, Matrix.one_mulVec]
  rw [hc x]
  have h3 : ∀ k, c k = ∑ i, vInv N nodes k i * (vandermonde N nodes).mulVec c i := fun k => by
    conv_lhs => rw [← h2]
    rfl
  calc _ = ∑ i : Fin (nbf D N), ∑ k : Fin (nbf D N),
        dubinerP D (index D N k) x * (vInv N nodes k i * (vandermonde N nodes).mulVec c i) := by
        refine sum_congr rfl fun i _ => ?_
        rw [h1, nodalFunction_eq, mul_sum]
        exact sum_congr rfl fun k _ => by ring
    _ = _ := by
        rw [sum_comm]
        refine sum_congr rfl fun k _ => ?_
        rw [← mul_sum, ← h3]

/-- C78 (partition of unity). -/
theorem C78_partition_of_unity (D N : ℕ) (hD : D = 1 ∨ D = 2 ∨ D = 3) (nodes : List (Fin D → ℝ))
    (hlen : nodes.length = nbf D N) (hV : IsUnit (vandermonde N nodes).det) (x : Fin D → ℝ) :
    ∑ i : Fin (nbf D N), nodalFunction N nodes i x = 1 := by
  have := C78_reproduces D N hD nodes hlen hV (fun _ => 1) (isPoly_const D N 1) x
  simpa using this

theorem isGradient_sum {D n : ℕ} (w : Fin n → ℝ) (f : Fin n → (Fin D → ℝ) → ℝ) (g : Fin n → Fin D → ℝ)
    (p : Fin D → ℝ) (h : ∀ k, Spec.IsGradient (f k) (g k) p) :
    Spec.IsGradient (fun x => ∑ k, w k * f k x) (fun d => ∑ k, w k * g k d) p := by
  intro v
  have := HasDerivAt.fun_sum (u := univ) fun k _ => (h k v).const_mul (w k)
  refine this.congr_deriv ?_
  simp only [sum_mul, mul_sum]
  rw [sum_comm]
  exact sum_congr rfl fun d _ => sum_congr rfl fun k _ => by ring

/-- C78 (gradient): on triangles and tetrahedra, for all six storage orders, `evaluateGradientAt`
returns the gradients of the functions that `evaluateBasisAt` evaluates, for the modal and for the
nodal element. -/
theorem C78_gradient (D N : ℕ) (hD : D = 2 ∨ D = 3) (nodes points : List (Fin D → ℝ))
    (perm : Equiv.Perm (Fin 3)) (i : Fin (nbf D N)) (q : ℕ) (hq : q < points.length) :
    Spec.IsGradient (modalFunction D N i)
      (fun d => (modalGradient N points perm).val (permute perm ![i.val, d.val, q])) points[q] ∧
    Spec.IsGradient (nodalFunction N nodes i)
      (fun d => (nodalGradient N nodes points perm).val (permute perm ![i.val, d.val, q])) points[q] ∧
    (nodalGradient N nodes points perm).shape = permute perm ![nbf D N, D, points.length] := by
  have hg : ∀ j : Fin D → ℕ, ∀ x, Spec.IsGradient (dubinerP D j) (gradDubinerP D j x) x := by
    rcases hD with rfl | rfl
    · exact C55_tri
    · exact C55_tet
  have e1 : modalFunction D N i = dubinerP D (index D N i) := by funext x; exact modalFunction_eq D N i x
  have e2 : nodalFunction N nodes i
      = fun x => ∑ k : Fin (nbf D N), vInv N nodes k i * dubinerP D (index D N k) x := by
    funext x; exact nodalFunction_eq N nodes i x
  refine ⟨?_, ?_, ?_⟩
  · simp only [modalGradient_val]
    rw [e1, List.getD_eq_getElem _ _ hq]
    exact hg _ _
  · simp only [nodalGradient_val N nodes points perm i _ q hq]
    rw [e2, List.getD_eq_getElem _ _ hq]
    exact isGradient_sum _ _ _ _ fun k => hg _ _
  · unfold nodalGradient
    split
    · rfl
    · split <;> rfl

/-- C78 (gradient on the line): there the returned values are half of the derivatives. -/
theorem C78_gradient_line (N : ℕ) (nodes points : List (Fin 1 → ℝ))
    (perm : Equiv.Perm (Fin 3)) (i : Fin (nbf 1 N)) (q : ℕ) (hq : q < points.length) :
    Spec.IsGradient (modalFunction 1 N i)
      (fun d => 2 * (modalGradient N points perm).val (permute perm ![i.val, d.val, q])) points[q] ∧
    Spec.IsGradient (nodalFunction N nodes i)
      (fun d => 2 * (nodalGradient N nodes points perm).val (permute perm ![i.val, d.val, q])) points[q] := by
  have e1 : modalFunction 1 N i = dubinerP 1 (index 1 N i) := by funext x; exact modalFunction_eq 1 N i x
  have e2 : nodalFunction N nodes i
      = fun x => ∑ k : Fin (nbf 1 N), vInv N nodes k i * dubinerP 1 (index 1 N k) x := by
    funext x; exact nodalFunction_eq N nodes i x
  refine ⟨?_, ?_⟩
  · simp only [modalGradient_val]
    rw [e1, List.getD_eq_getElem _ _ hq]
    exact C55_line _ _
  · simp only [nodalGradient_val N nodes points perm i _ q hq]
    rw [e2, List.getD_eq_getElem _ _ hq]
    have := isGradient_sum (fun k => vInv N nodes k i) _ _ points[q] fun k : Fin (nbf 1 N) =>
      C55_line (index 1 N k) points[q]
    convert this using 2
    rw [mul_sum]
    exact sum_congr rfl fun k _ => by ring

/-- C78 (when the element exists): the Vandermonde matrix is nonsingular exactly if the nodes
determine the polynomials of degree at most `N`. -/
theorem C78_unisolvent (D N : ℕ) (hD : D = 1 ∨ D = 2 ∨ D = 3) (nodes : List (Fin D → ℝ))
    (hlen : nodes.length = nbf D N) :
    IsUnit (vandermonde N nodes).det ↔ Spec.Unisolvent D N nodes := by
  have hD0 : 0 < D := by omega
  constructor
  · intro hV f hf h0 x
    rw [← C78_reproduces D N hD nodes hlen hV f hf x]
    exact sum_eq_zero fun i _ => by rw [h0 _ (List.getElem_mem _), zero_mul]
  · intro hu
    rw [← Matrix.isUnit_iff_isUnit_det, ← Matrix.mulVec_injective_iff_isUnit]
    intro c c' h
    have hz : ∀ x, ∑ k : Fin (nbf D N), dubinerP D (index D N k) x * (c - c') k = 0 := by
      refine hu _ (isPoly_sum D N univ _ fun k _ => ?_) fun x hx => ?_
      · have := isPoly_const_mul D N ((c - c') k) _ (modal_isPoly D N k hD0 k.2)
        simpa only [mul_comm] using this
      · obtain ⟨i, hi, rfl⟩ := List.getElem_of_mem hx
        have := congrFun h ⟨i, by omega⟩
        simp only [Matrix.mulVec, dotProduct, vandermonde, Matrix.of_apply] at this
        rw [List.getD_eq_getElem _ _ hi] at this
        simp only [Pi.sub_apply, mul_sub, sum_sub_distrib]
        rw [this, sub_self]
    have := modal_indep D N hD _ hz
    exact sub_eq_zero.1 this

/-- C78: the equidistant nodes are unisolvent, in every degree and dimension. -/
theorem C78_equidistant (conv : Equidistant.Convention) (D n : ℕ) (hD : D = 1 ∨ D = 2 ∨ D = 3)
    (hn : 0 < n) : IsUnit (vandermonde n (Equidistant.nodes conv D n)).det :=
  equidistant_unit conv D n hD hn

/-- C78: on the line every list of distinct nodes of the right length is unisolvent. -/
theorem C78_line_nodes (N : ℕ) (nodes : List (Fin 1 → ℝ)) (hl : nodes.length = N + 1)
    (hnd : nodes.Nodup) : IsUnit (vandermonde N nodes).det := line_unit N nodes hl hnd

/-- The hypotheses are met: cubic elements with equidistant nodes, and the last nodal function. -/
example : ∃ nodes : List (Fin 3 → ℝ), nodes.length = nbf 3 3 ∧ IsUnit (vandermonde 3 nodes).det ∧
    (19 : ℕ) < nbf 3 3 :=
  ⟨Equidistant.nodes .VTK 3 3, (Equidistant.C61_lattice .VTK 3 3 (by decide) (by decide)).2.1,
    C78_equidistant .VTK 3 3 (by decide) (by decide), by decide⟩

/-- Two equal nodes are refused by the criterion. -/
example : ¬ IsUnit (vandermonde 1 [![0], ![0]] : Matrix (Fin (nbf 1 1)) (Fin (nbf 1 1)) ℝ).det := by
  rw [C78_unisolvent 1 1 (by decide) _ (by decide)]
  intro h
  have := h (fun x => x 0) (isPoly_coord 1 0) (by simp) ![1]
  simp at this

/-- C83 (nodal prolongation): applied to the nodal values of a function of the coarse space, in each
of the `Q` quantities, the matrix returns the values of the same function at the nodes of the fine
space; it does not mix quantities. -/
theorem C83_nodal (D to_ from_ Q : ℕ) (hD : D = 1 ∨ D = 2 ∨ D = 3) (hle : from_ ≤ to_)
    (nodesTo nodesFrom : List (Fin D → ℝ)) (hTo : nodesTo.length = nbf D to_)
    (hlen : nodesFrom.length = nbf D from_) (hV : IsUnit (vandermonde from_ nodesFrom).det)
    (f : Fin Q → (Fin D → ℝ) → ℝ) (hf : ∀ p, Spec.IsPoly D from_ (f p))
    (u : ℕ → ℝ) (hu : ∀ (p : Fin Q) (l : Fin (nbf D from_)),
      u (l.val + p.val * nbf D from_) = f p (nodesFrom[l.val]'(by omega)))
    (p : Fin Q) (k : Fin (nbf D to_)) :
    ∑ col ∈ range (nbf D from_ * Q),
        nodalInterpolation to_ from_ nodesTo nodesFrom Q (k.val + p.val * nbf D to_) col * u col
      = f p (nodesTo[k.val]'(by omega)) := by
  have hD0 : 0 < D := by omega
  have hn1 : 0 < nbf D to_ := Nat.choose_pos (by omega)
  have hn2 : 0 < nbf D from_ := Nat.choose_pos (by omega)
  have hle' : nbf D from_ ≤ nbf D to_ := Nat.choose_le_choose D (by omega)
  -- the row picks out quantity p and function k
  have hrow : ∀ (k' p' : ℕ), k' < nbf D to_ → (k.val + p.val * nbf D to_ = k' + p' * nbf D to_ ↔ k' = k.val ∧ p' = p.val) := by
    intro k' p' hk'
    constructor
    · intro h
      have e1 := congrArg (· % nbf D to_) h
      have e2 := congrArg (· / nbf D to_) h
      simp only [Nat.add_mul_mod_self_right, Nat.mod_eq_of_lt k.2, Nat.mod_eq_of_lt hk',
        Nat.add_mul_div_right _ _ hn1, Nat.div_eq_of_lt k.2, Nat.div_eq_of_lt hk', zero_add] at e1 e2
      exact ⟨e1.symm, e2.symm⟩
    · rintro ⟨rfl, rfl⟩; rfl
  let tmp : ℕ → ℕ → ℝ := fun k l =>
    ∑ m ∈ range (nbf D from_), entry (vandermonde to_ nodesTo) k m * entry (vInv from_ nodesFrom) m l
  have hent : ∀ col, nodalInterpolation to_ from_ nodesTo nodesFrom Q (k.val + p.val * nbf D to_) col
      = ∑ l ∈ range (nbf D from_), if col = l + p.val * nbf D from_ then tmp k.val l else 0 := by
    intro col
    unfold nodalInterpolation
    refine sum_congr rfl fun l _ => ?_
    rw [sum_eq_single p.val, sum_eq_single k.val]
    · simp [tmp]
    · intro k' hk' hne
      rw [if_neg]
      rintro ⟨h1, _⟩
      exact hne ((hrow k' p.val (mem_range.1 hk')).1 h1).1
    · intro h; exact absurd (mem_range.2 k.2) h
    · intro p' _ hne
      refine sum_eq_zero fun k' hk' => ?_
      rw [if_neg]
      rintro ⟨h1, _⟩
      exact hne ((hrow k' p' (mem_range.1 hk')).1 h1).2
    · intro h; exact absurd (mem_range.2 p.2) h
  have hstep : ∑ col ∈ range (nbf D from_ * Q),
        nodalInterpolation to_ from_ nodesTo nodesFrom Q (k.val + p.val * nbf D to_) col * u col
      = ∑ l : Fin (nbf D from_), tmp k.val l.val * f p (nodesFrom[l.val]'(by omega)) := by
    simp only [hent, sum_mul]
    rw [sum_comm, range_fin]
    refine sum_congr rfl fun l _ => ?_
    rw [sum_eq_single (l.val + p.val * nbf D from_)]
    · rw [if_pos rfl, hu]
    · intro col _ hne; rw [if_neg hne, zero_mul]
    · intro h
      exfalso; apply h
      rw [mem_range]
      have := Nat.mul_le_mul_left (nbf D from_) (show p.val + 1 ≤ Q from p.2)
      rw [Nat.mul_add, Nat.mul_comm _ p.val] at this
      have := l.2
      omega
  have htmp : ∀ l : Fin (nbf D from_), tmp k.val l.val
      = nodalFunction from_ nodesFrom l (nodesTo[k.val]'(by omega)) := by
    intro l
    rw [nodalFunction_eq]
    simp only [tmp, range_fin]
    refine sum_congr rfl fun m _ => ?_
    have hm : m.val < nbf D to_ := by omega
    rw [entry_eq, show m.val = (⟨m.val, hm⟩ : Fin (nbf D to_)).val from rfl, entry_eq]
    simp only [vandermonde, Matrix.of_apply]
    rw [index_hier D from_ to_ m.val hD0 m.2 hle, List.getD_eq_getElem _ _ (by omega), mul_comm]
  rw [hstep, ← C78_reproduces D from_ hD nodesFrom hlen hV (f p) (hf p) (nodesTo[k.val]'(by omega))]
  exact sum_congr rfl fun l _ => by rw [htmp, mul_comm]

/-- C83 (modal prolongation): the expansion with the returned coefficients in the fine modal basis is
the same function as the expansion with the given coefficients in the coarse modal basis. -/
theorem C83_modal (D to_ from_ Q : ℕ) (hD : 0 < D) (hle : from_ ≤ to_)
    (u : ℕ → ℝ) (p : Fin Q) (x : Fin D → ℝ) :
    ∑ k : Fin (nbf D to_), (∑ col ∈ range (nbf D from_ * Q),
        modalInterpolation D to_ from_ Q (k.val + p.val * nbf D to_) col * u col) * modalFunction D to_ k x
      = ∑ l : Fin (nbf D from_), u (l.val + p.val * nbf D from_) * modalFunction D from_ l x := by
  have hn1 : 0 < nbf D to_ := Nat.choose_pos (by omega)
  have hle' : nbf D from_ ≤ nbf D to_ := Nat.choose_le_choose D (by omega)
  have hent : ∀ (k : Fin (nbf D to_)) (col : ℕ),
      modalInterpolation D to_ from_ Q (k.val + p.val * nbf D to_) col
        = if k.val < nbf D from_ ∧ col = k.val + p.val * nbf D from_ then 1 else 0 := by
    intro k col
    unfold modalInterpolation
    refine if_congr ?_ rfl rfl
    constructor
    · rintro ⟨l, hl, p', hp', h1, h2⟩
      have hl' : l < nbf D to_ := by omega
      have e1 := congrArg (· % nbf D to_) h1
      have e2 := congrArg (· / nbf D to_) h1
      simp only [Nat.add_mul_mod_self_right, Nat.mod_eq_of_lt k.2, Nat.mod_eq_of_lt hl',
        Nat.add_mul_div_right _ _ hn1, Nat.div_eq_of_lt k.2, Nat.div_eq_of_lt hl', zero_add] at e1 e2
      subst e1; subst e2
      exact ⟨hl, h2⟩
    · rintro ⟨hl, h2⟩
      exact ⟨k.val, hl, p.val, p.2, rfl, h2⟩
  have hsum : ∀ k : Fin (nbf D to_), ∑ col ∈ range (nbf D from_ * Q),
        modalInterpolation D to_ from_ Q (k.val + p.val * nbf D to_) col * u col
      = if k.val < nbf D from_ then u (k.val + p.val * nbf D from_) else 0 := by
    intro k
    simp only [hent]
    by_cases hk : k.val < nbf D from_
    · rw [if_pos hk, sum_eq_single (k.val + p.val * nbf D from_)]
      · rw [if_pos ⟨hk, rfl⟩, one_mul]
      · intro col _ hne; rw [if_neg (fun h => hne h.2), zero_mul]
      · intro h
        exfalso; apply h
        rw [mem_range]
        have := Nat.mul_le_mul_left (nbf D from_) (show p.val + 1 ≤ Q from p.2)
        rw [Nat.mul_add, Nat.mul_comm _ p.val] at this
        omega
    · rw [if_neg hk]
      exact sum_eq_zero fun col _ => by rw [if_neg (fun h => hk h.1), zero_mul]
  simp only [hsum]
  symm
  refine sum_of_injOn (fun l : Fin (nbf D from_) => (⟨l.val, by omega⟩ : Fin (nbf D to_)))
    (fun a _ b _ e => by simpa [Fin.ext_iff] using e) (fun _ _ => by simp) ?_ ?_
  · intro k _ hk
    have : ¬ k.val < nbf D from_ := fun hc => hk ⟨⟨k.val, hc⟩, by simp⟩
    simp [this]
  · intro l _
    simp only [l.2, if_true]
    rw [modalFunction_eq, modalFunction_eq, index_hier D from_ to_ l.val hD l.2 hle]

/-- Prolongation from degree one to degree three on the triangle, two quantities. -/
example : ∃ (a b : List (Fin 2 → ℝ)), a.length = nbf 2 3 ∧ b.length = nbf 2 1 ∧
    IsUnit (vandermonde 1 b).det ∧ Spec.IsPoly 2 1 (fun x => x 0) :=
  ⟨Equidistant.nodes .VTK 2 3, Equidistant.nodes .VTK 2 1,
    (Equidistant.C61_lattice .VTK 2 3 (by decide) (by decide)).2.1,
    (Equidistant.C61_lattice .VTK 2 1 (by decide) (by decide)).2.1,
    C78_equidistant .VTK 2 1 (by decide) (by decide), isPoly_coord 2 0⟩

end Tandem.RefElement
