import Verif.Lemmas.Warp
import Verif.Spec.WarpAndBlend
import Verif.Props.Curvilinear
import Mathlib.Tactic.FinCases
/-! # Barycentric coordinates of the warp & blend nodes -/
namespace Tandem.WarpAndBlend
open Functions RefElement Quadrature Curvilinear Equidistant Spec
noncomputable section

theorem gen_bary {D : ℕ} (verts : Fin (D + 1) → Fin D → ℝ) (hdet : (edgeMatrix verts).det ≠ 0)
    (lam : Fin (D + 1) → ℝ) (hs : ∑ k, lam k = 1) :
    generalToRef verts (∑ k, lam k • verts k) = fun d => lam d.succ := by
  rw [← ((C58_affine D verts).2 hdet).2 fun d => lam d.succ]
  congr 1
  funext i
  unfold refToGeneral
  rw [Finset.sum_apply, Fin.sum_univ_succ]
  rw [Fin.sum_univ_succ] at hs
  simp only [Pi.smul_apply, smul_eq_mul]
  rw [show 1 - ∑ d : Fin D, lam d.succ = lam 0 by linarith]

theorem baryCoord_tail {D : ℕ} (lam : Fin (D + 1) → ℝ) (hs : ∑ k, lam k = 1) :
    baryCoord (fun d => lam d.succ) = lam := by
  funext k
  unfold baryCoord
  rw [Fin.sum_univ_succ] at hs
  refine Fin.cases ?_ (fun k => ?_) k
  · simp only [Fin.cons_zero]; linarith
  · simp

/-- Half the length of the displacement along an edge with coordinates `x`, `y`, towards `x`. -/
def pull (N : ℕ) (alpha x y z : ℝ) : ℝ :=
  warpfactor N (x - y) * (2 * (y * x) * (1 + alpha * alpha * (z * z)))

theorem pull_swap (N : ℕ) (hN : 0 < N) (alpha x y z : ℝ) : pull N alpha y x z = -pull N alpha x y z := by
  unfold pull
  rw [show y - x = -(x - y) by ring, warpfactor_neg N hN]
  ring

theorem pull_self (N : ℕ) (hN : 0 < N) (alpha x z : ℝ) : pull N alpha x x z = 0 := by
  have := pull_swap N hN alpha x x z
  linarith

theorem pull_zero_left (N : ℕ) (alpha y z : ℝ) : pull N alpha 0 y z = 0 := by unfold pull; ring

theorem pull_zero_right (N : ℕ) (alpha x z : ℝ) : pull N alpha x 0 z = 0 := by unfold pull; ring

/-- The displacement of the barycentric coordinates. -/
def shift {n : ℕ} (N : ℕ) (alpha : ℝ) (L : Fin n → ℝ) (k : Fin n) : ℝ :=
  ∑ q, pull N alpha (L k) (L q) ((∑ p, L p) - L k - L q)

theorem shift_perm {n : ℕ} (N : ℕ) (alpha : ℝ) (L : Fin n → ℝ) (s : Equiv.Perm (Fin n)) (k : Fin n) :
    shift N alpha (L ∘ s) k = shift N alpha L (s k) := by
  unfold shift
  rw [← Equiv.sum_comp s fun q => pull N alpha (L (s k)) (L q) ((∑ p, L p) - L (s k) - L q)]
  simp only [Function.comp]
  rw [Equiv.sum_comp s L]

theorem shift_sum {n : ℕ} (N : ℕ) (hN : 0 < N) (alpha : ℝ) (L : Fin n → ℝ) :
    ∑ k, shift N alpha L k = 0 := by
  have h : ∑ k, shift N alpha L k = -∑ k, shift N alpha L k := by
    conv_lhs => unfold shift
    rw [Finset.sum_comm, ← Finset.sum_neg_distrib]
    refine Finset.sum_congr rfl fun q _ => ?_
    unfold shift
    rw [← Finset.sum_neg_distrib]
    refine Finset.sum_congr rfl fun k _ => ?_
    rw [pull_swap N hN, show (∑ p, L p) - L k - L q = (∑ p, L p) - L q - L k by ring]
  linarith

theorem shift_zero {n : ℕ} (N : ℕ) (alpha : ℝ) (L : Fin n → ℝ) (k : Fin n) (h : L k = 0) :
    shift N alpha L k = 0 := by
  unfold shift
  refine Finset.sum_eq_zero fun q _ => ?_
  rw [h, pull_zero_left]

/-- Leaving out a coordinate that is zero changes nothing. -/
theorem shift_succAbove {n : ℕ} (N : ℕ) (alpha : ℝ) (L : Fin (n + 1) → ℝ) (m : Fin (n + 1))
    (h : L m = 0) (k : Fin n) :
    shift N alpha (fun j => L (m.succAbove j)) k = shift N alpha L (m.succAbove k) := by
  unfold shift
  rw [Fin.sum_univ_succAbove _ m, Fin.sum_univ_succAbove L m, h, pull_zero_right, zero_add, zero_add]

/-! ### The triangle -/

theorem normalize_tri (a b : Fin 3) (h : a ≠ b) :
    normalize (equiTri b - equiTri a) = (1 / 2 : ℝ) • (equiTri b - equiTri a) := by
  have hn : Curvilinear.norm (equiTri b - equiTri a) = 2 := by
    unfold Curvilinear.norm
    have : dot (equiTri b - equiTri a) (equiTri b - equiTri a) = 2 ^ 2 := by
      have h3 : Real.sqrt 3 ^ 2 = 3 := Real.sq_sqrt (by norm_num)
      have h3' : Real.sqrt 3 ≠ 0 := by positivity
      unfold dot
      rw [Fin.sum_univ_two]
      fin_cases a <;> fin_cases b <;> first | exact absurd rfl h | skip
      all_goals
        simp [equiTri]
        field_simp
        try nlinarith [h3]
    rw [this, Real.sqrt_sq (by norm_num)]
  unfold normalize
  rw [hn]

theorem det_tri : (edgeMatrix equiTri).det ≠ 0 := by
  have h3 : (0:ℝ) < Real.sqrt 3 := by positivity
  rw [Matrix.det_fin_two]
  simp [edgeMatrix, equiTri]
  have : (2:ℝ) / Real.sqrt 3 - -1 / Real.sqrt 3 = 3 / Real.sqrt 3 := by ring
  rw [this]
  positivity

theorem warpTri_bary (N : ℕ) (hN : 0 < N) (alpha : ℝ) (L : Fin 3 → ℝ) :
    warpTri N alpha L = ∑ k, shift N alpha L k • equiTri k := by
  have e0 : (f2v (D := 1) 0 0, f2v (D := 1) 0 1, missing (D := 1) 0) = (0, 1, 2) := by decide
  have e1 : (f2v (D := 1) 1 0, f2v (D := 1) 1 1, missing (D := 1) 1) = (0, 2, 1) := by decide
  have e2 : (f2v (D := 1) 2 0, f2v (D := 1) 2 1, missing (D := 1) 2) = (1, 2, 0) := by decide
  simp only [Prod.mk.injEq] at e0 e1 e2
  have hl : List.finRange 3 = [0, 1, 2] := by decide
  unfold warpTri
  rw [hl]
  simp only [List.foldl, triFacet, e0, e1, e2]
  rw [normalize_tri 0 1 (by decide), normalize_tri 0 2 (by decide), normalize_tri 1 2 (by decide)]
  unfold shift
  simp only [Fin.sum_univ_three, pull_self N hN]
  rw [pull_swap N hN alpha (L 1) (L 0), pull_swap N hN alpha (L 2) (L 0), pull_swap N hN alpha (L 2) (L 1)]
  unfold pull
  funext i
  simp only [Pi.add_apply, Pi.smul_apply, Pi.sub_apply, Pi.zero_apply, smul_eq_mul]
  rw [show L 0 + L 1 + L 2 - L 1 - L 0 = L 2 by ring, show L 0 + L 1 + L 2 - L 2 - L 0 = L 1 by ring,
    show L 0 + L 1 + L 2 - L 2 - L 1 = L 0 by ring, show L 0 + L 1 + L 2 - L 0 - L 1 = L 2 by ring,
    show L 0 + L 1 + L 2 - L 0 - L 2 = L 1 by ring, show L 0 + L 1 + L 2 - L 1 - L 2 = L 0 by ring]
  ring

theorem rowL_sum {D : ℕ} (N : ℕ) (i : Fin D → ℕ) : ∑ k, rowL N i k = 1 := by
  unfold rowL
  rw [Fin.sum_univ_succ]
  simp

theorem rowL_eq {D : ℕ} (N : ℕ) (hN : 0 < N) (i : Fin D → ℕ) (hi : ∑ d, i d ≤ N) (k : Fin (D + 1)) :
    rowL N i k = (baryIndex N i k : ℝ) / N := by
  have hNr : (N : ℝ) ≠ 0 := by positivity
  unfold rowL baryIndex
  refine Fin.cases ?_ (fun k => ?_) k
  · simp only [Fin.cons_zero]
    rw [Nat.cast_sub hi, ← Finset.sum_div]
    push_cast
    field_simp
  · simp

/-- The barycentric coordinates of a node of the triangle. -/
def lam2 (N : ℕ) (alpha : ℝ) (L : Fin 3 → ℝ) (k : Fin 3) : ℝ := L k + shift N alpha L k

theorem lam2_sum (N : ℕ) (hN : 0 < N) (alpha : ℝ) (L : Fin 3 → ℝ) (h : ∑ k, L k = 1) :
    ∑ k, lam2 N alpha L k = 1 := by
  unfold lam2
  rw [Finset.sum_add_distrib, h, shift_sum N hN, add_zero]

theorem node2 (N : ℕ) (hN : 0 < N) (alpha : ℝ) (n : ℕ) (hn : n < nbf 2 N) :
    baryCoord ((nodes2 N alpha).getD n 0) = lam2 N alpha (rowL N (index 2 N n)) := by
  have hl : (indices 2 N).length = nbf 2 N := length_indices 2 N (by norm_num)
  have e : (nodes2 N alpha).getD n 0 = generalToRef equiTri (∑ k, lam2 N alpha (rowL N (index 2 N n)) k
      • equiTri k) := by
    unfold nodes2
    simp only [if_pos hN]
    rw [List.map_map, List.getD_eq_getElem _ _ (by rw [List.length_map]; omega), List.getElem_map]
    simp only [Function.comp]
    have : (indices 2 N)[n]'(by omega) = index 2 N n := by
      unfold index
      rw [List.getD_eq_getElem _ _ (by omega)]
    rw [this, warpTri_bary N hN, ← Finset.sum_add_distrib]
    simp only [lam2, add_smul]
  rw [e, gen_bary _ det_tri _ (lam2_sum N hN alpha _ (rowL_sum N _)), baryCoord_tail _
    (lam2_sum N hN alpha _ (rowL_sum N _))]

/-! ### The tetrahedron -/

theorem dot_tet (a b : Fin 4) (h : a ≠ b) :
    dot (equiTet b - equiTet a) (equiTet b - equiTet a) = 4 := by
  have h3 : Real.sqrt 3 ^ 2 = 3 := Real.sq_sqrt (by norm_num)
  have h6 : Real.sqrt 6 ^ 2 = 6 := Real.sq_sqrt (by norm_num)
  have h3' : Real.sqrt 3 ≠ 0 := by positivity
  have h6' : Real.sqrt 6 ≠ 0 := by positivity
  unfold dot
  rw [Fin.sum_univ_three]
  fin_cases a <;> fin_cases b <;> first | exact absurd rfl h | skip
  all_goals
    simp [equiTet]
    field_simp
    try simp only [h3, h6]
    try norm_num
    try nlinarith [h3, h6]

theorem dot_tet_mid (a b c : Fin 4) (h : a ≠ b) (h1 : c ≠ a) (h2 : c ≠ b) :
    dot (equiTet c - (0.5 : ℝ) • (equiTet b + equiTet a)) (equiTet c - (0.5 : ℝ) • (equiTet b + equiTet a))
      = 3 := by
  have e : equiTet c - (0.5 : ℝ) • (equiTet b + equiTet a)
      = (0.5 : ℝ) • ((equiTet c - equiTet a) + (equiTet c - equiTet b)) := by
    funext i
    simp only [Pi.sub_apply, Pi.smul_apply, Pi.add_apply, smul_eq_mul]
    ring
  have ha := dot_tet a c h1.symm
  have hb := dot_tet b c h2.symm
  have hab := dot_tet a b h
  have hab' : equiTet b - equiTet a = (equiTet c - equiTet a) - (equiTet c - equiTet b) := by abel
  rw [e, smul_dot, dot_smul]
  set u := equiTet c - equiTet a
  set v := equiTet c - equiTet b
  rw [hab'] at hab
  simp only [dot, Fin.sum_univ_three, Pi.sub_apply, Pi.add_apply] at *
  linarith

theorem tangents_eq (f : Fin 4) :
    tangents f 0 = (1 / 2 : ℝ) • (equiTet (f2v (D := 2) f 1) - equiTet (f2v (D := 2) f 0)) ∧
    tangents f 1 = (1 / Real.sqrt 3) • (equiTet (f2v (D := 2) f 2)
      - (0.5 : ℝ) • (equiTet (f2v (D := 2) f 1) + equiTet (f2v (D := 2) f 0))) := by
  have inj : ∀ k l : Fin 3, k ≠ l → f2v (D := 2) f k ≠ f2v (D := 2) f l := fun k l h h' =>
    h (Fin.succAbove_right_injective h')
  have h1 := dot_tet (f2v (D := 2) f 0) (f2v (D := 2) f 1) (inj 0 1 (by decide))
  have h2 := dot_tet_mid (f2v (D := 2) f 0) (f2v (D := 2) f 1) (f2v (D := 2) f 2) (inj 0 1 (by decide))
    (inj 2 0 (by decide)) (inj 2 1 (by decide))
  have h4 : Real.sqrt 4 = 2 := by rw [show (4:ℝ) = 2 ^ 2 by norm_num, Real.sqrt_sq (by norm_num)]
  constructor
  · unfold tangents
    simp only [Matrix.cons_val_zero]
    unfold normalized
    rw [h1, if_pos (by norm_num), h4]
    funext i
    simp only [Pi.smul_apply, smul_eq_mul]
    ring
  · unfold tangents
    simp only [Matrix.cons_val_one, Matrix.cons_val_fin_one]
    unfold normalized
    rw [h2, if_pos (by norm_num)]
    funext i
    simp only [Pi.smul_apply, smul_eq_mul]
    ring

theorem face_warp (c : Fin 3 → ℝ) (hc : ∑ k, c k = 0) (f : Fin 4) :
    (∑ k, c k • equiTri k) 0 • tangents f 0 + (∑ k, c k • equiTri k) 1 • tangents f 1
      = ∑ k, c k • equiTet (f2v (D := 2) f k) := by
  rw [(tangents_eq f).1, (tangents_eq f).2]
  have h3 : Real.sqrt 3 * Real.sqrt 3 = 3 := Real.mul_self_sqrt (by norm_num)
  have h3' : Real.sqrt 3 ≠ 0 := by positivity
  rw [Fin.sum_univ_three] at hc
  have hc0 : c 0 = -c 1 - c 2 := by linarith
  funext i
  simp only [Fin.sum_univ_three, Pi.add_apply, Pi.smul_apply, Pi.sub_apply, smul_eq_mul, equiTri,
    Matrix.cons_val_zero, Matrix.cons_val_one, Matrix.cons_val]
  rw [hc0]
  have hi : 1 / Real.sqrt 3 * (1 / Real.sqrt 3) = 1 / 3 := by
    rw [div_mul_div_comm, h3]; norm_num
  have e : (-c 1 - c 2) * (-1 / Real.sqrt 3) + c 1 * (-1 / Real.sqrt 3) + c 2 * (2 / Real.sqrt 3)
      = 3 * c 2 * (1 / Real.sqrt 3) := by ring
  rw [e]
  linear_combination (3 * c 2 * (equiTet (f2v (D := 2) f 2) i
    - 0.5 * (equiTet (f2v (D := 2) f 1) i + equiTet (f2v (D := 2) f 0) i))) * hi

/-- The displacement in the face without vertex `m`. -/
def faceShift (N : ℕ) (alpha : ℝ) (L : Fin 4 → ℝ) (m j : Fin 4) : ℝ :=
  if j = m then 0 else
    ∑ q, if q = m then 0 else pull N alpha (L j) (L q) ((∑ p, L p) - L m - L j - L q)

theorem faceShift_self (N : ℕ) (alpha : ℝ) (L : Fin 4 → ℝ) (m : Fin 4) : faceShift N alpha L m m = 0 := by
  unfold faceShift; rw [if_pos rfl]

theorem faceShift_face (N : ℕ) (alpha : ℝ) (L : Fin 4 → ℝ) (m : Fin 4) (k : Fin 3) :
    faceShift N alpha L m (m.succAbove k) = shift N alpha (fun j => L (m.succAbove j)) k := by
  unfold faceShift shift
  rw [if_neg (Fin.succAbove_ne m k), Fin.sum_univ_succAbove _ m, if_pos rfl, zero_add,
    Fin.sum_univ_succAbove L m]
  refine Finset.sum_congr rfl fun q _ => ?_
  rw [if_neg (Fin.succAbove_ne m q)]
  congr 1
  ring

theorem faceShift_zero (N : ℕ) (alpha : ℝ) (L : Fin 4 → ℝ) (m : Fin 4) (h : L m = 0) :
    faceShift N alpha L m = shift N alpha L := by
  funext j
  rcases Fin.eq_self_or_eq_succAbove m j with hj | ⟨k, hj⟩
  · rw [hj, faceShift_self, shift_zero _ _ _ _ h]
  · rw [hj, faceShift_face, shift_succAbove _ _ _ _ h]

theorem faceShift_perm (N : ℕ) (alpha : ℝ) (L : Fin 4 → ℝ) (s : Equiv.Perm (Fin 4)) (m j : Fin 4) :
    faceShift N alpha (L ∘ s) m j = faceShift N alpha L (s m) (s j) := by
  unfold faceShift
  rw [← Equiv.sum_comp s fun q => if q = s m then 0 else
    pull N alpha (L (s j)) (L q) ((∑ p, L p) - L (s m) - L (s j) - L q)]
  simp only [Function.comp, EmbeddingLike.apply_eq_iff_eq]
  rw [Equiv.sum_comp s L]

theorem warpFace (N : ℕ) (hN : 0 < N) (alpha : ℝ) (L : Fin 4 → ℝ) (f : Fin 4) :
    (warpTri N alpha fun k => L (f2v (D := 2) f k)) 0 • tangents f 0
      + (warpTri N alpha fun k => L (f2v (D := 2) f k)) 1 • tangents f 1
      = ∑ j, faceShift N alpha L (missing (D := 2) f) j • equiTet j := by
  rw [warpTri_bary N hN, face_warp _ (shift_sum N hN alpha _),
    Fin.sum_univ_succAbove (fun j => faceShift N alpha L (missing (D := 2) f) j • equiTet j)
      (missing (D := 2) f), faceShift_self, zero_smul, zero_add]
  refine Finset.sum_congr rfl fun k _ => ?_
  rw [faceShift_face]
  rfl

/-- The product of the coordinates of the face without `m`. -/
def faceProd (L : Fin 4 → ℝ) (m : Fin 4) : ℝ := ∏ k : Fin 3, L (m.succAbove k)

def faceDenom (L : Fin 4 → ℝ) (m : Fin 4) : ℝ := ∏ k : Fin 3, (L (m.succAbove k) + 0.5 * L m)

/-- One face, in barycentric coordinates. -/
def tetStep (N : ℕ) (alpha : ℝ) (L : Fin 4 → ℝ) (r : Fin 4 → ℝ) (m : Fin 4) : Fin 4 → ℝ := fun j =>
  if |faceDenom L m| < epsilon then faceShift N alpha L m j
  else r j + (1 + alpha * alpha * (L m * L m)) * faceProd L m / faceDenom L m * faceShift N alpha L m j

theorem tetFacet_bary (N : ℕ) (hN : 0 < N) (alpha : ℝ) (L : Fin 4 → ℝ) (r : Fin 4 → ℝ) (f : Fin 4) :
    tetFacet N alpha L (∑ j, r j • equiTet j) f = ∑ j, tetStep N alpha L r f.rev j • equiTet j := by
  unfold tetFacet
  simp only
  rw [warpFace N hN alpha L f]
  have hd : (L (f2v (D := 2) f 0) + 0.5 * L (missing (D := 2) f))
      * (L (f2v (D := 2) f 1) + 0.5 * L (missing (D := 2) f))
      * (L (f2v (D := 2) f 2) + 0.5 * L (missing (D := 2) f)) = faceDenom L f.rev := by
    unfold faceDenom; rw [Fin.prod_univ_three]; rfl
  have hp : L (f2v (D := 2) f 0) * L (f2v (D := 2) f 1) * L (f2v (D := 2) f 2) = faceProd L f.rev := by
    unfold faceProd; rw [Fin.prod_univ_three]; rfl
  rw [hd, hp]
  unfold tetStep missing
  split
  · rw [zero_smul, one_smul, zero_add]
  · rw [one_smul, Finset.smul_sum, ← Finset.sum_add_distrib]
    refine Finset.sum_congr rfl fun j _ => ?_
    rw [smul_smul, ← add_smul]

def tetFold (N : ℕ) (alpha : ℝ) (L : Fin 4 → ℝ) : Fin 4 → ℝ :=
  [3, 2, 1, 0].foldl (tetStep N alpha L) 0

theorem tet_fold (N : ℕ) (hN : 0 < N) (alpha : ℝ) (L : Fin 4 → ℝ) :
    (List.finRange 4).foldl (tetFacet N alpha L) 0 = ∑ j, tetFold N alpha L j • equiTet j := by
  have h0 : (0 : Fin 3 → ℝ) = ∑ j, (0 : Fin 4 → ℝ) j • equiTet j := by simp
  have hl : List.finRange 4 = [0, 1, 2, 3] := by decide
  rw [hl, h0]
  unfold tetFold
  simp only [List.foldl]
  rw [tetFacet_bary N hN, tetFacet_bary N hN, tetFacet_bary N hN, tetFacet_bary N hN]
  rfl

theorem det_tet : (edgeMatrix equiTet).det ≠ 0 := by
  have h3 : (0:ℝ) < Real.sqrt 3 := by positivity
  have h6 : (0:ℝ) < Real.sqrt 6 := by positivity
  rw [Matrix.det_fin_three]
  simp [edgeMatrix, equiTet]
  have e1 : (2:ℝ) / Real.sqrt 3 - -1 / Real.sqrt 3 = 3 / Real.sqrt 3 := by ring
  have e2 : (3:ℝ) / Real.sqrt 6 - -1 / Real.sqrt 6 = 4 / Real.sqrt 6 := by ring

  rw [e1, e2]
  exact ⟨by positivity, by positivity⟩

/-- The coordinates of a lattice point: zero or at least `1/N`. -/
def Lattice (N : ℕ) (L : Fin 4 → ℝ) : Prop := N ≤ 2 ^ 16 ∧ ∀ m, L m = 0 ∨ 1 / (N : ℝ) ≤ L m

theorem inv_ge (N : ℕ) (hN : 0 < N) (h : N ≤ 2 ^ 16) : (1 / 65536 : ℝ) ≤ 1 / N := by
  have h1 : (0:ℝ) < N := by exact_mod_cast hN
  have h2 : (N:ℝ) ≤ 65536 := by exact_mod_cast h
  exact one_div_le_one_div_of_le h1 h2

theorem prod_three_ge (a b c e : ℝ) (he : 0 ≤ e) (ha : e ≤ a) (hb : e ≤ b) (hc : e ≤ c) :
    e * e * e ≤ a * b * c := by
  have h1 : 0 ≤ a := he.trans ha
  have h2 : 0 ≤ b := he.trans hb
  have h3 : 0 ≤ a * b := mul_nonneg h1 h2
  gcongr

theorem denom_pos (N : ℕ) (hN : 0 < N) (L : Fin 4 → ℝ) (hL : Lattice N L) (m : Fin 4)
    (h : L m ≠ 0 ∨ ∀ k : Fin 3, L (m.succAbove k) ≠ 0) : epsilon ≤ faceDenom L m := by
  have hinv := inv_ge N hN hL.1
  have hnn : ∀ k, 0 ≤ L k := fun k => by
    rcases hL.2 k with h | h
    · rw [h]
    · have : (0:ℝ) ≤ 1 / N := by positivity
      linarith
  have hf : ∀ k : Fin 3, (1 / 131072 : ℝ) ≤ L (m.succAbove k) + 0.5 * L m := by
    intro k
    have a1 := hnn m
    have a2 := hnn (m.succAbove k)
    rcases h with h | h
    · rcases hL.2 m with h' | h'
      · exact absurd h' h
      · norm_num at *; linarith
    · rcases hL.2 (m.succAbove k) with h' | h'
      · exact absurd h' (h k)
      · norm_num at *; linarith
  have := prod_three_ge _ _ _ (1 / 131072) (by norm_num) (hf 0) (hf 1) (hf 2)
  unfold faceDenom epsilon
  rw [Fin.prod_univ_three]
  norm_num at *
  linarith

theorem denom_abs (N : ℕ) (hN : 0 < N) (L : Fin 4 → ℝ) (hL : Lattice N L) (m : Fin 4)
    (h : L m ≠ 0 ∨ ∀ k : Fin 3, L (m.succAbove k) ≠ 0) :
    ¬ |faceDenom L m| < epsilon ∧ faceDenom L m ≠ 0 := by
  have h1 := denom_pos N hN L hL m h
  have h2 : 0 < epsilon := by unfold epsilon; positivity
  rw [abs_of_pos (by linarith)]
  exact ⟨by linarith, by linarith⟩

theorem step_off (N : ℕ) (hN : 0 < N) (alpha : ℝ) (L : Fin 4 → ℝ) (hL : Lattice N L) (r : Fin 4 → ℝ)
    (m d : Fin 4) (hd : L d = 0) (hm : L m ≠ 0) : tetStep N alpha L r m = r := by
  funext j
  unfold tetStep
  rw [if_neg (denom_abs N hN L hL m (Or.inl hm)).1]
  have : faceProd L m = 0 := by
    unfold faceProd
    have hne : d ≠ m := fun h => hm (h ▸ hd)
    obtain ⟨k, hk⟩ := Fin.exists_succAbove_eq hne
    exact Finset.prod_eq_zero (Finset.mem_univ k) (by rw [hk, hd])
  rw [this]
  ring

theorem step_alone (N : ℕ) (hN : 0 < N) (alpha : ℝ) (L : Fin 4 → ℝ) (hL : Lattice N L) (r : Fin 4 → ℝ)
    (m : Fin 4) (hm : L m = 0) (ho : ∀ k : Fin 3, L (m.succAbove k) ≠ 0) :
    tetStep N alpha L r m = r + shift N alpha L := by
  funext j
  have h := denom_abs N hN L hL m (Or.inr ho)
  unfold tetStep
  rw [if_neg h.1, faceShift_zero _ _ _ _ hm]
  have : faceProd L m = faceDenom L m := by
    unfold faceProd faceDenom
    refine Finset.prod_congr rfl fun k _ => ?_
    rw [hm]; ring
  rw [this, hm, mul_div_assoc, div_self h.2]
  simp

theorem step_masked (N : ℕ) (alpha : ℝ) (L : Fin 4 → ℝ) (r : Fin 4 → ℝ)
    (m : Fin 4) (hm : L m = 0) (k : Fin 3) (hk : L (m.succAbove k) = 0) :
    tetStep N alpha L r m = shift N alpha L := by
  funext j
  have : faceDenom L m = 0 := by
    unfold faceDenom
    exact Finset.prod_eq_zero (Finset.mem_univ k) (by rw [hk, hm]; ring)
  unfold tetStep
  rw [this, abs_zero, if_pos (by unfold epsilon; positivity), faceShift_zero _ _ _ _ hm]

theorem fold_one (N : ℕ) (hN : 0 < N) (alpha : ℝ) (L : Fin 4 → ℝ) (hL : Lattice N L)
    (d : Fin 4) (hd : L d = 0) (ho : ∀ m, m ≠ d → L m ≠ 0) (fs : List (Fin 4)) : ∀ r, fs.Nodup →
    fs.foldl (tetStep N alpha L) r = if d ∈ fs then r + shift N alpha L else r := by
  induction fs with
  | nil => intro r _; simp
  | cons m fs ih =>
    intro r hnd
    rw [List.nodup_cons] at hnd
    rw [List.foldl_cons, ih _ hnd.2]
    by_cases hm : m = d
    · subst hm
      rw [step_alone N hN alpha L hL r m hd (fun k => ho _ (Fin.succAbove_ne m k)), if_neg hnd.1,
        if_pos List.mem_cons_self]
    · rw [step_off N hN alpha L hL r m d hd (ho m hm)]
      simp only [List.mem_cons, Ne.symm hm, false_or]

theorem fold_two (N : ℕ) (hN : 0 < N) (alpha : ℝ) (L : Fin 4 → ℝ) (hL : Lattice N L)
    (d e : Fin 4) (hne : d ≠ e) (hd : L d = 0) (he : L e = 0) (fs : List (Fin 4)) : ∀ r,
    fs.foldl (tetStep N alpha L) r = if ∃ m ∈ fs, L m = 0 then shift N alpha L else r := by
  induction fs with
  | nil => intro r; simp
  | cons m fs ih =>
    intro r
    rw [List.foldl_cons, ih]
    by_cases hm : L m = 0
    · have : ∃ k : Fin 3, L (m.succAbove k) = 0 := by
        by_cases h : d = m
        · obtain ⟨k, hk⟩ := Fin.exists_succAbove_eq (x := e) (y := m) (fun h' => hne (h.trans h'.symm))
          exact ⟨k, by rw [hk, he]⟩
        · obtain ⟨k, hk⟩ := Fin.exists_succAbove_eq h
          exact ⟨k, by rw [hk, hd]⟩
      obtain ⟨k, hk⟩ := this
      rw [step_masked N alpha L r m hm k hk, ite_self, if_pos ⟨m, List.mem_cons_self, hm⟩]
    · rw [step_off N hN alpha L hL r m d hd hm]
      simp [hm]

/-- On the faces the displacement is the one of the triangle. -/
theorem tetFold_face (N : ℕ) (hN : 0 < N) (alpha : ℝ) (L : Fin 4 → ℝ) (hL : Lattice N L)
    (d : Fin 4) (hd : L d = 0) : tetFold N alpha L = shift N alpha L := by
  have hmem : ∀ d : Fin 4, d ∈ ([3, 2, 1, 0] : List (Fin 4)) := by decide
  by_cases h : ∃ e, e ≠ d ∧ L e = 0
  · obtain ⟨e, he, he0⟩ := h
    unfold tetFold
    rw [fold_two N hN alpha L hL d e (Ne.symm he) hd he0, if_pos ⟨d, hmem d, hd⟩]
  · unfold tetFold
    rw [fold_one N hN alpha L hL d hd (fun m hm h0 => h ⟨m, hm, h0⟩) _ _ (by decide), if_pos (hmem d),
      zero_add]

/-- In the interior the faces are blended. -/
theorem tetFold_inner (N : ℕ) (hN : 0 < N) (alpha : ℝ) (L : Fin 4 → ℝ) (hL : Lattice N L)
    (ho : ∀ m, L m ≠ 0) (j : Fin 4) : tetFold N alpha L j
      = ∑ m, (1 + alpha * alpha * (L m * L m)) * faceProd L m / faceDenom L m * faceShift N alpha L m j := by
  unfold tetFold
  have h := fun m => (denom_abs N hN L hL m (Or.inl (ho m))).1
  simp only [List.foldl, tetStep, h, if_false, Pi.zero_apply, Fin.sum_univ_four]
  ring

theorem prod_succAbove_perm (F : Fin 4 → ℝ) (s : Equiv.Perm (Fin 4)) (m : Fin 4)
    (G : Fin 4 → ℝ) (hG : ∀ q, G q = F (s q)) :
    ∏ k : Fin 3, G (m.succAbove k) = ∏ k : Fin 3, F ((s m).succAbove k) := by
  have key : ∀ (H : Fin 4 → ℝ) (p : Fin 4), ∏ k : Fin 3, H (p.succAbove k) = ∏ q, if q = p then 1 else H q := by
    intro H p
    rw [Fin.prod_univ_succAbove _ p, if_pos rfl, one_mul]
    refine Finset.prod_congr rfl fun k _ => ?_
    rw [if_neg (Fin.succAbove_ne p k)]
  rw [key, key, ← Equiv.prod_comp s fun q => if q = s m then 1 else F q]
  simp only [EmbeddingLike.apply_eq_iff_eq, hG]

theorem tetFold_perm (N : ℕ) (hN : 0 < N) (alpha : ℝ) (L : Fin 4 → ℝ) (hL : Lattice N L)
    (s : Equiv.Perm (Fin 4)) (j : Fin 4) : tetFold N alpha (L ∘ s) j = tetFold N alpha L (s j) := by
  have hL' : Lattice N (L ∘ s) := ⟨hL.1, fun m => hL.2 (s m)⟩
  by_cases h : ∃ d, L d = 0
  · obtain ⟨d, hd⟩ := h
    rw [tetFold_face N hN alpha L hL d hd, tetFold_face N hN alpha (L ∘ s) hL' (s.symm d) (by simpa using hd),
      shift_perm]
  · have ho : ∀ m, L m ≠ 0 := fun m hm => h ⟨m, hm⟩
    rw [tetFold_inner N hN alpha L hL ho, tetFold_inner N hN alpha (L ∘ s) hL' (fun m => ho (s m)),
      ← Equiv.sum_comp s fun m => (1 + alpha * alpha * (L m * L m)) * faceProd L m / faceDenom L m
        * faceShift N alpha L m (s j)]
    refine Finset.sum_congr rfl fun m _ => ?_
    rw [faceShift_perm]
    have e1 : faceProd (L ∘ s) m = faceProd L (s m) := prod_succAbove_perm L s m _ fun q => rfl
    have e2 : faceDenom (L ∘ s) m = faceDenom L (s m) :=
      prod_succAbove_perm (fun q => L q + 0.5 * L (s m)) s m (fun q => (L ∘ s) q + 0.5 * (L ∘ s) m)
        fun q => rfl
    rw [e1, e2]
    rfl

theorem tetFold_sum (N : ℕ) (hN : 0 < N) (alpha : ℝ) (L : Fin 4 → ℝ) (hL : Lattice N L) :
    ∑ j, tetFold N alpha L j = 0 := by
  by_cases h : ∃ d, L d = 0
  · obtain ⟨d, hd⟩ := h
    rw [tetFold_face N hN alpha L hL d hd, shift_sum N hN]
  · have ho : ∀ m, L m ≠ 0 := fun m hm => h ⟨m, hm⟩
    rw [Finset.sum_congr rfl fun j _ => tetFold_inner N hN alpha L hL ho j, Finset.sum_comm]
    refine Finset.sum_eq_zero fun m _ => ?_
    rw [← Finset.mul_sum, Fin.sum_univ_succAbove _ m, faceShift_self, zero_add]
    simp only [faceShift_face]
    rw [shift_sum N hN, mul_zero]

/-- The barycentric coordinates of a node of the tetrahedron. -/
def lam3 (N : ℕ) (alpha : ℝ) (L : Fin 4 → ℝ) (k : Fin 4) : ℝ := L k + tetFold N alpha L k

theorem lam3_sum (N : ℕ) (hN : 0 < N) (alpha : ℝ) (L : Fin 4 → ℝ) (hL : Lattice N L)
    (h : ∑ k, L k = 1) : ∑ k, lam3 N alpha L k = 1 := by
  unfold lam3
  rw [Finset.sum_add_distrib, h, tetFold_sum N hN alpha L hL, add_zero]

theorem rowL_lattice (N : ℕ) (hN : 0 < N) (hN' : N ≤ 2 ^ 16) (i : Fin 3 → ℕ) (hi : ∑ d, i d ≤ N) :
    Lattice N (rowL N i) := by
  refine ⟨hN', fun m => ?_⟩
  rw [rowL_eq N hN i hi]
  rcases Nat.eq_zero_or_pos (baryIndex N i m) with h | h
  · left; rw [h]; simp
  · right
    have : (1:ℝ) ≤ baryIndex N i m := by exact_mod_cast h
    gcongr

theorem node3 (N : ℕ) (hN : 0 < N) (hN' : N ≤ 2 ^ 16) (alpha : ℝ) (n : ℕ) (hn : n < nbf 3 N) :
    baryCoord ((nodes3 N alpha).getD n 0) = lam3 N alpha (rowL N (index 3 N n)) := by
  have hl : (indices 3 N).length = nbf 3 N := length_indices 3 N (by norm_num)
  have hi : ∑ d, index 3 N n d ≤ N := index_degree 3 N n (by norm_num) hn
  have hs := lam3_sum N hN alpha _ (rowL_lattice N hN hN' _ hi) (rowL_sum N _)
  have e : (nodes3 N alpha).getD n 0 = generalToRef equiTet (∑ k, lam3 N alpha (rowL N (index 3 N n)) k
      • equiTet k) := by
    unfold nodes3
    simp only [if_pos hN]
    rw [List.map_map, List.getD_eq_getElem _ _ (by rw [List.length_map]; omega), List.getElem_map]
    simp only [Function.comp]
    have : (indices 3 N)[n]'(by omega) = index 3 N n := by
      unfold index
      rw [List.getD_eq_getElem _ _ (by omega)]
    rw [this, tet_fold N hN, ← Finset.sum_add_distrib]
    congr 1
    refine Finset.sum_congr rfl fun j _ => ?_
    simp only [lam3]
    rw [← add_smul, add_comm]
  rw [e, gen_bary _ det_tet _ hs, baryCoord_tail _ hs]

end
end Tandem.WarpAndBlend
