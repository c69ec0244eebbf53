import Verif.Props.ElasticityConsistency
import Verif.Props.PoissonPSD
/-! # Property C75 for the elasticity operator: the interior penalty matrix is positive semidefinite -/
namespace Tandem.Elasticity
open Tandem.DGTopo Tandem.Spec
open Tandem.DGAssembly
open Tandem.Poisson (Method normalLength traceConstant skeleton_bound boundary_bound Measures cauchy_normal vec2_flip normalLength_neg
  idGeometry idOpposite xyRef exTag)

variable {dim Nbf Nbm Nq nq : Nat}
variable {P : Nat} {elems : Nat → List (List Nat)} {num fnum tag : List Nat → Nat} {views : Nat → View}

/-- The strain `(∇u + ∇uᵀ) / 2` of the displacement with coefficients `v`. -/
noncomputable def strain {n : Nat} (Dx : Fin Nbf → Fin dim → Fin n → ℝ) (v : Fin Nbf → Fin dim → ℝ) (i j : Fin dim) (q : Fin n) : ℝ :=
  (grad Dx v i j q + grad Dx v j i q) / 2

/-- The square of the Frobenius norm of the strain. -/
noncomputable def strain2 {n : Nat} (Dx : Fin Nbf → Fin dim → Fin n → ℝ) (v : Fin Nbf → Fin dim → ℝ) (q : Fin n) : ℝ :=
  ∑ i, ∑ j, strain Dx v i j q ^ 2

theorem strain2_nonneg {n : Nat} (Dx : Fin Nbf → Fin dim → Fin n → ℝ) (v : Fin Nbf → Fin dim → ℝ) (q : Fin n) : 0 ≤ strain2 Dx v q :=
  Finset.sum_nonneg (fun _ _ => Finset.sum_nonneg (fun _ _ => sq_nonneg _))

theorem trace_sq_le (ε : Fin dim → Fin dim → ℝ) : (∑ r, ε r r) ^ 2 ≤ dim * ∑ i, ∑ j, ε i j ^ 2 := by
  have h1 := Finset.sum_mul_sq_le_sq_mul_sq Finset.univ (fun _ : Fin dim => (1 : ℝ)) (fun r => ε r r)
  simp only [one_mul, one_pow, Finset.sum_const, Finset.card_univ, Fintype.card_fin, nsmul_eq_mul, mul_one] at h1
  refine le_trans h1 (mul_le_mul_of_nonneg_left ?_ (Nat.cast_nonneg _))
  apply Finset.sum_le_sum; intro i _
  exact Finset.single_le_sum (f := fun j => ε i j ^ 2) (fun j _ => sq_nonneg _) (Finset.mem_univ i)

/-- Hooke's law bounds the norm of the traction by `(dim λ + 2 μ) |ε| |n|`. -/
theorem traction_bound (l m : ℝ) (hl : 0 ≤ l) (hm : 0 ≤ m) (ε : Fin dim → Fin dim → ℝ) (n : Fin dim → ℝ) :
    ∑ p, (l * (∑ r, ε r r) * n p + 2 * m * ∑ j, ε p j * n j) ^ 2 ≤
      (dim * l + 2 * m) ^ 2 * (∑ i, ∑ j, ε i j ^ 2) * ∑ r, n r * n r := by
  set t := ∑ r, ε r r with ht
  set S := ∑ i, ∑ j, ε i j ^ 2 with hS
  have hrow : ∀ p, l * t * n p + 2 * m * ∑ j, ε p j * n j = ∑ j, n j * (l * t * delta p j + 2 * m * ε p j) := by
    intro p
    have : l * t * n p = ∑ j, delta p j * (l * t * n j) := (delta_sum p (fun j => l * t * n j)).symm
    rw [this, Finset.mul_sum (f := fun j => ε p j * n j), ← Finset.sum_add_distrib]
    apply Finset.sum_congr rfl; intro j _; ring
  simp only [hrow]
  have h1 : ∑ p, (∑ j, n j * (l * t * delta p j + 2 * m * ε p j)) ^ 2 ≤
      (∑ r, n r * n r) * ∑ p, ∑ j, (l * t * delta p j + 2 * m * ε p j) ^ 2 := by
    rw [Finset.mul_sum (f := fun p => ∑ j, (l * t * delta p j + 2 * m * ε p j) ^ 2)]
    exact Finset.sum_le_sum (fun p _ => cauchy_normal n _)
  have h2 : ∑ p, ∑ j, (l * t * delta p j + 2 * m * ε p j) ^ 2 = (dim * l ^ 2 + 4 * l * m) * t ^ 2 + 4 * m ^ 2 * S := by
    have e1 : ∀ p j : Fin dim, (l * t * delta p j + 2 * m * ε p j) ^ 2 =
        delta p j * (l ^ 2 * t ^ 2 + 4 * l * m * t * ε p j) + 4 * m ^ 2 * ε p j ^ 2 := by
      intro p j
      have : delta p j * delta p j = (delta p j : ℝ) := by unfold delta; split <;> simp
      calc _ = (delta p j * delta p j) * (l ^ 2 * t ^ 2) + delta p j * (4 * l * m * t * ε p j) + 4 * m ^ 2 * ε p j ^ 2 := by ring
        _ = _ := by rw [this]; ring
    simp only [e1, Finset.sum_add_distrib, ← Finset.mul_sum]
    simp only [fun p => delta_sum p (fun j => l ^ 2 * t ^ 2 + 4 * l * m * t * ε p j)]
    have e2 : ∑ x, 4 * l * m * t * ε x x = 4 * l * m * t * t := by rw [ht, ← Finset.mul_sum]
    rw [Finset.sum_add_distrib, e2, ← hS]
    simp only [Finset.sum_const, Finset.card_univ, Fintype.card_fin, nsmul_eq_mul]
    ring
  have h3 : t ^ 2 ≤ dim * S := trace_sq_le ε
  have hn : 0 ≤ ∑ r, n r * n r := Finset.sum_nonneg (fun r _ => mul_self_nonneg _)
  refine le_trans h1 ?_
  rw [h2, mul_comm]
  apply mul_le_mul_of_nonneg_right _ hn
  have h4 := mul_le_mul_of_nonneg_left h3 (show 0 ≤ (dim : ℝ) * l ^ 2 + 4 * l * m by positivity)
  calc _ ≤ (dim * l ^ 2 + 4 * l * m) * (dim * S) + 4 * m ^ 2 * S := by linarith
    _ = _ := by ring

theorem trac_strain (lam mu : Fin nq → ℝ) (Dx : Fin Nbf → Fin dim → Fin nq → ℝ) (n : Fin dim → Fin nq → ℝ)
    (v : Fin Nbf → Fin dim → ℝ) (p : Fin dim) (q : Fin nq) :
    trac lam mu Dx n v p q = lam q * (∑ r, strain Dx v r r q) * n p q + 2 * mu q * ∑ j, strain Dx v p j q * n j q := by
  unfold trac strain
  congr 1
  · congr 2; apply Finset.sum_congr rfl; intro r _; ring
  · rw [Finset.mul_sum, Finset.mul_sum]
    apply Finset.sum_congr rfl; intro j _; ring

theorem trac_zero (lam mu : Fin nq → ℝ) (Dx : Fin Nbf → Fin dim → Fin nq → ℝ) (n : Fin dim → Fin nq → ℝ)
    (v : Fin Nbf → Fin dim → ℝ) (p : Fin dim) (q : Fin nq) (h : normalLength n q = 0) : trac lam mu Dx n v p q = 0 := by
  unfold normalLength at h
  have h0 : ∑ j, n j q * n j q = 0 := by
    have := Real.sqrt_eq_zero (Finset.sum_nonneg (s := Finset.univ) (fun j _ => mul_self_nonneg (n j q)))
    exact this.1 h
  have hn : ∀ j, n j q = 0 := by
    intro j
    have := (Finset.sum_eq_zero_iff_of_nonneg (s := Finset.univ) (fun j _ => mul_self_nonneg (n j q))).1 h0 j (Finset.mem_univ j)
    exact mul_self_eq_zero.1 this
  unfold trac
  simp [hn]

/-- The quadratic form of the volume matrix: the elastic energy. -/
theorem volume_form (lam mu : Fin Nq → ℝ) (Dx : Fin Nbf → Fin dim → Fin Nq → ℝ) (x : Fin Nbf → Fin dim → ℝ) :
    ∑ k, ∑ p, x k p * mulVec (kAssembleVolume lam mu Dx) x k p =
      ∑ q, (lam q * (∑ r, grad Dx x r r q) ^ 2 + 2 * mu q * strain2 Dx x q) := by
  have h1 : ∀ k p, x k p * mulVec (kAssembleVolume lam mu Dx) x k p =
      ∑ q, (lam q * (∑ r, grad Dx x r r q) * (Dx k p q * x k p) +
        mu q * ∑ j, (grad Dx x p j q + grad Dx x j p q) * (Dx k j q * x k p)) := by
    intro k p
    rw [volume_mul, Finset.mul_sum]
    apply Finset.sum_congr rfl; intro q _
    rw [mul_add]
    congr 1
    · ring
    · rw [Finset.mul_sum, Finset.mul_sum, Finset.mul_sum]
      apply Finset.sum_congr rfl; intro j _; ring
  simp only [h1]
  have h2 : ∀ k, ∑ p, ∑ q, (lam q * (∑ r, grad Dx x r r q) * (Dx k p q * x k p) +
        mu q * ∑ j, (grad Dx x p j q + grad Dx x j p q) * (Dx k j q * x k p)) =
      ∑ q, (lam q * (∑ r, grad Dx x r r q) * (∑ p, Dx k p q * x k p) +
        mu q * ∑ p, ∑ j, (grad Dx x p j q + grad Dx x j p q) * (Dx k j q * x k p)) := by
    intro k
    rw [Finset.sum_comm]
    apply Finset.sum_congr rfl; intro q _
    rw [Finset.sum_add_distrib, ← Finset.mul_sum, ← Finset.mul_sum]
  simp only [h2]
  rw [Finset.sum_comm]
  apply Finset.sum_congr rfl; intro q _
  rw [Finset.sum_add_distrib, ← Finset.mul_sum, ← Finset.mul_sum]
  have e1 : ∑ k, ∑ p, Dx k p q * x k p = ∑ r, grad Dx x r r q := by rw [Finset.sum_comm]; rfl
  have e2 : ∑ k, ∑ p, ∑ j, (grad Dx x p j q + grad Dx x j p q) * (Dx k j q * x k p) =
      ∑ p, ∑ j, (grad Dx x p j q + grad Dx x j p q) * grad Dx x p j q := by
    rw [Finset.sum_comm]
    apply Finset.sum_congr rfl; intro p _
    rw [Finset.sum_comm]
    apply Finset.sum_congr rfl; intro j _
    rw [← Finset.mul_sum]; rfl
  rw [e1, e2]
  have e3 : ∑ p, ∑ j, (grad Dx x p j q + grad Dx x j p q) * grad Dx x p j q = ∑ p, ∑ j, (grad Dx x p j q + grad Dx x j p q) * grad Dx x j p q := by
    rw [Finset.sum_comm]
    apply Finset.sum_congr rfl; intro p _; apply Finset.sum_congr rfl; intro j _; ring
  have e4 : strain2 Dx x q = (∑ p, ∑ j, (grad Dx x p j q + grad Dx x j p q) * grad Dx x p j q + ∑ p, ∑ j, (grad Dx x p j q + grad Dx x j p q) * grad Dx x j p q) / 4 := by
    unfold strain2 strain
    rw [← Finset.sum_add_distrib, Finset.sum_div]
    apply Finset.sum_congr rfl; intro p _
    rw [← Finset.sum_add_distrib, Finset.sum_div]
    apply Finset.sum_congr rfl; intro j _; ring
  rw [e4, ← e3]; ring

/-- Testing with a displacement. -/
theorem test_sum (w lam mu : Fin nq → ℝ) (Dx : Fin Nbf → Fin dim → Fin nq → ℝ) (n : Fin dim → Fin nq → ℝ) (E : Fin Nbf → Fin nq → ℝ)
    (A B : Fin dim → Fin nq → ℝ) (x : Fin Nbf → Fin dim → ℝ) :
    ∑ k, ∑ p, x k p * (∑ q, w q * (A p q * E k q + ∑ u, kTractionOp lam mu Dx n k p u q * B u q)) =
      ∑ p, ∑ q, w q * (A p q * val E x p q + trac lam mu Dx n x p q * B p q) := by
  have h1 : ∑ k, ∑ p, x k p * (∑ q, w q * (A p q * E k q + ∑ u, kTractionOp lam mu Dx n k p u q * B u q)) =
      ∑ k, ∑ p, ∑ q, w q * (A p q * (E k q * x k p)) + ∑ k, ∑ p, ∑ q, ∑ u, w q * (kTractionOp lam mu Dx n k p u q * x k p * B u q) := by
    rw [← Finset.sum_add_distrib]
    apply Finset.sum_congr rfl; intro k _
    rw [← Finset.sum_add_distrib]
    apply Finset.sum_congr rfl; intro p _
    rw [← Finset.sum_add_distrib, Finset.mul_sum]
    apply Finset.sum_congr rfl; intro q _
    rw [mul_add, mul_add, Finset.mul_sum, Finset.mul_sum]
    congr 1
    · ring
    · apply Finset.sum_congr rfl; intro u _; ring
  have h2 : ∑ k, ∑ p, ∑ q, w q * (A p q * (E k q * x k p)) = ∑ p, ∑ q, w q * (A p q * val E x p q) := by
    rw [Finset.sum_comm]
    apply Finset.sum_congr rfl; intro p _
    rw [Finset.sum_comm]
    apply Finset.sum_congr rfl; intro q _
    unfold val
    rw [Finset.mul_sum, Finset.mul_sum]
  have h3 : ∑ k, ∑ p, ∑ q, ∑ u, w q * (kTractionOp lam mu Dx n k p u q * x k p * B u q) = ∑ p, ∑ q, w q * (trac lam mu Dx n x p q * B p q) := by
    have : ∀ u q, trac lam mu Dx n x u q = ∑ k, ∑ p, kTractionOp lam mu Dx n k p u q * x k p := fun u q => (trac_op _ _ _ _ _ _ _).symm
    simp only [this, Finset.sum_mul, Finset.mul_sum]
    have c1 : ∀ k, ∑ p, ∑ q, ∑ u, w q * (kTractionOp lam mu Dx n k p u q * x k p * B u q) =
        ∑ u, ∑ q, ∑ p, w q * (kTractionOp lam mu Dx n k p u q * x k p * B u q) := by
      intro k
      rw [Finset.sum_comm, Finset.sum_comm (s := Finset.univ (α := Fin dim)) (f := fun u q => ∑ p, _)]
      apply Finset.sum_congr rfl; intro q _
      rw [Finset.sum_comm]
    simp only [c1]
    rw [Finset.sum_comm]
    apply Finset.sum_congr rfl; intro u _
    rw [Finset.sum_comm]
  rw [h1, h2, h3, ← Finset.sum_add_distrib]
  apply Finset.sum_congr rfl; intro p _
  rw [← Finset.sum_add_distrib]
  apply Finset.sum_congr rfl; intro q _; ring

/-- The quadratic form of the four blocks of an interior facet. -/
theorem skeleton_form (w : Fin nq → ℝ) (lam mu : Fin 2 → Fin nq → ℝ) (Dx : Fin 2 → Fin Nbf → Fin dim → Fin nq → ℝ) (n : Fin dim → Fin nq → ℝ)
    (E : Fin 2 → Fin Nbf → Fin nq → ℝ) (nl : Fin nq → ℝ) (pen : ℝ) (x : Fin 2 → Fin Nbf → Fin dim → ℝ) :
    ∑ s, ∑ k, ∑ p, x s k p * (mulVec (kAssembleSurface ![-0.5, 0.5] ![epsilon * 0.5, -(epsilon * 0.5)] ![pen, -pen] w
        (fun s => kTractionOp (lam s) (mu s) (Dx s) n) E (fun s => kLiftIp (E s) nl) s 0) (x 0) k p +
      mulVec (kAssembleSurface ![-0.5, 0.5] ![epsilon * 0.5, -(epsilon * 0.5)] ![pen, -pen] w
        (fun s => kTractionOp (lam s) (mu s) (Dx s) n) E (fun s => kLiftIp (E s) nl) s 1) (x 1) k p) =
    ∑ i : Fin dim × Fin nq, w i.2 * (- (trac (lam 0) (mu 0) (Dx 0) n (x 0) i.1 i.2 + trac (lam 1) (mu 1) (Dx 1) n (x 1) i.1 i.2) *
        (val (E 0) (x 0) i.1 i.2 - val (E 1) (x 1) i.1 i.2) +
      pen * (nl i.2 * (val (E 0) (x 0) i.1 i.2 - val (E 1) (x 1) i.1 i.2) ^ 2)) := by
  have hs : ∀ s : Fin 2, ∀ k p, x s k p * (mulVec (kAssembleSurface ![-0.5, 0.5] ![epsilon * 0.5, -(epsilon * 0.5)] ![pen, -pen] w
        (fun s => kTractionOp (lam s) (mu s) (Dx s) n) E (fun s => kLiftIp (E s) nl) s 0) (x 0) k p +
      mulVec (kAssembleSurface ![-0.5, 0.5] ![epsilon * 0.5, -(epsilon * 0.5)] ![pen, -pen] w
        (fun s => kTractionOp (lam s) (mu s) (Dx s) n) E (fun s => kLiftIp (E s) nl) s 1) (x 1) k p) =
      x s k p * ∑ q, w q * ((sgn s * (-0.5 * (trac (lam 0) (mu 0) (Dx 0) n (x 0) p q + trac (lam 1) (mu 1) (Dx 1) n (x 1) p q) +
          pen * (nl q * (val (E 0) (x 0) p q - val (E 1) (x 1) p q)))) * E s k q +
        ∑ u, kTractionOp (lam s) (mu s) (Dx s) n k p u q * (-0.5 * (val (E 0) (x 0) u q - val (E 1) (x 1) u q))) := by
    intro s k p
    congr 1
    simp only [surface_mul, trac_op, lift_sum]
    rw [← Finset.sum_add_distrib]
    apply Finset.sum_congr rfl; intro q _
    have hB : ∑ u, kTractionOp (lam s) (mu s) (Dx s) n k p u q * (-0.5 * (val (E 0) (x 0) u q - val (E 1) (x 1) u q)) =
        -0.5 * ((∑ u, kTractionOp (lam s) (mu s) (Dx s) n k p u q * val (E 0) (x 0) u q) -
          ∑ u, kTractionOp (lam s) (mu s) (Dx s) n k p u q * val (E 1) (x 1) u q) := by
      rw [← Finset.sum_sub_distrib, Finset.mul_sum]
      apply Finset.sum_congr rfl; intro u _; ring
    rw [hB]
    unfold sgn epsilon
    fin_cases s
    · simp; ring
    · simp; ring
  simp only [hs]
  simp only [test_sum]
  rw [Fin.sum_univ_two, Fintype.sum_prod_type, ← Finset.sum_add_distrib]
  apply Finset.sum_congr rfl; intro p _
  rw [← Finset.sum_add_distrib]
  apply Finset.sum_congr rfl; intro q _
  simp [sgn]; ring

theorem boundary_form (w lam mu : Fin nq → ℝ) (Dx : Fin Nbf → Fin dim → Fin nq → ℝ) (n : Fin dim → Fin nq → ℝ)
    (E : Fin Nbf → Fin nq → ℝ) (nl : Fin nq → ℝ) (pen : ℝ) (x : Fin Nbf → Fin dim → ℝ) :
    ∑ k, ∑ p, x k p * mulVec (kAssembleSurface (fun _ => -1) (fun _ => epsilon) (fun _ => pen) w (fun _ => kTractionOp lam mu Dx n) (fun _ => E)
        (fun _ => kLiftIp E nl) 0 0) x k p =
    ∑ i : Fin dim × Fin nq, w i.2 * (- (2 * trac lam mu Dx n x i.1 i.2) * val E x i.1 i.2 + pen * (nl i.2 * val E x i.1 i.2 ^ 2)) := by
  have hs : ∀ k p, x k p * mulVec (kAssembleSurface (fun _ => -1) (fun _ => epsilon) (fun _ => pen) w (fun _ => kTractionOp lam mu Dx n) (fun _ => E)
        (fun _ => kLiftIp E nl) 0 0) x k p =
      x k p * ∑ q, w q * ((- trac lam mu Dx n x p q + pen * (nl q * val E x p q)) * E k q +
        ∑ u, kTractionOp lam mu Dx n k p u q * (- val E x u q)) := by
    intro k p
    congr 1
    simp only [surface_mul, trac_op, lift_sum]
    apply Finset.sum_congr rfl; intro q _
    simp only [mul_neg, Finset.sum_neg_distrib]
    unfold epsilon
    ring
  simp only [hs]
  rw [test_sum, Fintype.sum_prod_type]
  apply Finset.sum_congr rfl; intro p _
  apply Finset.sum_congr rfl; intro q _
  ring

/-- The penalty of a facet from the elements on its sides. -/
noncomputable def sidePenalty (dim N : Nat) (area volume : ℝ) (lam mu : Fin Nbm → ℝ) : ℝ :=
  traceConstant dim N * (area / volume) * ((stiffnessBounds dim lam mu).2 * (stiffnessBounds dim lam mu).2 / (stiffnessBounds dim lam mu).1)

/-- What `preparePenalty` computes for a facet, by the elements on its sides. -/
theorem penalty_eq (hd : IsDistributed P dim elems num fnum tag views) (r : Nat) (hr : r < P) (N : Nat) (areaR volumeR : Nat → ℝ)
    (area volume : List Nat → ℝ) (hmeas : Measures (views r) areaR volumeR area volume) (lamR muR : Nat → Fin Nbm → ℝ)
    (lam mu : List Nat → Fin Nbm → ℝ) (hlam : ∀ (u : Nat) (e : List Nat), (views r).elems[u]? = some e → lamR u = lam e)
    (hmu : ∀ (u : Nat) (e : List Nat), (views r).elems[u]? = some e → muR u = mu e)
    (i : Nat) (info : FacetInfo) (f : List Nat) (hi : i < (views r).numLocalFacets) (hinfo : facetInfo (views r) i = some info)
    (hf : (views r).facets[i]? = some f) :
    (∀ e, InElems P elems e → IsFacet e f → (∀ a, InElems P elems a → IsFacet a f → a = e) →
      preparePenalty dim N areaR volumeR lamR muR i info = (dim + 1 : ℝ) * sidePenalty dim N (area f) (volume e) (lam e) (mu e)) ∧
    (∀ e a, InElems P elems e → InElems P elems a → e ≠ a → IsFacet e f → IsFacet a f →
      preparePenalty dim N areaR volumeR lamR muR i info =
        (dim + 1 : ℝ) * sidePenalty dim N (area f) (volume e) (lam e) (mu e) / 4 + (dim + 1 : ℝ) * sidePenalty dim N (area f) (volume a) (lam a) (mu a) / 4) := by
  have hv := hd.view r hr
  obtain ⟨info', f', e0, e1, g1, g2, g3, g4, g5, g6, g7, _⟩ := C33_facet_info hd r hr i hi
  obtain rfl := Option.some.inj (hinfo.symm.trans g1)
  obtain rfl := Option.some.inj (hf.symm.trans g2)
  have hA := hmeas.area i f hf hi
  have hp : ∀ s : Fin 2, ∀ e, (views r).elems[upOf info s]? = some e →
      (dim + 1 : ℝ) * traceConstant dim N * (areaR i / volumeR (upOf info s)) * ((stiffnessBounds dim (lamR (upOf info s)) (muR (upOf info s))).2 *
        (stiffnessBounds dim (lamR (upOf info s)) (muR (upOf info s))).2 / (stiffnessBounds dim (lamR (upOf info s)) (muR (upOf info s))).1) =
      (dim + 1 : ℝ) * sidePenalty dim N (area f) (volume e) (lam e) (mu e) := by
    intro s e he
    rw [hlam _ _ he, hmu _ _ he, hmeas.volume _ _ he, hA]
    unfold sidePenalty; ring
  constructor
  · intro e he hef honly
    have h0 := honly e0 (mem_inElems hv g3) g5
    have h1 := honly e1 (mem_inElems hv g4) g6
    have hne : info.up0 = info.up1 := get_inj hv.once g3 (by rw [h0, ← h1]; exact g4)
    unfold preparePenalty
    simp only
    rw [if_neg (fun h => h hne), hp 0 e (h0 ▸ g3)]
  · intro e a he ha hea hef haf
    have hne : info.up0 ≠ info.up1 := by
      intro h
      have h01 : e0 = e1 := by rw [h] at g3; exact Option.some.inj (g3.symm.trans g4)
      rcases g7 e he hef with h | h <;> rcases g7 a ha haf with h' | h'
      all_goals (apply hea; rw [h, h']; try (first | exact h01 | exact h01.symm))
    unfold preparePenalty
    simp only
    rw [if_pos hne]
    rcases g7 e he hef with h | h <;> rcases g7 a ha haf with h' | h'
    · exact absurd (h.trans h'.symm) hea
    · rw [hp 0 e (h ▸ g3), hp 1 a (h' ▸ g4)]; norm_num; ring
    · rw [hp 0 a (h' ▸ g3), hp 1 e (h ▸ g4)]; norm_num; ring
    · exact absurd (h.trans h'.symm) hea

/-- **C75 (penalty, elasticity)**: all ranks that hold a facet compute the same penalty for it. -/
theorem C75_elasticity_penalty_same (hd : IsDistributed P dim elems num fnum tag views) (N : Nat) (areaR volumeR : Nat → Nat → ℝ)
    (area volume : List Nat → ℝ) (hmeas : ∀ r, r < P → Measures (views r) (areaR r) (volumeR r) area volume)
    (lamR muR : Nat → Nat → Fin Nbm → ℝ) (lam mu : List Nat → Fin Nbm → ℝ)
    (hlam : ∀ r, r < P → ∀ (u : Nat) (e : List Nat), (views r).elems[u]? = some e → lamR r u = lam e)
    (hmu : ∀ r, r < P → ∀ (u : Nat) (e : List Nat), (views r).elems[u]? = some e → muR r u = mu e)
    (r r' i i' : Nat) (info info' : FacetInfo) (f : List Nat) (hr : r < P) (hr' : r' < P)
    (hi : i < (views r).numLocalFacets) (hi' : i' < (views r').numLocalFacets)
    (hinfo : facetInfo (views r) i = some info) (hinfo' : facetInfo (views r') i' = some info')
    (hf : (views r).facets[i]? = some f) (hf' : (views r').facets[i']? = some f) :
    preparePenalty dim N (areaR r) (volumeR r) (lamR r) (muR r) i info = preparePenalty dim N (areaR r') (volumeR r') (lamR r') (muR r') i' info' := by
  obtain ⟨_, f', e0, e1, g1, g2, g3, g4, g5, g6, g7, _⟩ := C33_facet_info hd r hr i hi
  obtain rfl := Option.some.inj (hf.symm.trans g2)
  have hv := hd.view r hr
  obtain ⟨a1, a2⟩ := penalty_eq hd r hr N _ _ area volume (hmeas r hr) (lamR r) (muR r) lam mu (hlam r hr) (hmu r hr) i info f hi hinfo hf
  obtain ⟨b1, b2⟩ := penalty_eq hd r' hr' N _ _ area volume (hmeas r' hr') (lamR r') (muR r') lam mu (hlam r' hr') (hmu r' hr') i' info' f hi' hinfo' hf'
  by_cases h : e0 = e1
  · have honly : ∀ a, InElems P elems a → IsFacet a f → a = e0 := by
      intro a ha hfa
      rcases g7 a ha hfa with h' | h'
      · exact h'
      · rw [h', h]
    rw [a1 e0 (mem_inElems hv g3) g5 honly, b1 e0 (mem_inElems hv g3) g5 honly]
  · rw [a2 e0 e1 (mem_inElems hv g3) (mem_inElems hv g4) h g5 g6, b2 e0 e1 (mem_inElems hv g3) (mem_inElems hv g4) h g5 g6]

/-- The hypotheses of C75 on reference element, geometry and material: nonnegative weights, the inverse trace inequality for the
components of the strain with the constant of `InverseInequality`, first Lamé parameter not negative, and at the points the
stiffness between the bounds the code computes from the coefficients. -/
structure Coercive (P dim N : Nat) (elems : Nat → List (List Nat)) (ref : Ref dim Nbf Nbm Nq nq) (g : Geometry dim Nq nq)
    (lam mu : List Nat → Fin Nbm → ℝ) (area volume : List Nat → ℝ) : Prop where
  w : ∀ q, 0 ≤ ref.w q
  W : ∀ q, 0 ≤ ref.W q
  detJ : ∀ e, InElems P elems e → ∀ q, 0 ≤ g.absDetJ e q
  areaPos : ∀ e f, InElems P elems e → IsFacet e f → 0 < area f
  volumePos : ∀ e, InElems P elems e → 0 < volume e
  positive : ∀ e, InElems P elems e → 0 < ⨅ t, 2 * mu e t
  upperPos : ∀ e, InElems P elems e → 0 < ⨆ t, (dim * lam e t + 2 * mu e t)
  lamQ : ∀ e, InElems P elems e → ∀ q, 0 ≤ kCoefq ref.matE_Q_T (lam e) q
  lower : ∀ e, InElems P elems e → ∀ q, (⨅ t, 2 * mu e t) ≤ 2 * kCoefq ref.matE_Q_T (mu e) q
  lamq : ∀ e f, InElems P elems e → IsFacet e f → ∀ q, 0 ≤ kCoefq (ref.matE_q_T (g.localNo e f)) (lam e) q
  muq : ∀ e f, InElems P elems e → IsFacet e f → ∀ q, 0 ≤ kCoefq (ref.matE_q_T (g.localNo e f)) (mu e) q
  upper : ∀ e f, InElems P elems e → IsFacet e f → ∀ q, dim * kCoefq (ref.matE_q_T (g.localNo e f)) (lam e) q +
    2 * kCoefq (ref.matE_q_T (g.localNo e f)) (mu e) q ≤ ⨆ t, (dim * lam e t + 2 * mu e t)
  traceIneq : ∀ e f, InElems P elems e → IsFacet e f → ∀ v : Fin Nbf → Fin dim → ℝ,
    ∑ q, ref.w q * (normalLength (g.normal f e) q * strain2 (kDx (g.jInvFacet f e) (ref.Dxi_q (g.localNo e f))) v q) ≤
      traceConstant dim N * (area f / volume e) * ∑ q, g.absDetJ e q * ref.W q * strain2 (kDx (g.jInv e) ref.Dxi_Q) v q

theorem wj_eq (mE : Fin Nq → Fin Nbm → ℝ) (c : Fin Nbm → ℝ) (W J : Fin Nq → ℝ) (q : Fin Nq) :
    kWJQ mE c W J q = J q * W q * kCoefq mE c q := by
  unfold kWJQ kCoefq
  rw [Finset.mul_sum]; apply Finset.sum_congr rfl; intro t _; ring

theorem side_trace {N : Nat} {ref : Ref dim Nbf Nbm Nq nq} {g : Geometry dim Nq nq} {lam mu : List Nat → Fin Nbm → ℝ} {area volume : List Nat → ℝ}
    (hc : Coercive P dim N elems ref g lam mu area volume) (hdim : 0 < dim) (e f : List Nat) (he : InElems P elems e) (hf : IsFacet e f) (v : Fin Nbf → Fin dim → ℝ) :
    0 < sidePenalty dim N (area f) (volume e) (lam e) (mu e) ∧
    ∑ i : Fin dim × Fin nq, ref.w i.2 * (trac (kCoefq (ref.matE_q_T (g.localNo e f)) (lam e)) (kCoefq (ref.matE_q_T (g.localNo e f)) (mu e))
        (kDx (g.jInvFacet f e) (ref.Dxi_q (g.localNo e f))) (g.normal f e) v i.1 i.2 ^ 2 / normalLength (g.normal f e) i.2) ≤
      sidePenalty dim N (area f) (volume e) (lam e) (mu e) *
      ∑ q, (kWJQ ref.matE_Q_T (lam e) ref.W (g.absDetJ e) q * (∑ r, grad (kDx (g.jInv e) ref.Dxi_Q) v r r q) ^ 2 +
        2 * kWJQ ref.matE_Q_T (mu e) ref.W (g.absDetJ e) q * strain2 (kDx (g.jInv e) ref.Dxi_Q) v q) := by
  have hk0 := hc.positive e he
  have hk1 := hc.upperPos e he
  have hA := hc.areaPos e f he hf
  have hV := hc.volumePos e he
  have hT : 0 < traceConstant dim N := by
    unfold traceConstant
    apply div_pos
    · exact_mod_cast Nat.mul_pos (by omega) (by omega)
    · exact_mod_cast hdim
  have hpos : 0 < sidePenalty dim N (area f) (volume e) (lam e) (mu e) := by unfold sidePenalty stiffnessBounds; simp only; positivity
  refine ⟨hpos, ?_⟩
  set c1 := ⨆ t, (dim * lam e t + 2 * mu e t) with hc1
  set c0 := ⨅ t, 2 * mu e t with hc0
  have h1 : ∑ i : Fin dim × Fin nq, ref.w i.2 * (trac (kCoefq (ref.matE_q_T (g.localNo e f)) (lam e)) (kCoefq (ref.matE_q_T (g.localNo e f)) (mu e))
        (kDx (g.jInvFacet f e) (ref.Dxi_q (g.localNo e f))) (g.normal f e) v i.1 i.2 ^ 2 / normalLength (g.normal f e) i.2) ≤
      (c1 * c1) * ∑ q, ref.w q * (normalLength (g.normal f e) q * strain2 (kDx (g.jInvFacet f e) (ref.Dxi_q (g.localNo e f))) v q) := by
    rw [Fintype.sum_prod_type, Finset.sum_comm, Finset.mul_sum]
    apply Finset.sum_le_sum; intro q _
    simp only
    rw [← Finset.mul_sum, ← Finset.sum_div]
    have hb := traction_bound (kCoefq (ref.matE_q_T (g.localNo e f)) (lam e) q) (kCoefq (ref.matE_q_T (g.localNo e f)) (mu e) q)
      (hc.lamq e f he hf q) (hc.muq e f he hf q) (fun i j => strain (kDx (g.jInvFacet f e) (ref.Dxi_q (g.localNo e f))) v i j q) (fun j => g.normal f e j q)
    simp only [← trac_strain] at hb
    have hL : normalLength (g.normal f e) q ^ 2 = ∑ r, g.normal f e r q * g.normal f e r q :=
      Real.sq_sqrt (Finset.sum_nonneg (fun j _ => mul_self_nonneg _))
    have hL0 : 0 ≤ normalLength (g.normal f e) q := Real.sqrt_nonneg _
    have hS := strain2_nonneg (kDx (g.jInvFacet f e) (ref.Dxi_q (g.localNo e f))) v q
    have hcc : (dim * kCoefq (ref.matE_q_T (g.localNo e f)) (lam e) q + 2 * kCoefq (ref.matE_q_T (g.localNo e f)) (mu e) q) ^ 2 ≤ c1 * c1 := by
      rw [← sq]
      refine pow_le_pow_left₀ ?_ (hc.upper e f he hf q) 2
      have a1 := hc.lamq e f he hf q
      have a2 := hc.muq e f he hf q
      positivity
    have key : (∑ p, trac (kCoefq (ref.matE_q_T (g.localNo e f)) (lam e)) (kCoefq (ref.matE_q_T (g.localNo e f)) (mu e))
        (kDx (g.jInvFacet f e) (ref.Dxi_q (g.localNo e f))) (g.normal f e) v p q ^ 2) / normalLength (g.normal f e) q ≤
        c1 * c1 * (normalLength (g.normal f e) q * strain2 (kDx (g.jInvFacet f e) (ref.Dxi_q (g.localNo e f))) v q) := by
      rcases hL0.eq_or_lt with h | h
      · rw [← h]; simp
      · rw [div_le_iff₀ h]
        refine le_trans hb ?_
        rw [← hL]
        change _ * strain2 (kDx (g.jInvFacet f e) (ref.Dxi_q (g.localNo e f))) v q * _ ≤ _
        have := mul_le_mul_of_nonneg_right hcc (mul_nonneg hS (sq_nonneg (normalLength (g.normal f e) q)))
        calc _ = _ := mul_assoc _ _ _
          _ ≤ _ := this
          _ = _ := by ring
    calc _ ≤ ref.w q * (c1 * c1 * (normalLength (g.normal f e) q * strain2 (kDx (g.jInvFacet f e) (ref.Dxi_q (g.localNo e f))) v q)) :=
          mul_le_mul_of_nonneg_left key (hc.w q)
      _ = _ := by ring
  have h2 := mul_le_mul_of_nonneg_left (hc.traceIneq e f he hf v) (show 0 ≤ c1 * c1 by positivity)
  have h3 : c0 * ∑ q, g.absDetJ e q * ref.W q * strain2 (kDx (g.jInv e) ref.Dxi_Q) v q ≤
      ∑ q, (kWJQ ref.matE_Q_T (lam e) ref.W (g.absDetJ e) q * (∑ r, grad (kDx (g.jInv e) ref.Dxi_Q) v r r q) ^ 2 +
        2 * kWJQ ref.matE_Q_T (mu e) ref.W (g.absDetJ e) q * strain2 (kDx (g.jInv e) ref.Dxi_Q) v q) := by
    rw [Finset.mul_sum]
    apply Finset.sum_le_sum; intro q _
    rw [wj_eq, wj_eq]
    have hJW := mul_nonneg (hc.detJ e he q) (hc.W q)
    have hnn : 0 ≤ g.absDetJ e q * ref.W q * strain2 (kDx (g.jInv e) ref.Dxi_Q) v q := mul_nonneg hJW (strain2_nonneg _ _ _)
    have a1 := mul_le_mul_of_nonneg_right (hc.lower e he q) hnn
    have a2 : 0 ≤ g.absDetJ e q * ref.W q * kCoefq ref.matE_Q_T (lam e) q * (∑ r, grad (kDx (g.jInv e) ref.Dxi_Q) v r r q) ^ 2 :=
      mul_nonneg (mul_nonneg hJW (hc.lamQ e he q)) (sq_nonneg _)
    linarith
  refine le_trans h1 (le_trans h2 ?_)
  have h4 := mul_le_mul_of_nonneg_left h3 hpos.le
  refine le_trans (le_of_eq ?_) h4
  unfold sidePenalty stiffnessBounds
  simp only
  rw [← hc0, ← hc1]
  field_simp

theorem map_sum_apply {A : Type} (l : List A) (F : A → Fin Nbf → Fin dim → ℝ) (c : Fin Nbf → Fin dim → ℝ) :
    ∑ k, ∑ p, c k p * (l.map F).sum k p = (l.map (fun i => ∑ k, ∑ p, c k p * F i k p)).sum := by
  induction l with
  | nil => simp
  | cons i l ih =>
    rw [List.map_cons, List.map_cons, List.sum_cons, List.sum_cons, ← ih, ← Finset.sum_add_distrib]
    apply Finset.sum_congr rfl; intro k _
    rw [← Finset.sum_add_distrib]
    apply Finset.sum_congr rfl; intro p _
    rw [Pi.add_apply, Pi.add_apply]; ring

/-- The product of the part `e` of a vector with what facet `f` adds to row `e`. -/
noncomputable def facetTerm (P : Nat) (elems : Nat → List (List Nat)) (d : MeshOp (Fin Nbf → Fin dim → Fin Nbf → Fin dim → ℝ))
    (X : List Nat → Fin Nbf → Fin dim → ℝ) (e f : List Nat) : ℝ :=
  ∑ k, ∑ p, X e k p * meshFacet P elems d mulVec X e f k p

/-- The elastic energy of element `e` (twice). -/
noncomputable def energyTerm (ref : Ref dim Nbf Nbm Nq nq) (g : Geometry dim Nq nq) (lam mu : List Nat → Fin Nbm → ℝ)
    (X : List Nat → Fin Nbf → Fin dim → ℝ) (e : List Nat) : ℝ :=
  ∑ q, (kWJQ ref.matE_Q_T (lam e) ref.W (g.absDetJ e) q * (∑ r, grad (kDx (g.jInv e) ref.Dxi_Q) (X e) r r q) ^ 2 +
        2 * kWJQ ref.matE_Q_T (mu e) ref.W (g.absDetJ e) q * strain2 (kDx (g.jInv e) ref.Dxi_Q) (X e) q)

/-- The quadratic form of the global matrix is the sum of the energies and of the facet terms. -/
theorem row_total (hd : IsDistributed P dim elems num fnum tag views)
    (ref : Ref dim Nbf Nbm Nq nq) (g : Geometry dim Nq nq) (hg : g.Opposite P elems) (lam mu : List Nat → Fin Nbm → ℝ)
    (pen : List Nat → ℝ) (o : Nat → Op dim Nbf Nbm Nq nq) (ho : ∀ r, r < P → Samples (views r) (o r) .IP ref g lam mu pen)
    (X : List Nat → Fin Nbf → Fin dim → ℝ) :
    ∃ blocks : Nat → List (Nat × Nat × (Fin Nbf → Fin dim → Fin Nbf → Fin dim → ℝ)),
      (∀ r, r < P → assemble (views r) (o r).localOp = some (blocks r)) ∧
      ∑ r ∈ Finset.range P, ∑ u ∈ Finset.range (elems r).length, ∑ k, ∑ p, X ((views r).elems.getD u []) k p *
        rowApply mulVec (blocks r) (fun j => X ((views r).elems.getD j [])) u k p =
      ∑ e ∈ allElems P elems, (energyTerm ref g lam mu X e +
        ((Ghosts.facets dim e).map (facetTerm P elems (meshOp .IP ref g lam mu pen tag) X e)).sum) := by
  set d := meshOp .IP ref g lam mu pen tag with hdef
  have h0 : ∀ r, ∃ blocks, r < P → assemble (views r) (o r).localOp = some blocks ∧
      ∀ u, u < (elems r).length → ∃ e, (views r).elems[u]? = some e ∧ e ∈ elems r ∧
        rowApply mulVec blocks (fun j => X ((views r).elems.getD j [])) u =
          mulVec (d.vol e) (X e) + ((Ghosts.facets dim e).map (meshFacet P elems d mulVec X e)).sum := by
    intro r
    by_cases hr : r < P
    · obtain ⟨b, h1, h2⟩ := row_mesh hd r hr (o r).localOp d (agrees hd r hr (o r) .IP ref g hg lam mu pen (ho r hr)) mulVec X
      exact ⟨b, fun _ => ⟨h1, h2⟩⟩
    · exact ⟨[], fun h => absurd h hr⟩
  choose blocks hb using h0
  refine ⟨blocks, fun r hr => (hb r hr).1, ?_⟩
  set V : List Nat → ℝ := fun e => ∑ k, ∑ p, X e k p * mulVec (d.vol e) (X e) k p with hV
  set T : List Nat → List Nat → ℝ := fun e f => ∑ k, ∑ p, X e k p * meshFacet P elems d mulVec X e f k p with hT
  have hF : ∀ r ∈ Finset.range P, ∑ u ∈ Finset.range (elems r).length, ∑ k, ∑ p, X ((views r).elems.getD u []) k p *
        rowApply mulVec (blocks r) (fun j => X ((views r).elems.getD j [])) u k p =
      ∑ u ∈ Finset.range (elems r).length, (fun e => V e + ((Ghosts.facets dim e).map (T e)).sum) ((views r).elems.getD u []) := by
    intro r hr
    rw [Finset.mem_range] at hr
    apply Finset.sum_congr rfl; intro u hu
    rw [Finset.mem_range] at hu
    obtain ⟨e, e1, e2, e3⟩ := (hb r hr).2 u hu
    rw [e3, List.getD_eq_getElem?_getD, e1]
    simp only [Option.getD_some, hV, hT]
    rw [← map_sum_apply, ← Finset.sum_add_distrib]
    apply Finset.sum_congr rfl; intro k _
    rw [← Finset.sum_add_distrib]
    apply Finset.sum_congr rfl; intro p _
    rw [Pi.add_apply, Pi.add_apply]; ring
  rw [Finset.sum_congr rfl hF, sum_ranks hd (fun e => V e + ((Ghosts.facets dim e).map (T e)).sum)]
  apply Finset.sum_congr rfl; intro e _
  have hVe : V e = energyTerm ref g lam mu X e := by
    rw [hV, hdef]
    exact volume_form _ _ _ _
  rw [hVe]; rfl

/-- The penalty of a facet of the mesh. -/
theorem facet_penalty (hd : IsDistributed P dim elems num fnum tag views)
    (ref : Ref dim Nbf Nbm Nq nq) (g : Geometry dim Nq nq) (lam mu : List Nat → Fin Nbm → ℝ)
    (pen : List Nat → ℝ) (o : Nat → Op dim Nbf Nbm Nq nq) (ho : ∀ r, r < P → Samples (views r) (o r) .IP ref g lam mu pen)
    (N : Nat) (areaR volumeR : Nat → Nat → ℝ) (area volume : List Nat → ℝ)
    (hmeas : ∀ r, r < P → Measures (views r) (areaR r) (volumeR r) area volume)
    (hpen : ∀ r, r < P → ∀ i info, i < (views r).numLocalFacets → facetInfo (views r) i = some info →
      (o r).penalty_ i = preparePenalty dim N (areaR r) (volumeR r) (o r).lam (o r).mu i info) :
    ∀ e f, InElems P elems e → IsFacet e f →
      ((∀ a, InElems P elems a → IsFacet a f → a = e) → pen f = (dim + 1 : ℝ) * sidePenalty dim N (area f) (volume e) (lam e) (mu e)) ∧
      (∀ a, InElems P elems a → e ≠ a → IsFacet a f →
        pen f = (dim + 1 : ℝ) * sidePenalty dim N (area f) (volume e) (lam e) (mu e) / 4 + (dim + 1 : ℝ) * sidePenalty dim N (area f) (volume a) (lam a) (mu a) / 4) := by
  rintro e f ⟨r, hr, he⟩ hf
  have hv := hd.view r hr
  have heI : InElems P elems e := ⟨r, hr, he⟩
  have hmem : f ∈ (views r).facets := (hv.facetsExactly f).2 ⟨e, (hv.exactly e).2 ⟨heI, Or.inl he⟩, hf⟩
  obtain ⟨i, hi⟩ := List.mem_iff_getElem?.1 hmem
  have hlt : i < (views r).numLocalFacets := (hv.localFacets i f hi).2 ⟨e, he, hf⟩
  obtain ⟨info, f', e0, e1, g1, _⟩ := C33_facet_info hd r hr i hlt
  have hp := (ho r hr).penalty_ i f hi hlt
  rw [hpen r hr i info hlt g1] at hp
  obtain ⟨p1, p2⟩ := penalty_eq hd r hr N (areaR r) (volumeR r) area volume (hmeas r hr) (o r).lam (o r).mu lam mu (ho r hr).lam (ho r hr).mu i info f hlt g1 hi
  exact ⟨fun h => by rw [← hp, p1 e heI hf h], fun a ha hne hfa => by rw [← hp, p2 e a heI ha hne hf hfa]⟩

/-- The terms of an interior facet. -/
theorem pair_identity (hd : IsDistributed P dim elems num fnum tag views)
    (ref : Ref dim Nbf Nbm Nq nq) (g : Geometry dim Nq nq) (hg : g.Opposite P elems) (lam mu : List Nat → Fin Nbm → ℝ)
    (pen : List Nat → ℝ) (X : List Nat → Fin Nbf → Fin dim → ℝ) (f e a : List Nat) (he : InElems P elems e) (ha : InElems P elems a)
    (hne : e ≠ a) (hf : IsFacet e f) (hfa : IsFacet a f) :
    facetTerm P elems (meshOp .IP ref g lam mu pen tag) X e f + facetTerm P elems (meshOp .IP ref g lam mu pen tag) X a f =
      ∑ i : Fin dim × Fin nq, ref.w i.2 * (- (trac (kCoefq (ref.matE_q_T (g.localNo e f)) (lam e)) (kCoefq (ref.matE_q_T (g.localNo e f)) (mu e))
            (kDx (g.jInvFacet f e) (ref.Dxi_q (g.localNo e f))) (g.normal f e) (X e) i.1 i.2 +
          trac (kCoefq (ref.matE_q_T (g.localNo a f)) (lam a)) (kCoefq (ref.matE_q_T (g.localNo a f)) (mu a))
            (kDx (g.jInvFacet f a) (ref.Dxi_q (g.localNo a f))) (g.normal f e) (X a) i.1 i.2) *
          (val (ref.E_q (g.localNo e f)) (X e) i.1 i.2 - val (ref.E_q (g.localNo a f)) (X a) i.1 i.2) +
        pen f * (normalLength (g.normal f e) i.2 * (val (ref.E_q (g.localNo e f)) (X e) i.1 i.2 - val (ref.E_q (g.localNo a f)) (X a) i.1 i.2) ^ 2)) := by
  set d := meshOp .IP ref g lam mu pen tag with hdef
  set T : List Nat → List Nat → ℝ := facetTerm P elems d X with hT
  set LQ : List Nat → Fin nq → ℝ := fun e => kCoefq (ref.matE_q_T (g.localNo e f)) (lam e) with hLQ
  set MQ : List Nat → Fin nq → ℝ := fun e => kCoefq (ref.matE_q_T (g.localNo e f)) (mu e) with hMQ
  set DX : List Nat → Fin Nbf → Fin dim → Fin nq → ℝ := fun e => kDx (g.jInvFacet f e) (ref.Dxi_q (g.localNo e f)) with hDX
  have hform := skeleton_form ref.w ![LQ e, LQ a] ![MQ e, MQ a] ![DX e, DX a] (g.normal f e)
      ![ref.E_q (g.localNo e f), ref.E_q (g.localNo a f)] (normalLength (g.normal f e)) (pen f) ![X e, X a]
  have hsk : ∀ x y, skel2 .IP ref (pen f) (g.normal f e) ![lam e, lam a] ![mu e, mu a] ![g.jInvFacet f e, g.jInvFacet f a]
      ![g.localNo e f, g.localNo a f] ![g.absDetJ e, g.absDetJ a] x y = kAssembleSurface ![-0.5, 0.5] ![epsilon * 0.5, -(epsilon * 0.5)] ![pen f, -pen f] ref.w
      (fun s => kTractionOp ((![LQ e, LQ a] : Fin 2 → Fin nq → ℝ) s) ((![MQ e, MQ a] : Fin 2 → Fin nq → ℝ) s) ((![DX e, DX a] : Fin 2 → Fin Nbf → Fin dim → Fin nq → ℝ) s) (g.normal f e))
      ![ref.E_q (g.localNo e f), ref.E_q (g.localNo a f)]
      (fun s => kLiftIp ((![ref.E_q (g.localNo e f), ref.E_q (g.localNo a f)] : Fin 2 → Fin Nbf → Fin nq → ℝ) s) (normalLength (g.normal f e))) x y := by
    intro x y
    unfold skel2
    congr 1
    · funext s; fin_cases s <;> rfl
    · funext s; fin_cases s <;> rfl
    · funext s; fin_cases s <;> rfl
  have hfl : ∀ x y, skel2 .IP ref (pen f) (g.normal f a) ![lam a, lam e] ![mu a, mu e] ![g.jInvFacet f a, g.jInvFacet f e]
      ![g.localNo a f, g.localNo e f] ![g.absDetJ a, g.absDetJ e] x y =
      skel2 .IP ref (pen f) (g.normal f e) ![lam e, lam a] ![mu e, mu a] ![g.jInvFacet f e, g.jInvFacet f a]
      ![g.localNo e f, g.localNo a f] ![g.absDetJ e, g.absDetJ a] (1 - x) (1 - y) := by
    intro x y
    rw [← skel2_flip, hg f e a he ha hne hf hfa]
    simp only [vec2_flip]
  have hTe : T e f = ∑ k, ∑ p, X e k p * (mulVec (skel2 .IP ref (pen f) (g.normal f e) ![lam e, lam a] ![mu e, mu a] ![g.jInvFacet f e, g.jInvFacet f a]
      ![g.localNo e f, g.localNo a f] ![g.absDetJ e, g.absDetJ a] 0 0) (X e) k p +
      mulVec (skel2 .IP ref (pen f) (g.normal f e) ![lam e, lam a] ![mu e, mu a] ![g.jInvFacet f e, g.jInvFacet f a]
      ![g.localNo e f, g.localNo a f] ![g.absDetJ e, g.absDetJ a] 0 1) (X a) k p) := by
    simp only [hT, facetTerm, meshFacet, nbr_some hd.mesh he hf ha (Ne.symm hne) hfa]; rfl
  have hTa : T a f = ∑ k, ∑ p, X a k p * (mulVec (skel2 .IP ref (pen f) (g.normal f e) ![lam e, lam a] ![mu e, mu a] ![g.jInvFacet f e, g.jInvFacet f a]
      ![g.localNo e f, g.localNo a f] ![g.absDetJ e, g.absDetJ a] 1 0) (X e) k p +
      mulVec (skel2 .IP ref (pen f) (g.normal f e) ![lam e, lam a] ![mu e, mu a] ![g.jInvFacet f e, g.jInvFacet f a]
      ![g.localNo e f, g.localNo a f] ![g.absDetJ e, g.absDetJ a] 1 1) (X a) k p) := by
    simp only [hT, facetTerm, meshFacet, nbr_some hd.mesh ha hfa he hne hf]
    have b1 : d.diag f a e = skel2 .IP ref (pen f) (g.normal f e) ![lam e, lam a] ![mu e, mu a] ![g.jInvFacet f e, g.jInvFacet f a]
      ![g.localNo e f, g.localNo a f] ![g.absDetJ e, g.absDetJ a] 1 1 := hfl 0 0
    have b2 : d.off f a e = skel2 .IP ref (pen f) (g.normal f e) ![lam e, lam a] ![mu e, mu a] ![g.jInvFacet f e, g.jInvFacet f a]
      ![g.localNo e f, g.localNo a f] ![g.absDetJ e, g.absDetJ a] 1 0 := hfl 0 1
    rw [b1, b2]
    apply Finset.sum_congr rfl; intro k _
    apply Finset.sum_congr rfl; intro p _
    rw [Pi.add_apply, Pi.add_apply]; ring
  rw [hTe, hTa]
  simp only [hsk]
  rw [Fin.sum_univ_two] at hform
  exact hform

/-- The terms of a facet on the boundary. -/
theorem boundary_identity (ref : Ref dim Nbf Nbm Nq nq) (g : Geometry dim Nq nq) (lam mu : List Nat → Fin Nbm → ℝ)
    (pen : List Nat → ℝ) (X : List Nat → Fin Nbf → Fin dim → ℝ) (f e : List Nat)
    (honly : ∀ a, InElems P elems a → IsFacet a f → a = e) :
    (tag f = bcNatural → facetTerm P elems (meshOp .IP ref g lam mu pen tag) X e f = 0) ∧
    (tag f ≠ bcNatural → facetTerm P elems (meshOp .IP ref g lam mu pen tag) X e f =
      ∑ i : Fin dim × Fin nq, ref.w i.2 * (- (2 * trac (kCoefq (ref.matE_q_T (g.localNo e f)) (lam e)) (kCoefq (ref.matE_q_T (g.localNo e f)) (mu e))
            (kDx (g.jInvFacet f e) (ref.Dxi_q (g.localNo e f))) (g.normal f e) (X e) i.1 i.2) *
          val (ref.E_q (g.localNo e f)) (X e) i.1 i.2 + pen f * (normalLength (g.normal f e) i.2 * val (ref.E_q (g.localNo e f)) (X e) i.1 i.2 ^ 2))) := by
  set d := meshOp .IP ref g lam mu pen tag with hdef
  have hTe : facetTerm P elems d X e f = ∑ k, ∑ p, X e k p * (match d.bnd f e with
      | some b => mulVec b (X e)
      | none => 0) k p := by
    simp only [facetTerm, meshFacet, nbr_none honly]
    cases d.bnd f e <;> rfl
  rw [hTe]
  constructor
  · intro hn
    have : d.bnd f e = none := by rw [hdef]; unfold meshOp; simp only; rw [if_pos hn]
    rw [this]
    simp only [Pi.zero_apply, mul_zero, Finset.sum_const_zero]
  · intro hn
    have : d.bnd f e = some (kAssembleSurface (fun _ => -1) (fun _ => epsilon) (fun _ => pen f) ref.w
        (fun _ => kTractionOp (kCoefq (ref.matE_q_T (g.localNo e f)) (lam e)) (kCoefq (ref.matE_q_T (g.localNo e f)) (mu e))
          (kDx (g.jInvFacet f e) (ref.Dxi_q (g.localNo e f))) (g.normal f e)) (fun _ => ref.E_q (g.localNo e f)) (fun _ => kLiftIp (ref.E_q (g.localNo e f)) (normalLength (g.normal f e))) 0 0) := by
      rw [hdef]; unfold meshOp; simp only; rw [if_neg hn]; rfl
    rw [this]
    simp only
    rw [boundary_form]

theorem energyTerm_nonneg {N : Nat} {ref : Ref dim Nbf Nbm Nq nq} {g : Geometry dim Nq nq} {lam mu : List Nat → Fin Nbm → ℝ} {area volume : List Nat → ℝ}
    (hc : Coercive P dim N elems ref g lam mu area volume) (X : List Nat → Fin Nbf → Fin dim → ℝ) (e : List Nat) (he : InElems P elems e) :
    0 ≤ energyTerm ref g lam mu X e := by
  apply Finset.sum_nonneg; intro q _
  rw [wj_eq, wj_eq]
  have hm := le_trans (hc.positive e he).le (hc.lower e he q)
  have hJW := mul_nonneg (hc.detJ e he q) (hc.W q)
  have a1 : 0 ≤ g.absDetJ e q * ref.W q * kCoefq ref.matE_Q_T (lam e) q * (∑ r, grad (kDx (g.jInv e) ref.Dxi_Q) (X e) r r q) ^ 2 :=
    mul_nonneg (mul_nonneg hJW (hc.lamQ e he q)) (sq_nonneg _)
  have a2 : 0 ≤ g.absDetJ e q * ref.W q * (2 * kCoefq ref.matE_Q_T (mu e) q) * strain2 (kDx (g.jInv e) ref.Dxi_Q) (X e) q :=
    mul_nonneg (mul_nonneg hJW hm) (strain2_nonneg _ _ _)
  linarith

/-- **C75 (elasticity)**: with the penalty the code computes, the global interior penalty matrix is positive semidefinite: the
product of any vector with its image, summed over all ranks, is not negative. -/
theorem C75_elasticity (hd : IsDistributed P dim elems num fnum tag views)
    (ref : Ref dim Nbf Nbm Nq nq) (g : Geometry dim Nq nq) (hg : g.Opposite P elems) (lam mu : List Nat → Fin Nbm → ℝ)
    (pen : List Nat → ℝ) (o : Nat → Op dim Nbf Nbm Nq nq) (ho : ∀ r, r < P → Samples (views r) (o r) .IP ref g lam mu pen)
    (N : Nat) (areaR volumeR : Nat → Nat → ℝ) (area volume : List Nat → ℝ)
    (hmeas : ∀ r, r < P → Measures (views r) (areaR r) (volumeR r) area volume)
    (hpen : ∀ r, r < P → ∀ i info, i < (views r).numLocalFacets → facetInfo (views r) i = some info →
      (o r).penalty_ i = preparePenalty dim N (areaR r) (volumeR r) (o r).lam (o r).mu i info)
    (hc : Coercive P dim N elems ref g lam mu area volume) (X : List Nat → Fin Nbf → Fin dim → ℝ) :
    ∃ blocks : Nat → List (Nat × Nat × (Fin Nbf → Fin dim → Fin Nbf → Fin dim → ℝ)),
      (∀ r, r < P → assemble (views r) (o r).localOp = some (blocks r)) ∧
      0 ≤ ∑ r ∈ Finset.range P, ∑ u ∈ Finset.range (elems r).length, ∑ k, ∑ p, X ((views r).elems.getD u []) k p *
        rowApply mulVec (blocks r) (fun j => X ((views r).elems.getD j [])) u k p := by
  obtain ⟨blocks, hb, hsum⟩ := row_total hd ref g hg lam mu pen o ho X
  refine ⟨blocks, hb, ?_⟩
  rw [hsum]
  have hpf := facet_penalty hd ref g lam mu pen o ho N areaR volumeR area volume hmeas hpen
  have hD : (0 : ℝ) < dim + 1 := by positivity
  apply total_nonneg hd.mesh
  · intro f e a he ha hne hf hfa
    obtain ⟨c0, t0⟩ := side_trace hc hd.mesh.dim e f he hf (X e)
    obtain ⟨c1, t1⟩ := side_trace hc hd.mesh.dim a f ha hfa (X a)
    rw [pair_identity hd ref g hg lam mu pen X f e a he ha hne hf hfa]
    refine skeleton_bound (ι := Fin dim × Fin nq) (fun i => ref.w i.2) (fun i => normalLength (g.normal f e) i.2)
      (fun i => trac _ _ _ (g.normal f e) (X e) i.1 i.2) (fun i => trac _ _ _ (g.normal f e) (X a) i.1 i.2)
      (fun i => val (ref.E_q (g.localNo e f)) (X e) i.1 i.2 - val (ref.E_q (g.localNo a f)) (X a) i.1 i.2) (dim + 1 : ℝ) _ _ (energyTerm ref g lam mu X e) (energyTerm ref g lam mu X a) (pen f) (fun i => hc.w i.2) (fun i => Real.sqrt_nonneg _)
      (fun i h => trac_zero _ _ _ _ _ _ _ h) (fun i h => trac_zero _ _ _ _ _ _ _ h) hD c0 c1 t0 ?_ (le_of_eq ((hpf e f he hf).2 a ha hne hfa).symm)
    refine le_trans (le_of_eq ?_) t1
    apply Finset.sum_congr rfl; intro i _
    rw [hg f e a he ha hne hf hfa, normalLength_neg]
    congr 2
    rw [trac_neg, neg_sq]
  · intro f e he hf honly
    obtain ⟨c0, t0⟩ := side_trace hc hd.mesh.dim e f he hf (X e)
    obtain ⟨b1, b2⟩ := boundary_identity (P := P) (elems := elems) (tag := tag) ref g lam mu pen X f e honly
    by_cases hn : tag f = bcNatural
    · rw [b1 hn]
      have := div_nonneg (energyTerm_nonneg hc X e he) hD.le
      linarith
    · rw [b2 hn]
      exact boundary_bound (ι := Fin dim × Fin nq) (fun i => ref.w i.2) (fun i => normalLength (g.normal f e) i.2)
        (fun i => trac _ _ _ (g.normal f e) (X e) i.1 i.2) (fun i => val (ref.E_q (g.localNo e f)) (X e) i.1 i.2) (dim + 1 : ℝ) _ (energyTerm ref g lam mu X e) (pen f) (fun i => hc.w i.2) (fun i => Real.sqrt_nonneg _)
        (fun i h => trac_zero _ _ _ _ _ _ _ h) hD c0 t0 (le_of_eq ((hpf e f he hf).1 honly).symm)

/-- Values at the points lie between the smallest and the largest coefficient when the evaluation rows are convex combinations. -/
theorem convex_coef {n : Nat} (c : Fin Nbm → ℝ) (mE : Fin n → Fin Nbm → ℝ) (h0 : ∀ q m, 0 ≤ mE q m) (h1 : ∀ q, ∑ m, mE q m = 1)
    (lo hi : ℝ) (hlo : ∀ m, lo ≤ c m) (hhi : ∀ m, c m ≤ hi) (q : Fin n) : lo ≤ kCoefq mE c q ∧ kCoefq mE c q ≤ hi := by
  unfold kCoefq
  constructor
  · calc lo = ∑ m, mE q m * lo := by rw [← Finset.sum_mul, h1, one_mul]
      _ ≤ _ := Finset.sum_le_sum (fun m _ => mul_le_mul_of_nonneg_left (hlo m) (h0 q m))
  · calc _ ≤ ∑ m, mE q m * hi := Finset.sum_le_sum (fun m _ => mul_le_mul_of_nonneg_left (hhi m) (h0 q m))
      _ = hi := by rw [← Finset.sum_mul, h1, one_mul]

/-- With first Lamé parameter not negative, shear modulus positive and material coefficients that are convex combinations at the
points, the hypotheses of C75 follow from the inverse trace inequality. -/
theorem coercive_of_trace (hdim : 0 < dim) (N : Nat) (ref : Ref dim Nbf Nbm Nq nq) (g : Geometry dim Nq nq) (lam mu : List Nat → Fin Nbm → ℝ)
    (area volume : List Nat → ℝ) (hw : ∀ q, 0 ≤ ref.w q) (hW : ∀ q, 0 ≤ ref.W q)
    (hJ : ∀ e, InElems P elems e → ∀ q, 0 ≤ g.absDetJ e q)
    (harea : ∀ e f, InElems P elems e → IsFacet e f → 0 < area f)
    (hvol : ∀ e, InElems P elems e → 0 < volume e)
    (hlam : ∀ e, InElems P elems e → ∀ m, 0 ≤ lam e m) (hmu : ∀ e, InElems P elems e → ∀ m, 0 < mu e m) (hm : 0 < Nbm)
    (hEQ : ∀ q m, 0 ≤ ref.matE_Q_T q m) (hEQ1 : ∀ q, ∑ m, ref.matE_Q_T q m = 1)
    (hEq : ∀ l q m, 0 ≤ ref.matE_q_T l q m) (hEq1 : ∀ l q, ∑ m, ref.matE_q_T l q m = 1)
    (htr : ∀ e f, InElems P elems e → IsFacet e f → ∀ v : Fin Nbf → Fin dim → ℝ,
      ∑ q, ref.w q * (normalLength (g.normal f e) q * strain2 (kDx (g.jInvFacet f e) (ref.Dxi_q (g.localNo e f))) v q) ≤
        traceConstant dim N * (area f / volume e) * ∑ q, g.absDetJ e q * ref.W q * strain2 (kDx (g.jInv e) ref.Dxi_Q) v q) :
    Coercive P dim N elems ref g lam mu area volume := by
  haveI : Nonempty (Fin Nbm) := ⟨⟨0, hm⟩⟩
  have hlow : ∀ e m, (⨅ t, 2 * mu e t) ≤ 2 * mu e m := fun e m => ciInf_le (Set.finite_range (fun t => 2 * mu e t)).bddBelow m
  have hup : ∀ e m, dim * lam e m + 2 * mu e m ≤ ⨆ t, (dim * lam e t + 2 * mu e t) :=
    fun e m => le_ciSup (Set.finite_range (fun t => dim * lam e t + 2 * mu e t)).bddAbove m
  have hpos : ∀ e, InElems P elems e → 0 < ⨅ t, 2 * mu e t := by
    intro e he
    obtain ⟨m, hm⟩ := exists_eq_ciInf_of_finite (f := fun t => 2 * mu e t)
    rw [← hm]; have := hmu e he m; positivity
  have hcomb : ∀ e (l : Nat) q, dim * kCoefq (ref.matE_q_T l) (lam e) q + 2 * kCoefq (ref.matE_q_T l) (mu e) q =
      kCoefq (ref.matE_q_T l) (fun t => dim * lam e t + 2 * mu e t) q := by
    intro e l q
    unfold kCoefq
    rw [Finset.mul_sum, Finset.mul_sum, ← Finset.sum_add_distrib]
    apply Finset.sum_congr rfl; intro t _; ring
  have hcomb2 : ∀ e q, 2 * kCoefq ref.matE_Q_T (mu e) q = kCoefq ref.matE_Q_T (fun t => 2 * mu e t) q := by
    intro e q
    unfold kCoefq
    rw [Finset.mul_sum]
    apply Finset.sum_congr rfl; intro t _; ring
  refine ⟨hw, hW, hJ, harea, hvol, hpos, ?_, ?_, ?_, ?_, ?_, ?_, htr⟩
  · intro e he
    obtain ⟨m⟩ := ‹Nonempty (Fin Nbm)›
    refine lt_of_lt_of_le ?_ (hup e m)
    have a1 := hlam e he m
    have a2 := hmu e he m
    positivity
  · intro e he q
    exact Finset.sum_nonneg (fun t _ => mul_nonneg (hEQ q t) (hlam e he t))
  · intro e he q
    rw [hcomb2]
    exact (convex_coef _ _ hEQ hEQ1 _ (⨆ t, 2 * mu e t) (hlow e) (fun m => le_ciSup (Set.finite_range (fun t => 2 * mu e t)).bddAbove m) q).1
  · intro e f he hf q
    exact Finset.sum_nonneg (fun t _ => mul_nonneg (hEq _ q t) (hlam e he t))
  · intro e f he hf q
    exact Finset.sum_nonneg (fun t _ => mul_nonneg (hEq _ q t) (hmu e he t).le)
  · intro e f he hf q
    rw [hcomb]
    exact (convex_coef _ _ (hEq _) (hEq1 _) (⨅ t, (dim * lam e t + 2 * mu e t)) _
      (fun m => ciInf_le (Set.finite_range (fun t => dim * lam e t + 2 * mu e t)).bddBelow m) (hup e) q).2

/-- On a mesh of straight elements with elements of degree one, first Lamé parameter not negative, shear modulus positive and
material coefficients that are convex combinations at the points, the hypotheses of C75 hold, with the area and the volume the
code computes (src/form/DGCurvilinearCommon.cpp lines 90-94 and 55-59): no inverse trace inequality is assumed. -/
theorem coercive_degree_one (hdim : 0 < dim) (ref : Ref dim Nbf Nbm Nq nq) (g : Geometry dim Nq nq) (lam mu : List Nat → Fin Nbm → ℝ)
    (area volume : List Nat → ℝ) (hw : ∀ q, 0 ≤ ref.w q) (hW : ∀ q, 0 ≤ ref.W q)
    (hJ : ∀ e, InElems P elems e → ∀ q, 0 ≤ g.absDetJ e q)
    (harea : ∀ e f, InElems P elems e → IsFacet e f → area f = ∑ q, ref.w q * normalLength (g.normal f e) q ∧ 0 < area f)
    (hvol : ∀ e, InElems P elems e → volume e = ∑ q, ref.W q * g.absDetJ e q ∧ 0 < volume e)
    (hlam : ∀ e, InElems P elems e → ∀ m, 0 ≤ lam e m) (hmu : ∀ e, InElems P elems e → ∀ m, 0 < mu e m) (hm : 0 < Nbm)
    (hEQ : ∀ q m, 0 ≤ ref.matE_Q_T q m) (hEQ1 : ∀ q, ∑ m, ref.matE_Q_T q m = 1)
    (hEq : ∀ l q m, 0 ≤ ref.matE_q_T l q m) (hEq1 : ∀ l q, ∑ m, ref.matE_q_T l q m = 1)
    (hgrad : ∀ e f, InElems P elems e → IsFacet e f → ∀ v : Fin Nbf → Fin dim → ℝ, ∃ G : Fin dim → Fin dim → ℝ,
      (∀ r s q, grad (kDx (g.jInv e) ref.Dxi_Q) v r s q = G r s) ∧
      (∀ r s q, grad (kDx (g.jInvFacet f e) (ref.Dxi_q (g.localNo e f))) v r s q = G r s)) :
    Coercive P dim 0 elems ref g lam mu area volume :=
  coercive_of_trace hdim 0 ref g lam mu area volume hw hW hJ (fun e f he hf => (harea e f he hf).2) (fun e he => (hvol e he).2) hlam hmu hm
    hEQ hEQ1 hEq hEq1 <| by
    intro e f he hf v
    obtain ⟨G, hG, hG'⟩ := hgrad e f he hf v
    have ht : traceConstant dim 0 = 1 := by
      unfold traceConstant
      have : (dim : ℝ) ≠ 0 := by exact_mod_cast hdim.ne'
      push_cast; field_simp
      ring
    have s1 : ∀ q, strain2 (kDx (g.jInv e) ref.Dxi_Q) v q = ∑ i, ∑ j, ((G i j + G j i) / 2) ^ 2 := by
      intro q; unfold strain2 strain; simp only [hG]
    have s2 : ∀ q, strain2 (kDx (g.jInvFacet f e) (ref.Dxi_q (g.localNo e f))) v q = ∑ i, ∑ j, ((G i j + G j i) / 2) ^ 2 := by
      intro q; unfold strain2 strain; simp only [hG']
    simp only [s1, s2]
    generalize ∑ i, ∑ j, ((G i j + G j i) / 2) ^ 2 = S
    obtain ⟨hv, hvpos⟩ := hvol e he
    have e1 : ∑ q, g.absDetJ e q * ref.W q * S = volume e * S := by
      rw [hv, Finset.sum_mul]; apply Finset.sum_congr rfl; intro q _; ring
    have e2 : ∑ q, ref.w q * (normalLength (g.normal f e) q * S) = area f * S := by
      rw [(harea e f he hf).1, Finset.sum_mul]; apply Finset.sum_congr rfl; intro q _; ring
    rw [e1, e2, ht]
    apply le_of_eq
    field_simp

/-! ## The hypotheses of C75 can be met -/

/-- First Lamé parameter of the example, different in each element. -/
noncomputable def exLam (e : List Nat) (_ : Fin 1) : ℝ := e.sum
/-- Shear modulus of the example. -/
noncomputable def exMu (e : List Nat) (_ : Fin 1) : ℝ := 1 + e.sum

theorem exCoercive : Coercive 3 2 0 Ghosts.exElems xyRef idGeometry exLam exMu (fun _ => 1000) (fun _ => 1) where
  w := fun _ => by simp [xyRef]
  W := fun _ => by simp [xyRef]
  detJ := fun _ _ _ => by simp [idGeometry]
  areaPos := fun _ _ _ _ => by norm_num
  volumePos := fun _ _ => by norm_num
  positive := by intro e _; rw [ciInf_unique]; unfold exMu; positivity
  upperPos := by intro e _; rw [ciSup_unique]; unfold exMu exLam; positivity
  lamQ := by intro e _ q; simp only [kCoefq, xyRef, Fin.sum_univ_one, one_mul]; unfold exLam; positivity
  lower := by intro e _ q; rw [ciInf_unique]; simp [kCoefq, xyRef]
  lamq := by intro e f _ _ q; simp only [kCoefq, xyRef, Fin.sum_univ_one, one_mul]; unfold exLam; positivity
  muq := by intro e f _ _ q; simp only [kCoefq, xyRef, Fin.sum_univ_one, one_mul]; unfold exMu; positivity
  upper := by intro e f _ _ q; rw [ciSup_unique]; simp [kCoefq, xyRef]
  traceIneq := by
    rintro e f ⟨s, hs, he⟩ hf v
    have hall : ∀ s, s < 3 → ∀ a ∈ Ghosts.exElems s, a ∈ Ghosts.exAll := by decide
    have hv : ∀ s, s < 3 → ∀ a ∈ Ghosts.exElems s, a.length = 3 ∧ a.Pairwise (· < ·) := by decide
    have h0 : ∀ a ∈ Ghosts.exAll, ∀ f ∈ Ghosts.facets 2 a, (2 * a.sum - 3 * f.sum : ℤ) ≤ 100 ∧ - 100 ≤ (2 * a.sum - 3 * f.sum : ℤ) := by decide +kernel
    obtain ⟨b1, b2⟩ := h0 e (hall s hs e he) f ((Ghosts.facets_spec 2 (by decide) e (hv s hs e he).1 (hv s hs e he).2).2 f |>.2 hf)
    have hs1 : strain2 (kDx (idGeometry.jInvFacet f e) (xyRef.Dxi_q (idGeometry.localNo e f))) v 0 = strain2 (kDx (idGeometry.jInv e) xyRef.Dxi_Q) v 0 := rfl
    simp only [Fin.sum_univ_one, Fin.isValue, hs1]
    set c : ℝ := ((2 * e.sum - 3 * f.sum : ℤ) : ℝ) with hc
    have hn0 : idGeometry.normal f e 0 0 = c := by simp [idGeometry, Poisson.exGeometry, hc]
    have hn1 : idGeometry.normal f e 1 0 = c * 2 := by simp [idGeometry, Poisson.exGeometry, hc]; left; norm_num
    have hlen : normalLength (idGeometry.normal f e) 0 ^ 2 = 5 * c ^ 2 := by
      unfold normalLength
      rw [Real.sq_sqrt (Finset.sum_nonneg (fun j _ => mul_self_nonneg _)), Fin.sum_univ_two, hn0, hn1]; ring
    have hL0 : 0 ≤ normalLength (idGeometry.normal f e) 0 := Real.sqrt_nonneg _
    have hc1 : c ≤ 100 := by rw [hc]; exact_mod_cast b1
    have hc2 : -100 ≤ c := by rw [hc]; exact_mod_cast b2
    have hL1 : normalLength (idGeometry.normal f e) 0 ≤ 1000 := by nlinarith
    have ht : traceConstant 2 0 = 1 := by unfold traceConstant; norm_num
    rw [ht]
    have hS := strain2_nonneg (kDx (idGeometry.jInv e) xyRef.Dxi_Q) v 0
    have hw : xyRef.w 0 = 1 := rfl
    have hW : idGeometry.absDetJ e 0 * xyRef.W 0 = 1 := by simp [idGeometry, xyRef]
    rw [hw, hW]
    nlinarith

open Classical in
/-- Penalty of the facets of the strip with the material of the example. -/
noncomputable def exPenalty (f : List Nat) : ℝ :=
  if h : ∃ e a, InElems 3 Ghosts.exElems e ∧ InElems 3 Ghosts.exElems a ∧ e ≠ a ∧ IsFacet e f ∧ IsFacet a f then
    3 * sidePenalty 2 0 1000 1 (exLam h.choose) (exMu h.choose) / 4 +
      3 * sidePenalty 2 0 1000 1 (exLam h.choose_spec.choose) (exMu h.choose_spec.choose) / 4
  else if h : ∃ e, InElems 3 Ghosts.exElems e ∧ IsFacet e f then 3 * sidePenalty 2 0 1000 1 (exLam h.choose) (exMu h.choose) else 0

/-- The strip on three ranks: all hypotheses of C75 hold together. -/
theorem example_coercive : ∃ (num fnum : List Nat → Nat) (views : Nat → View) (o : Nat → Op 2 2 1 1 1),
    IsDistributed 3 2 Ghosts.exElems num fnum exTag views ∧ idGeometry.Opposite 3 Ghosts.exElems ∧
    (∀ r, r < 3 → Samples (views r) (o r) .IP xyRef idGeometry exLam exMu exPenalty) ∧
    (∀ r, r < 3 → Measures (views r) (fun _ => 1000) (fun _ => 1) (fun _ => 1000) (fun _ => 1)) ∧
    (∀ r, r < 3 → ∀ i info, i < (views r).numLocalFacets → facetInfo (views r) i = some info →
      (o r).penalty_ i = preparePenalty 2 0 (fun _ => 1000) (fun _ => 1) (o r).lam (o r).mu i info) ∧
    Coercive 3 2 0 Ghosts.exElems xyRef idGeometry exLam exMu (fun _ => 1000) (fun _ => 1) := by
  obtain ⟨num, fnum, views, o, h, ho⟩ := example_samples_of idGeometry (fun _ _ => rfl) .IP xyRef exLam exMu exPenalty
  have hmeas : ∀ r, r < 3 → Measures (views r) (fun _ => 1000) (fun _ => 1) (fun _ => 1000) (fun _ => 1) :=
    fun r _ => ⟨fun _ _ _ _ => rfl, fun _ _ _ => rfl⟩
  refine ⟨num, fnum, views, o, h, idOpposite, ho, hmeas, ?_, exCoercive⟩
  intro r hr i info hi hinfo
  have hv := h.view r hr
  obtain ⟨info', f, e0, e1, g1, g2, g3, g4, g5, g6, g7, _⟩ := C33_facet_info h r hr i hi
  rw [(ho r hr).penalty_ i f g2 hi]
  obtain ⟨p1, p2⟩ := penalty_eq h r hr 0 _ _ _ _ (hmeas r hr) (o r).lam (o r).mu exLam exMu (ho r hr).lam (ho r hr).mu i info f hi hinfo g2
  unfold exPenalty
  by_cases hex : ∃ e a, InElems 3 Ghosts.exElems e ∧ InElems 3 Ghosts.exElems a ∧ e ≠ a ∧ IsFacet e f ∧ IsFacet a f
  · rw [dif_pos hex]
    obtain ⟨q1, q2, q3, q4, q5⟩ := hex.choose_spec.choose_spec
    rw [p2 _ _ q1 q2 q3 q4 q5]; norm_num
  · rw [dif_neg hex]
    have hex' : ∃ e, InElems 3 Ghosts.exElems e ∧ IsFacet e f := ⟨e0, mem_inElems hv g3, g5⟩
    rw [dif_pos hex']
    obtain ⟨q1, q2⟩ := hex'.choose_spec
    rw [p1 _ q1 q2 (fun a ha hfa => Classical.byContradiction (fun hne => hex ⟨a, _, ha, q1, hne, hfa, q2⟩))]; norm_num

end Tandem.Elasticity
