import Verif.Model.PointLocator
import Verif.Spec.PointLocator
import Verif.Props.SimplexDistance
import Verif.Props.Curvilinear
/-! # Property C60: point location -/
namespace Tandem.PointLocator
open Curvilinear Matrix Equidistant Spec

noncomputable section
variable {D : ℕ}

theorem norm_euclid (x p : Fin D → ℝ) : norm (x - p) = euclid x p := by
  simp only [norm, dot, euclid, Pi.sub_apply, pow_two]

theorem baryPoint_ref (mu : Fin (D + 1) → ℝ) : baryPoint (refVertices D) mu = fun d => mu d.succ := by
  funext d
  simp only [baryPoint, refVertices, mul_ite, mul_one, mul_zero]
  rw [Finset.sum_eq_single d.succ]
  · simp
  · intro b _ hb
    rw [if_neg]
    intro hbd
    exact hb (Fin.ext (by simpa using hbd))
  · simp

theorem bary_ref (mu : Fin (D + 1) → ℝ) (h : Bary mu) : InRefSimplex (fun d : Fin D => mu d.succ) := by
  refine ⟨fun d => h.1 _, ?_⟩
  have := h.2
  rw [Fin.sum_univ_succ] at this
  have := h.1 0
  linarith

/-- The closest point of the reference simplex lies in the reference simplex. -/
theorem closest_ref (big : ℝ) (p : Fin D → ℝ) :
    ∃ c, SimplexDistance.closest big (refVertices D) p = some c ∧ InRefSimplex c.xi := by
  obtain ⟨c, h1, h2⟩ := SimplexDistance.closest_total big (refVertices D)
    (SimplexDistance.refVertices_independent D) (Nat.succ_pos D) p
  refine ⟨c, h1, ?_⟩
  rcases h2 with ⟨h2, _⟩ | ⟨h2, h3⟩
  · rw [h2]; exact ⟨fun _ => le_rfl, by simp⟩
  · rw [h3, baryPoint_ref]; exact bary_ref _ h2

/-- A point of the reference simplex is its own closest point. -/
theorem closest_inside (big : ℝ) (xi : Fin D → ℝ) (hxi : InRefSimplex xi)
    (hbig : ∑ d, xi d ^ 2 < big) :
    ∃ c, SimplexDistance.closest big (refVertices D) xi = some c ∧ c.xi = xi := by
  have hb : ∃ i, ∑ d, (refVertices D i d - xi d) ^ 2 < big := ⟨0, by
    simpa [refVertices] using hbig⟩
  obtain ⟨c, h1, _, _, h4, _⟩ := SimplexDistance.C59_closest big _
    (SimplexDistance.refVertices_independent D) xi hb
  refine ⟨c, h1, ?_⟩
  let mu : Fin (D + 1) → ℝ := Fin.cons (1 - ∑ d, xi d) xi
  have hmu : Bary mu := by
    constructor
    · intro i
      induction i using Fin.cases with
      | zero => simp only [mu, Fin.cons_zero]; have := hxi.2; linarith
      | succ d => simpa [mu] using hxi.1 d
    · rw [Fin.sum_univ_succ]; simp [mu]
  have hp : baryPoint (refVertices D) mu = xi := by rw [baryPoint_ref]; simp [mu]
  have := SimplexDistance.C59_unique big _ (SimplexDistance.refVertices_independent D) xi hb c h1 mu hmu
    (by rw [hp, h4]; simp only [euclid]; exact Real.sqrt_le_sqrt (by
          simp only [sub_self, ne_eq, OfNat.ofNat_ne_zero, not_false_eq_true, zero_pow,
            Finset.sum_const_zero]
          exact Finset.sum_nonneg fun d _ => sq_nonneg _))
  rw [this.1, hp]

/-- What `locate` has found after visiting the elements `els`. -/
def Found (g : Geometry D) (q : Params) (p : Fin D → ℝ) (els : List ℕ) (r : Result D) : Prop :=
  (r = ⟨noNo, q.big, fun _ => 0, fun _ => 0⟩ ∨
    (r.no ∈ els ∧ InRefSimplex r.xi ∧ r.x = g.X r.no r.xi ∧ r.dist = euclid r.x p ∧ r.dist < q.big))
  ∧ ∀ el ∈ els, insideBbox g q el p → ∃ xi c, xInv g q el p = some xi ∧
      SimplexDistance.closest q.big (refVertices D) xi = some c ∧ r.dist ≤ euclid (g.X el c.xi) p

theorem locate_found (g : Geometry D) (q : Params) (p : Fin D → ℝ) (els done : List ℕ)
    (r0 r : Result D) (h0 : Found g q p done r0) (h : els.foldlM (locateStep g q p) r0 = some r) :
    Found g q p (done ++ els) r := by
  induction els generalizing done r0 with
  | nil => simp only [List.foldlM_nil] at h; cases h; simpa using h0
  | cons el els ih =>
    rw [List.foldlM_cons] at h
    obtain ⟨r1, hr1, h⟩ := Option.bind_eq_some_iff.mp h
    rw [show done ++ el :: els = (done ++ [el]) ++ els by simp]
    refine ih (done ++ [el]) r1 ?_ h
    unfold locateStep at hr1
    by_cases hb : insideBbox g q el p
    · rw [if_pos hb] at hr1
      obtain ⟨xi, hxi, hr1⟩ := Option.bind_eq_some_iff.mp hr1
      obtain ⟨c, hc, hr1⟩ := Option.bind_eq_some_iff.mp hr1
      obtain ⟨c', hc', hcin⟩ := closest_ref q.big xi
      rw [hc] at hc'
      cases hc'
      simp only [pure, Option.some.injEq] at hr1
      have hle : r1.dist ≤ r0.dist ∧ r1.dist ≤ euclid (g.X el c.xi) p := by
        rw [← hr1]
        split
        · rename_i hlt; exact ⟨hlt.le, by simp only; rw [norm_euclid]⟩
        · rename_i hlt; rw [norm_euclid] at hlt; exact ⟨le_rfl, not_lt.mp hlt⟩
      constructor
      · rw [← hr1]
        split
        · rename_i hlt
          refine Or.inr ⟨by simp, hcin, rfl, norm_euclid _ _, ?_⟩
          simp only
          refine hlt.trans_le ?_
          rcases h0.1 with e | ⟨_, _, _, _, e⟩
          · rw [e]
          · exact e.le
        · rcases h0.1 with e | ⟨e1, e2⟩
          · exact Or.inl e
          · exact Or.inr ⟨by simp [e1], e2⟩
      · intro el' hel' hb'
        rcases List.mem_append.mp hel' with h' | h'
        · obtain ⟨a, b, h1, h2, h3⟩ := h0.2 el' h' hb'
          exact ⟨a, b, h1, h2, hle.1.trans h3⟩
        · obtain rfl := List.mem_singleton.mp h'
          exact ⟨xi, c, hxi, hc, hle.2⟩
    · rw [if_neg hb] at hr1
      cases hr1
      constructor
      · rcases h0.1 with e | ⟨e1, e2⟩
        · exact Or.inl e
        · exact Or.inr ⟨by simp [e1], e2⟩
      · intro el' hel' hb'
        rcases List.mem_append.mp hel' with h' | h'
        · exact h0.2 el' h' hb'
        · obtain rfl := List.mem_singleton.mp h'
          exact absurd hb' hb

/-- C60: whatever the geometry, a returned result is either "nothing found" or a true one: an element of
the range, reference coordinates inside the reference simplex, the physical point that the element map
gives for them, and its Euclidean distance to the query point; it is at least as close as what the
locator computed for every other element whose bounding box contains the query point. -/
theorem C60_result (g : Geometry D) (q : Params) (p : Fin D → ℝ) (els : List ℕ) (r : Result D)
    (h : locate g q p els = some r) :
    ((r.no = noNo ∧ r.dist = q.big) ∨
      (r.no ∈ els ∧ InRefSimplex r.xi ∧ r.x = g.X r.no r.xi ∧ r.dist = euclid r.x p ∧ r.dist < q.big))
    ∧ ∀ el ∈ els, insideBbox g q el p → ∃ xi c, xInv g q el p = some xi ∧
      SimplexDistance.closest q.big (refVertices D) xi = some c ∧ r.dist ≤ euclid (g.X el c.xi) p := by
  have := locate_found g q p els [] _ r ⟨Or.inl rfl, by simp⟩ h
  rw [List.nil_append] at this
  refine ⟨?_, this.2⟩
  rcases this.1 with e | e
  · exact Or.inl (by rw [e]; exact ⟨rfl, rfl⟩)
  · exact Or.inr e

/-- Element `el` is the affine simplex with the given vertices, and not degenerate. -/
structure IsAffine (g : Geometry D) (el : ℕ) (verts : Fin (D + 1) → Fin D → ℝ) : Prop where
  map : ∀ xi, g.X el xi = refToGeneral verts xi
  jac : ∀ xi, g.J el xi = edgeMatrix verts
  det : (edgeMatrix verts).det ≠ 0

theorem refToGeneral_sub (verts : Fin (D + 1) → Fin D → ℝ) (a b : Fin D → ℝ) :
    refToGeneral verts a - refToGeneral verts b = edgeMatrix verts *ᵥ (a - b) := by
  funext i
  simp only [refToGeneral, edgeMatrix, Matrix.mulVec, dotProduct, Matrix.of_apply, Pi.sub_apply]
  have h1 : ∀ a : Fin D → ℝ, (1 - ∑ d, a d) * verts 0 i + ∑ d : Fin D, a d * verts d.succ i
      = verts 0 i + ∑ d : Fin D, (verts d.succ i - verts 0 i) * a d := by
    intro a
    simp only [sub_mul, Finset.sum_sub_distrib, one_mul, Finset.sum_mul]
    have e1 : ∑ x, a x * verts 0 i = ∑ x, verts 0 i * a x :=
      Finset.sum_congr rfl fun x _ => mul_comm _ _
    have e2 : ∑ x : Fin D, a x * verts x.succ i = ∑ x : Fin D, verts x.succ i * a x :=
      Finset.sum_congr rfl fun x _ => mul_comm _ _
    rw [e1, e2]; ring
  rw [h1, h1]
  simp only [mul_sub, Finset.sum_sub_distrib]
  ring

theorem residual2_last (F : Fin (D + 1) → ℝ) : residual2 F = F (Fin.last D) ^ 2 := by
  rw [residual2, List.finRange_succ_last, List.foldl_append, List.foldl_cons, List.foldl_nil, pow_two]

/-- The exact reference coordinates of `p`. -/
theorem exact_map (verts : Fin (D + 1) → Fin D → ℝ) (hdet : (edgeMatrix verts).det ≠ 0)
    (p : Fin D → ℝ) : refToGeneral verts (generalToRef verts p) = p :=
  ((C58_affine D verts).2 hdet).1 p

theorem newton_step (g : Geometry D) (el : ℕ) (verts : Fin (D + 1) → Fin D → ℝ) (hA : IsAffine g el verts)
    (p xi : Fin D → ℝ) : xi + (g.J el xi)⁻¹ *ᵥ (p - g.X el xi) = generalToRef verts p := by
  have hu : IsUnit (edgeMatrix verts).det := isUnit_iff_ne_zero.mpr hA.det
  rw [hA.map, hA.jac]
  conv_lhs => rw [← exact_map verts hA.det p]
  rw [refToGeneral_sub, Matrix.mulVec_mulVec, Matrix.nonsing_inv_mul _ hu, Matrix.one_mulVec]
  simp [exact_map verts hA.det p]

theorem newton_stuck (g : Geometry D) (q : Params) (el : ℕ) (verts : Fin (D + 1) → Fin D → ℝ)
    (hA : IsAffine g el verts) (p : Fin D → ℝ) (n : ℕ) (xi : Fin D → ℝ)
    (hxi : residual2 (p - g.X el xi) = 0) : newton g q el p 0 n xi = none := by
  induction n generalizing xi with
  | zero => rfl
  | succ n ih =>
    simp only [newton, hxi, converged, mul_zero, lt_self_iff_false, if_true, if_false]
    apply ih
    rw [newton_step g el verts hA, hA.map, exact_map verts hA.det, sub_self]
    have : ∀ l : List (Fin D), l.foldl (fun (_ : ℝ) d => (0 : Fin D → ℝ) d * (0 : Fin D → ℝ) d) 0 = 0 := by
      intro l
      induction l with
      | nil => rfl
      | cons a l ih => simpa using ih
    exact this _

/-- C60: what Newton's method does on an affine element, completely: only the last coordinate matters.
If the query point has the last coordinate of the start point, it throws; if it is within the tolerance
of it, the start point is returned whatever the other coordinates are; otherwise the exact reference
coordinates are returned. -/
theorem C60_newton (g : Geometry (D + 1)) (q : Params) (hq : 0 < q.atol) (hits : 2 ≤ q.maxIts) (el : ℕ)
    (verts : Fin (D + 2) → Fin (D + 1) → ℝ) (hA : IsAffine g el verts) (p : Fin (D + 1) → ℝ) :
    let gap := (p (Fin.last D) - refToGeneral verts (fun _ => 1 / 3) (Fin.last D)) ^ 2
    xInv g q el p =
      if gap = 0 then none
      else if gap < q.atol + q.rtol then some (fun _ => 1 / 3)
      else some (generalToRef verts p) := by
  intro gap
  have hgap : residual2 (p - g.X el (fun _ => 1 / 3)) = gap := by
    rw [residual2_last, hA.map]; rfl
  by_cases h0 : gap = 0
  · rw [if_pos h0, xInv, hgap, h0]
    exact newton_stuck g q el verts hA p _ _ (hgap.trans h0)
  · rw [if_neg h0, xInv, hgap]
    obtain ⟨n, hn⟩ : ∃ n, q.maxIts = n + 2 := ⟨q.maxIts - 2, by omega⟩
    rw [hn, newton]
    simp only [newton_step g el verts hA]
    rw [show residual2 (p - g.X el fun _ => 1 / 3) = gap from hgap]
    have hc : converged q gap gap ↔ gap < q.atol + q.rtol := by
      rw [converged, if_neg h0, mul_div_assoc, div_self h0, mul_one]
    by_cases h1 : gap < q.atol + q.rtol
    · rw [if_pos (hc.mpr h1), if_pos h1]
    · rw [if_neg (fun h => h1 (hc.mp h)), if_neg h1, newton]
      have hr : residual2 (p - g.X el (generalToRef verts p)) = 0 := by
        rw [residual2_last, hA.map, exact_map verts hA.det, sub_self]; simp
      rw [hr, if_pos]
      rw [converged, if_neg h0, mul_zero, zero_div, add_zero]
      exact hq

/-- A non-degenerate affine element with its reference nodes (which contain the vertices). -/
structure Good (g : Geometry D) (el : ℕ) (verts : Fin (D + 1) → Fin D → ℝ) : Prop
    extends IsAffine g el verts where
  nodes : ∀ i, refVertices D i ∈ g.refNodes

theorem foldl_min_le (l : List (Fin D → ℝ)) (f : (Fin D → ℝ) → ℝ) (b : ℝ) :
    l.foldl (fun b xi => min b (f xi)) b ≤ b ∧
      ∀ xi ∈ l, l.foldl (fun b xi => min b (f xi)) b ≤ f xi := by
  induction l generalizing b with
  | nil => simp
  | cons a l ih =>
    rw [List.foldl_cons]
    obtain ⟨h1, h2⟩ := ih (min b (f a))
    refine ⟨h1.trans (min_le_left _ _), fun xi hxi => ?_⟩
    rcases List.mem_cons.mp hxi with rfl | h
    · exact h1.trans (min_le_right _ _)
    · exact h2 xi h

theorem le_foldl_max (l : List (Fin D → ℝ)) (f : (Fin D → ℝ) → ℝ) (b : ℝ) :
    b ≤ l.foldl (fun b xi => max b (f xi)) b ∧
      ∀ xi ∈ l, f xi ≤ l.foldl (fun b xi => max b (f xi)) b := by
  induction l generalizing b with
  | nil => simp
  | cons a l ih =>
    rw [List.foldl_cons]
    obtain ⟨h1, h2⟩ := ih (max b (f a))
    refine ⟨(le_max_left _ _).trans h1, fun xi hxi => ?_⟩
    rcases List.mem_cons.mp hxi with rfl | h
    · exact (le_max_right _ _).trans h1
    · exact h2 xi h

theorem refToGeneral_vertex (verts : Fin (D + 1) → Fin D → ℝ) (i : Fin (D + 1)) :
    refToGeneral verts (refVertices D i) = verts i := (C58_affine D verts).1 i

theorem refToGeneral_bary (verts : Fin (D + 1) → Fin D → ℝ) (xi : Fin D → ℝ) (d : Fin D) :
    refToGeneral verts xi d
      = ∑ i, (Fin.cons (1 - ∑ d, xi d) xi : Fin (D + 1) → ℝ) i * verts i d := by
  rw [Fin.sum_univ_succ]; simp [refToGeneral]

/-- The bounding box of an affine element contains the element. -/
theorem inside_bbox (g : Geometry D) (q : Params) (hf : 1 ≤ q.bboxFactor) (el : ℕ)
    (verts : Fin (D + 1) → Fin D → ℝ) (hA : Good g el verts) (xi : Fin D → ℝ)
    (hxi : InRefSimplex xi) : insideBbox g q el (refToGeneral verts xi) := by
  intro d
  simp only [bbox]
  set lo := g.refNodes.foldl (fun b xi => min b (g.X el xi d)) q.big
  set hi := g.refNodes.foldl (fun b xi => max b (g.X el xi d)) (-q.big)
  have hlo : ∀ i, lo ≤ verts i d := fun i => by
    have := (foldl_min_le g.refNodes (fun xi => g.X el xi d) q.big).2 _ (hA.nodes i)
    refine this.trans (le_of_eq ?_)
    simp only [hA.map, refToGeneral_vertex]
  have hhi : ∀ i, verts i d ≤ hi := fun i => by
    have := (le_foldl_max g.refNodes (fun xi => g.X el xi d) (-q.big)).2 _ (hA.nodes i)
    refine le_trans (le_of_eq ?_) this
    simp only [hA.map, refToGeneral_vertex]
  set mu : Fin (D + 1) → ℝ := Fin.cons (1 - ∑ d, xi d) xi with hmu
  have hpos : ∀ i, 0 ≤ mu i := by
    intro i
    induction i using Fin.cases with
    | zero => simp only [hmu, Fin.cons_zero]; have := hxi.2; linarith
    | succ d => simpa [hmu] using hxi.1 d
  have hsum : ∑ i, mu i = 1 := by rw [Fin.sum_univ_succ]; simp [hmu]
  have e := refToGeneral_bary verts xi d
  rw [← hmu] at e
  have h1 : lo ≤ refToGeneral verts xi d := by
    rw [e]
    calc lo = ∑ i, mu i * lo := by rw [← Finset.sum_mul, hsum, one_mul]
      _ ≤ _ := Finset.sum_le_sum fun i _ => mul_le_mul_of_nonneg_left (hlo i) (hpos i)
  have h2 : refToGeneral verts xi d ≤ hi := by
    rw [e]
    calc _ ≤ ∑ i, mu i * hi := Finset.sum_le_sum fun i _ => mul_le_mul_of_nonneg_left (hhi i) (hpos i)
      _ = hi := by rw [← Finset.sum_mul, hsum, one_mul]
  have h3 : 0 ≤ (q.bboxFactor - 1) * ((hi - lo) / 2) :=
    mul_nonneg (by linarith) (by linarith)
  constructor <;> nlinarith

theorem locate_total (g : Geometry D) (q : Params) (p : Fin D → ℝ) (els : List ℕ)
    (h : ∀ el ∈ els, insideBbox g q el p → xInv g q el p ≠ none) :
    ∃ r, locate g q p els = some r := by
  unfold locate
  generalize (⟨noNo, q.big, fun _ => 0, fun _ => 0⟩ : Result D) = r0
  induction els generalizing r0 with
  | nil => exact ⟨r0, rfl⟩
  | cons el els ih =>
    rw [List.foldlM_cons]
    have : ∃ r1, locateStep g q p r0 el = some r1 := by
      unfold locateStep
      by_cases hb : insideBbox g q el p
      · rw [if_pos hb]
        obtain ⟨xi, hxi⟩ := Option.ne_none_iff_exists'.mp (h el (by simp) hb)
        obtain ⟨c, hc, _⟩ := closest_ref q.big xi
        simp only [hxi, hc, Option.bind_eq_bind, Option.bind_some]
        exact ⟨_, rfl⟩
      · rw [if_neg hb]; exact ⟨r0, rfl⟩
    obtain ⟨r1, hr1⟩ := this
    rw [hr1, Option.bind_eq_bind, Option.bind_some]
    exact ih (fun el h' => h el (by simp [h'])) r1

theorem ref_sq_le (xi : Fin D → ℝ) (h : InRefSimplex xi) : ∑ d, xi d ^ 2 ≤ 1 := by
  refine le_trans (Finset.sum_le_sum fun d _ => ?_) h.2
  have h1 : xi d ≤ 1 := (Finset.single_le_sum (fun i _ => h.1 i) (Finset.mem_univ d)).trans h.2
  have := h.1 d
  nlinarith

/-- C60: on a mesh of affine elements, a point inside one of the elements of the range is found with
distance zero, provided that its last coordinate is not within the tolerance of the last coordinate of
the start point of an element in whose bounding box it lies. -/
theorem C60_inside (g : Geometry (D + 1)) (q : Params) (hq : 0 < q.atol) (hr : 0 ≤ q.rtol)
    (hits : 2 ≤ q.maxIts) (hf : 1 ≤ q.bboxFactor) (hbig : 1 < q.big)
    (els : List ℕ) (verts : ℕ → Fin (D + 2) → Fin (D + 1) → ℝ) (hA : ∀ el ∈ els, Good g el (verts el))
    (p : Fin (D + 1) → ℝ)
    (hgap : ∀ el ∈ els, insideBbox g q el p →
      q.atol + q.rtol ≤ (p (Fin.last D) - refToGeneral (verts el) (fun _ => 1 / 3) (Fin.last D)) ^ 2)
    (el : ℕ) (hel : el ∈ els) (xi : Fin (D + 1) → ℝ) (hxi : InRefSimplex xi) (hp : g.X el xi = p) :
    ∃ r, locate g q p els = some r ∧ r.dist = 0 ∧ r.x = p ∧ r.no ∈ els ∧ InRefSimplex r.xi
      ∧ g.X r.no r.xi = p := by
  have hinv : ∀ el ∈ els, insideBbox g q el p → xInv g q el p = some (generalToRef (verts el) p) := by
    intro el hel hb
    have h1 := hgap el hel hb
    have := C60_newton g q hq hits el (verts el) (hA el hel).toIsAffine p
    rw [this, if_neg (by intro h; rw [h] at h1; linarith), if_neg (not_lt.mpr h1)]
  obtain ⟨r, hloc⟩ := locate_total g q p els (fun el hel hb => by rw [hinv el hel hb]; simp)
  obtain ⟨h1, h2⟩ := C60_result g q p els r hloc
  have hb : insideBbox g q el p := by
    rw [← hp, (hA el hel).map]
    exact inside_bbox g q hf el (verts el) (hA el hel) xi hxi
  obtain ⟨xi', c, hx', hc, hle⟩ := h2 el hel hb
  rw [hinv el hel hb] at hx'
  cases hx'
  have hex : generalToRef (verts el) p = xi := by
    rw [← hp, (hA el hel).map]
    exact ((C58_affine (D + 1) (verts el)).2 (hA el hel).det).2 xi
  rw [hex] at hc
  obtain ⟨c', hc', hcx⟩ := closest_inside q.big xi hxi ((ref_sq_le xi hxi).trans_lt hbig)
  rw [hc] at hc'
  cases hc'
  have hz : euclid (g.X el c.xi) p = 0 := by rw [hcx, hp]; simp [euclid]
  rw [hz] at hle
  rcases h1 with ⟨_, h1⟩ | ⟨h3, h4, h5, h6, h7⟩
  · rw [h1] at hle; linarith
  · have h0 : r.dist = 0 := le_antisymm hle (by rw [h6]; exact Real.sqrt_nonneg _)
    have hx : r.x = p := by
      rw [h6, euclid, Real.sqrt_eq_zero (Finset.sum_nonneg fun d _ => sq_nonneg _)] at h0
      funext d
      have := (Finset.sum_eq_zero_iff_of_nonneg (fun d _ => sq_nonneg _)).mp h0 d (Finset.mem_univ _)
      exact sub_eq_zero.mp (pow_eq_zero_iff (two_ne_zero) |>.mp this)
    exact ⟨r, hloc, h0, hx, h3, h4, h5.symm.trans hx⟩

theorem locate_single (g : Geometry D) (q : Params) (p : Fin D → ℝ) (el : ℕ)
    (hb : insideBbox g q el p) (xi : Fin D → ℝ) (hxi : xInv g q el p = some xi)
    (hin : InRefSimplex xi) (hbig : 1 < q.big) (hd : euclid (g.X el xi) p < q.big) :
    locate g q p [el] = some ⟨el, euclid (g.X el xi) p, xi, g.X el xi⟩ := by
  obtain ⟨c, hc, hcx⟩ := closest_inside q.big xi hin ((ref_sq_le xi hin).trans_lt hbig)
  simp only [locate, List.foldlM_cons, List.foldlM_nil, locateStep, if_pos hb, hxi, hc,
    Option.bind_eq_bind, Option.bind_some, hcx, norm_euclid, if_pos hd, pure]

/-- A mesh of one element: the reference triangle with its three vertices as nodes. -/
def exGeo : Geometry 2 := ⟨fun _ xi => refToGeneral (refVertices 2) xi,
  fun _ _ => edgeMatrix (refVertices 2), [refVertices 2 0, refVertices 2 1, refVertices 2 2]⟩

theorem exGeo_edge : edgeMatrix (refVertices 2) = 1 := by
  ext i j
  fin_cases i <;> fin_cases j <;> simp [edgeMatrix, refVertices]

theorem exGeo_good (el : ℕ) : Good exGeo el (refVertices 2) where
  map := fun _ => rfl
  jac := fun _ => rfl
  det := by rw [exGeo_edge]; simp
  nodes := by intro i; fin_cases i <;> simp [exGeo]

theorem exGeo_map (xi : Fin 2 → ℝ) : refToGeneral (refVertices 2) xi = xi := by
  funext i
  fin_cases i <;> simp [refToGeneral, refVertices, Fin.sum_univ_two]

theorem exGeo_bbox (big : ℝ) (el : ℕ) (xi : Fin 2 → ℝ) (h : InRefSimplex xi) :
    insideBbox exGeo (defaults big) el xi := by
  have := inside_bbox exGeo (defaults big) (by norm_num [defaults]) el (refVertices 2) (exGeo_good el)
    xi h
  rwa [exGeo_map] at this

theorem last_two (a b : ℝ) : (![a, b] : Fin 2 → ℝ) (Fin.last 1) = b := rfl

/-- Non-vacuity of `C60_inside`: the point `(1/10, 1/2)` of the triangle with the default parameters. -/
example : ∃ r, locate exGeo (defaults 100) ![1 / 10, 1 / 2] [0] = some r ∧ r.dist = 0 ∧ r.no = 0 := by
  obtain ⟨r, h1, h2, _, h4, _⟩ := C60_inside exGeo (defaults 100) (by norm_num [defaults])
    (by norm_num [defaults]) (by norm_num [defaults]) (by norm_num [defaults]) (by norm_num [defaults])
    [0] (fun _ => refVertices 2) (fun el _ => exGeo_good el) ![1 / 10, 1 / 2]
    (by intro el _ _; rw [exGeo_map, last_two]; norm_num [defaults]) 0 (by simp) ![1 / 10, 1 / 2]
    ⟨by intro d; fin_cases d <;> norm_num, by simp [Fin.sum_univ_two]; norm_num⟩ (exGeo_map _)
  exact ⟨r, h1, h2, by simpa using h4⟩

/-- C60 (finding): with the default parameters, the point `(1/10, 1/3 + 1e-5)` lies inside the only
element, the reference triangle, but the locator reports the start point `(1/3, 1/3)` of Newton's method,
more than `0.2` away: only the last coordinate is compared. -/
theorem C60_wrong_point : InRefSimplex (![1 / 10, 1 / 3 + 1e-5] : Fin 2 → ℝ) ∧
    ∃ r, locate exGeo (defaults 100) ![1 / 10, 1 / 3 + 1e-5] [0] = some r ∧ 0.2 < r.dist := by
  have hin : InRefSimplex (![1 / 10, 1 / 3 + 1e-5] : Fin 2 → ℝ) :=
    ⟨by intro d; fin_cases d <;> norm_num, by simp [Fin.sum_univ_two]; norm_num⟩
  have h3 : InRefSimplex (fun _ => 1 / 3 : Fin 2 → ℝ) :=
    ⟨by intro d; norm_num, by simp [Fin.sum_univ_two]; norm_num⟩
  have hx := C60_newton exGeo (defaults 100) (by norm_num [defaults]) (by norm_num [defaults]) 0
    (refVertices 2) (exGeo_good 0).toIsAffine ![1 / 10, 1 / 3 + 1e-5]
  simp only [exGeo_map, last_two] at hx
  rw [if_neg (by norm_num), if_pos (by norm_num [defaults])] at hx
  have hd : euclid (exGeo.X 0 fun _ => 1 / 3) ![1 / 10, 1 / 3 + 1e-5] = Real.sqrt (49 / 900 + 1e-10) := by
    rw [show exGeo.X 0 (fun _ => 1 / 3) = fun _ => 1 / 3 from exGeo_map _]
    simp only [euclid, Fin.sum_univ_two]
    congr 1
    norm_num
  refine ⟨hin, _, locate_single exGeo (defaults 100) _ 0 (exGeo_bbox 100 0 _ hin) _ hx h3
    (by norm_num [defaults]) ?_, ?_⟩
  · rw [hd, Real.sqrt_lt' (by norm_num [defaults])]; norm_num [defaults]
  · simp only
    rw [hd, Real.lt_sqrt (by norm_num)]; norm_num

/-- C60 (finding): with the default parameters (any parameters), the point `(1/10, 1/3)` lies inside the
only element, but the locator throws. -/
theorem C60_throws (q : Params) (hq : 0 < q.atol) (hits : 2 ≤ q.maxIts) (hf : 1 ≤ q.bboxFactor) :
    InRefSimplex (![1 / 10, 1 / 3] : Fin 2 → ℝ) ∧ locate exGeo q ![1 / 10, 1 / 3] [0] = none := by
  have hin : InRefSimplex (![1 / 10, 1 / 3] : Fin 2 → ℝ) :=
    ⟨by intro d; fin_cases d <;> norm_num, by simp [Fin.sum_univ_two]; norm_num⟩
  have hx := C60_newton exGeo q hq hits 0 (refVertices 2) (exGeo_good 0).toIsAffine ![1 / 10, 1 / 3]
  simp only [exGeo_map, last_two] at hx
  rw [if_pos (by norm_num)] at hx
  have hb := inside_bbox exGeo q hf 0 (refVertices 2) (exGeo_good 0) _ hin
  rw [exGeo_map] at hb
  refine ⟨hin, ?_⟩
  simp only [locate, List.foldlM_cons, locateStep, if_pos hb, hx, Option.bind_eq_bind, Option.bind_none]

/-! ## Facets -/

theorem face_independent (f : Fin (D + 2)) :
    AffineIndependent ℝ (fun i : Fin (D + 1) => refVertices (D + 1) (f2v f i)) :=
  (SimplexDistance.refVertices_independent (D + 1)).comp_embedding
    ⟨f2v f, fun _ _ h => Fin.succAbove_right_injective h⟩

theorem facetParam_bary (f : Fin (D + 2)) (mu : Fin (D + 1) → ℝ) (h : ∑ i, mu i = 1) :
    facetParam f (fun d => mu d.succ)
      = baryPoint (fun i : Fin (D + 1) => refVertices (D + 1) (f2v f i)) mu := by
  funext i
  rw [Fin.sum_univ_succ] at h
  simp only [facetParam, baryPoint]
  rw [Fin.sum_univ_succ, ← h]
  ring

/-- The facet parameters found by the locator lie in the reference simplex. -/
theorem closest_face (big : ℝ) (f : Fin (D + 2)) (xi : Fin (D + 1) → ℝ) :
    ∃ c, SimplexDistance.closest big (fun i : Fin (D + 1) => refVertices (D + 1) (f2v f i)) xi = some c
      ∧ InRefSimplex (fun d : Fin D => c.bary d.succ) := by
  obtain ⟨c, h1, h2⟩ := SimplexDistance.closest_total big _ (face_independent f) (Nat.succ_pos D) xi
  refine ⟨c, h1, ?_⟩
  rcases h2 with ⟨_, h2⟩ | ⟨h2, _⟩
  · rw [h2]; exact ⟨fun _ => le_rfl, by simp⟩
  · exact bary_ref _ h2

/-- For a point on the facet they are its parameters. -/
theorem closest_on_face (big : ℝ) (hbig : 2 * (D + 1) < big) (f : Fin (D + 2)) (chi : Fin D → ℝ)
    (hchi : InRefSimplex chi) :
    ∃ c, SimplexDistance.closest big (fun i : Fin (D + 1) => refVertices (D + 1) (f2v f i))
        (facetParam f chi) = some c ∧ (fun d : Fin D => c.bary d.succ) = chi := by
  let mu : Fin (D + 1) → ℝ := Fin.cons (1 - ∑ d, chi d) chi
  have hmu : Bary mu := by
    constructor
    · intro i
      induction i using Fin.cases with
      | zero => simp only [mu, Fin.cons_zero]; have := hchi.2; linarith
      | succ d => simpa [mu] using hchi.1 d
    · rw [Fin.sum_univ_succ]; simp [mu]
  have hp : facetParam f chi = baryPoint (fun i : Fin (D + 1) => refVertices (D + 1) (f2v f i)) mu := by
    rw [← facetParam_bary f mu hmu.2]; simp [mu]
  have hxi : ∀ d, 0 ≤ facetParam f chi d ∧ facetParam f chi d ≤ 1 := by
    intro d
    rw [hp]
    constructor
    · refine Finset.sum_nonneg fun i _ => mul_nonneg (hmu.1 i) ?_
      simp only [refVertices]; split <;> norm_num
    · rw [← hmu.2]
      refine Finset.sum_le_sum fun i _ => mul_le_of_le_one_right (hmu.1 i) ?_
      simp only [refVertices]; split <;> norm_num
  have hb : ∃ i, ∑ d, (refVertices (D + 1) (f2v f i) d - facetParam f chi d) ^ 2 < big := by
    refine ⟨0, lt_of_le_of_lt ?_ hbig⟩
    calc _ ≤ ∑ _d : Fin (D + 1), (1 : ℝ) := Finset.sum_le_sum fun d _ => by
          have := hxi d
          have h01 : refVertices (D + 1) (f2v f 0) d = 0 ∨ refVertices (D + 1) (f2v f 0) d = 1 := by
            simp only [refVertices]; split <;> simp
          rcases h01 with h | h <;> rw [h] <;> nlinarith
      _ ≤ _ := by simp; linarith
  obtain ⟨c, h1, _, _, h4, _⟩ := SimplexDistance.C59_closest big _ (face_independent f)
    (facetParam f chi) hb
  refine ⟨c, h1, ?_⟩
  have := SimplexDistance.C59_unique big _ (face_independent f) (facetParam f chi) hb c h1 mu hmu
    (by rw [← hp, h4]; simp only [euclid]; exact Real.sqrt_le_sqrt (by
          simp only [sub_self, ne_eq, OfNat.ofNat_ne_zero, not_false_eq_true, zero_pow,
            Finset.sum_const_zero]
          exact Finset.sum_nonneg fun d _ => sq_nonneg _))
  rw [this.2]; simp [mu]

/-- What one iteration of the facet loop does. -/
theorem bndStep_spec (g : Geometry (D + 1)) (q : Params) (p : Fin (D + 1) → ℝ) (el : ℕ)
    (xi : Fin (D + 1) → ℝ) (r : BndResult D) (b : ℕ × ℕ × Fin (D + 2)) :
    ∃ r', bndStep g q p el xi r b = some r' ∧ r'.dist ≤ r.dist ∧ (r' = r ∨
      (r'.no = b.2.1 ∧ InRefSimplex r'.chi ∧ r'.x = g.X el (facetParam b.2.2 r'.chi)
        ∧ r'.dist = euclid r'.x p ∧ r'.dist < r.dist))
      ∧ ∀ chi, 2 * (D + 1) < q.big → InRefSimplex chi → xi = facetParam b.2.2 chi →
        r'.dist ≤ euclid (g.X el xi) p := by
  obtain ⟨c, hc, hin⟩ := closest_face q.big b.2.2 xi
  have hs : bndStep g q p el xi r b
      = some (if norm (g.X el (facetParam b.2.2 fun d => c.bary d.succ) - p) < r.dist then
        ⟨b.2.1, norm (g.X el (facetParam b.2.2 fun d => c.bary d.succ) - p), fun d => c.bary d.succ,
          g.X el (facetParam b.2.2 fun d => c.bary d.succ)⟩ else r) := by
    simp only [bndStep, hc, Option.bind_eq_bind, Option.bind_some, pure]
  refine ⟨_, hs, ?_, ?_, ?_⟩
  · split
    · rename_i h; exact h.le
    · exact le_rfl
  · split
    · rename_i h; exact Or.inr ⟨rfl, hin, rfl, norm_euclid _ _, h⟩
    · exact Or.inl rfl
  · intro chi hbig hchi hxi
    obtain ⟨c', hc', hcc⟩ := closest_on_face q.big hbig b.2.2 chi hchi
    rw [hxi, hc'] at hc
    cases hc
    rw [hcc, ← hxi, norm_euclid]
    split
    · exact le_rfl
    · rename_i h; exact not_lt.mp h

theorem bndLoop_spec (g : Geometry (D + 1)) (q : Params) (p : Fin (D + 1) → ℝ) (el : ℕ)
    (xi : Fin (D + 1) → ℝ) (bs : List (ℕ × ℕ × Fin (D + 2))) (r : BndResult D) :
    ∃ r', bs.foldlM (bndStep g q p el xi) r = some r' ∧ r'.dist ≤ r.dist ∧ (r' = r ∨
      ∃ b ∈ bs, (r'.no = b.2.1 ∧ InRefSimplex r'.chi ∧ r'.x = g.X el (facetParam b.2.2 r'.chi)
        ∧ r'.dist = euclid r'.x p ∧ r'.dist < r.dist))
      ∧ ∀ b ∈ bs, ∀ chi, 2 * (D + 1) < q.big → InRefSimplex chi → xi = facetParam b.2.2 chi →
        r'.dist ≤ euclid (g.X el xi) p := by
  induction bs generalizing r with
  | nil => exact ⟨r, rfl, le_rfl, Or.inl rfl, by simp⟩
  | cons b bs ih =>
    obtain ⟨r1, h1, h2, h3, h4⟩ := bndStep_spec g q p el xi r b
    obtain ⟨r', g1, g2, g3, g4⟩ := ih r1
    refine ⟨r', by rw [List.foldlM_cons, h1]; exact g1, g2.trans h2, ?_, ?_⟩
    · rcases g3 with g3 | ⟨b', hb', k1, k2, k3, k4, k5⟩
      · rcases h3 with h3 | h3
        · exact Or.inl (g3.trans h3)
        · exact Or.inr ⟨b, by simp, by rw [g3]; exact h3⟩
      · exact Or.inr ⟨b', by simp [hb'], k1, k2, k3, k4, k5.trans_le h2⟩
    · intro b' hb' chi hbig hchi hxi
      rcases List.mem_cons.mp hb' with rfl | hb'
      · exact g2.trans (h4 chi hbig hchi hxi)
      · exact g4 b' hb' chi hbig hchi hxi

/-- C60: whatever the geometry, a result of the boundary locator is either "nothing found" or names one
of the given facets, facet parameters inside the reference facet, and the distance of the point that the
map of the closest element gives for the local facet number. -/
theorem C60_boundary_result (g : Geometry (D + 1)) (q : Params) (p : Fin (D + 1) → ℝ) (els : List ℕ)
    (bnds : List (ℕ × ℕ × Fin (D + 2))) (hkeys : ∀ b ∈ bnds, b.1 ∈ els) (hno : noNo ∉ els)
    (r : BndResult D) (h : bndLocate g q p els bnds = some r) :
    (r.no = noNo ∧ r.dist = q.big) ∨
      ∃ el ∈ els, ∃ b ∈ bnds, r.no = b.2.1 ∧ InRefSimplex r.chi
        ∧ r.x = g.X el (facetParam b.2.2 r.chi) ∧ r.dist = euclid r.x p ∧ r.dist < q.big := by
  obtain ⟨c, hc, h⟩ := Option.bind_eq_some_iff.mp h
  obtain ⟨r', h1, _, h3, _⟩ := bndLoop_spec g q p c.no c.xi (bnds.dropWhile (fun b => b.1 ≠ c.no))
    ⟨noNo, q.big, fun _ => 0, fun _ => 0⟩
  rw [h1] at h
  cases h
  rcases h3 with h3 | ⟨b, hb, h3⟩
  · exact Or.inl (by rw [h3]; exact ⟨rfl, rfl⟩)
  · have hmem : c.no ∈ els := by
      rcases (C60_result g q p els c hc).1 with ⟨e, _⟩ | ⟨e, _⟩
      · exfalso
        have hd : bnds.dropWhile (fun b => b.1 ≠ c.no) = [] := by
          refine List.eq_nil_iff_forall_not_mem.mpr fun b hb => ?_
          have hall : ∀ b ∈ bnds, decide (b.1 ≠ c.no) = true := by
            intro b hb
            simp only [e, ne_eq, decide_eq_true_eq]
            intro h'
            exact hno (h' ▸ hkeys b hb)
          have := List.dropWhile_append_of_pos (l₂ := []) hall
          simp only [List.append_nil, List.dropWhile_nil] at this
          rw [this] at hb
          simp at hb
        rw [hd] at hb
        simp at hb
      · exact e
    exact Or.inr ⟨c.no, hmem, b, (List.dropWhile_suffix _).subset hb, h3⟩

/-- C60: on a mesh of affine elements (under the condition of `C60_inside`), a point that lies on one of
the given facets in every adjacent element that contains it is found with distance zero; the reported facet
is a facet of an element that contains the point, and the reported parameters are those of the point. -/
theorem C60_boundary_exact (g : Geometry (D + 1)) (q : Params) (hq : 0 < q.atol) (hr : 0 ≤ q.rtol)
    (hits : 2 ≤ q.maxIts) (hf : 1 ≤ q.bboxFactor) (hbig : 2 * (D + 1) < q.big)
    (els : List ℕ) (verts : ℕ → Fin (D + 2) → Fin (D + 1) → ℝ) (hA : ∀ el ∈ els, Good g el (verts el))
    (p : Fin (D + 1) → ℝ)
    (hgap : ∀ el ∈ els, insideBbox g q el p →
      q.atol + q.rtol ≤ (p (Fin.last D) - refToGeneral (verts el) (fun _ => 1 / 3) (Fin.last D)) ^ 2)
    (el : ℕ) (hel : el ∈ els) (xi : Fin (D + 1) → ℝ) (hxi : InRefSimplex xi) (hp : g.X el xi = p)
    (bnds : List (ℕ × ℕ × Fin (D + 2)))
    (hgroup : ∀ el, ∃ pre grp post, bnds = pre ++ (grp ++ post) ∧ (∀ b ∈ grp, b.1 = el) ∧
      ∀ b ∈ pre ++ post, b.1 ≠ el)
    (hon : ∀ el ∈ els, ∀ xi, InRefSimplex xi → g.X el xi = p →
      ∃ b ∈ bnds, b.1 = el ∧ ∃ chi, InRefSimplex chi ∧ g.X el (facetParam b.2.2 chi) = p) :
    ∃ r, bndLocate g q p els bnds = some r ∧ r.dist = 0 ∧ r.x = p ∧ InRefSimplex r.chi ∧
      ∃ b ∈ bnds, b.1 ∈ els ∧ b.2.1 = r.no ∧ g.X b.1 (facetParam b.2.2 r.chi) = p := by
  have hbig1 : 1 < q.big := by
    have : (0 : ℝ) ≤ D := Nat.cast_nonneg D
    linarith
  obtain ⟨c, hc, _, _, hcno, hcin, hcX⟩ := C60_inside g q hq hr hits hf hbig1 els verts hA p hgap el hel
    xi hxi hp
  obtain ⟨b, hb, hbel, chi, hchi, hbX⟩ := hon c.no hcno c.xi hcin hcX
  have hparam : c.xi = facetParam b.2.2 chi := by
    have h1 := hcX.trans hbX.symm
    rw [(hA c.no hcno).map, (hA c.no hcno).map] at h1
    have h2 := ((C58_affine (D + 1) (verts c.no)).2 (hA c.no hcno).det).2
    rw [← h2 c.xi, h1, h2]
  obtain ⟨pre, grp, post, hsplit, hg1, hg2⟩ := hgroup c.no
  have hbgrp : b ∈ grp := by
    rw [hsplit] at hb
    rcases List.mem_append.mp hb with h | h
    · exact absurd hbel (hg2 b (by simp [h]))
    · rcases List.mem_append.mp h with h | h
      · exact h
      · exact absurd hbel (hg2 b (by simp [h]))
  have hdrop : bnds.dropWhile (fun b => b.1 ≠ c.no) = grp ++ post := by
    rw [hsplit, List.dropWhile_append_of_pos (by
      intro a ha; simpa using hg2 a (by simp [ha]))]
    cases grp with
    | nil => simp at hbgrp
    | cons a t => rw [List.cons_append, List.dropWhile_cons_of_neg (by simp [hg1 a])]
  obtain ⟨r1, h1, _, h3, h4⟩ := bndLoop_spec g q p c.no c.xi grp
    ⟨noNo, q.big, fun _ => 0, fun _ => 0⟩
  obtain ⟨r2, k1, k2, k3, _⟩ := bndLoop_spec g q p c.no c.xi post r1
  have hz : r1.dist ≤ 0 := by
    have := h4 b hbgrp chi hbig hchi hparam
    rwa [hcX, show euclid p p = 0 by simp [euclid]] at this
  rcases h3 with h3 | ⟨b1, hb1, e1, e2, e3, e4, _⟩
  · rw [h3] at hz; simp only at hz; linarith
  · have h0 : r1.dist = 0 := le_antisymm hz (by rw [e4]; exact Real.sqrt_nonneg _)
    have hx : r1.x = p := by
      have h0' := h0
      rw [e4, euclid, Real.sqrt_eq_zero (Finset.sum_nonneg fun d _ => sq_nonneg _)] at h0'
      funext d
      have := (Finset.sum_eq_zero_iff_of_nonneg (fun d _ => sq_nonneg _)).mp h0' d (Finset.mem_univ _)
      exact sub_eq_zero.mp (pow_eq_zero_iff (two_ne_zero) |>.mp this)
    have hr2 : r2 = r1 := by
      rcases k3 with k3 | ⟨b2, _, _, _, _, k4, k5⟩
      · exact k3
      · rw [h0, k4] at k5
        exact absurd k5 (not_lt.mpr (Real.sqrt_nonneg _))
    refine ⟨r1, ?_, h0, hx, e2, b1, ?_, ?_, e1.symm, ?_⟩
    · simp only [bndLocate, hc, Option.bind_eq_bind, Option.bind_some]
      rw [hdrop, List.foldlM_append, h1, Option.bind_eq_bind, Option.bind_some, k1, hr2]
    · rw [hsplit]; simp [hb1]
    · rw [hg1 b1 hb1]; exact hcno
    · rw [hg1 b1 hb1, ← e3, hx]

/-- Two elements: the reference triangle and a copy far away, each with one facet that carries probes
(facet 7 is local facet 0 of element 0, facet 8 is local facet 1 of element 1). -/
def exTwo : Geometry 2 := ⟨fun el xi => refToGeneral (fun i d => refVertices 2 i d + 10 * el) xi,
  fun el _ => edgeMatrix (fun i d => refVertices 2 i d + 10 * el),
  [refVertices 2 0, refVertices 2 1, refVertices 2 2]⟩

theorem exTwo_edge (el : ℕ) : edgeMatrix (fun i d => refVertices 2 i d + 10 * (el : ℝ)) = 1 := by
  ext i j
  fin_cases i <;> fin_cases j <;> simp [edgeMatrix, refVertices]

theorem exTwo_map (el : ℕ) (xi : Fin 2 → ℝ) : exTwo.X el xi = fun d => xi d + 10 * (el : ℝ) := by
  funext i
  fin_cases i <;> simp [exTwo, refToGeneral, refVertices, Fin.sum_univ_two] <;> ring

theorem exTwo_good (el : ℕ) : Good exTwo el (fun i d => refVertices 2 i d + 10 * (el : ℝ)) where
  map := fun _ => rfl
  jac := fun _ => rfl
  det := by rw [exTwo_edge]; simp
  nodes := by intro i; fin_cases i <;> simp [exTwo]

theorem exTwo_gap (el : ℕ) (a b : ℝ) (hb : b < 1 / 4) (h0 : 0 ≤ b) :
    (defaults 100).atol + (defaults 100).rtol ≤ ((![a, b] : Fin 2 → ℝ) (Fin.last 1) -
      refToGeneral (fun i d => refVertices 2 i d + 10 * (el : ℝ)) (fun _ => 1 / 3) (Fin.last 1)) ^ 2 := by
  have := congrFun (exTwo_map el (fun _ => 1 / 3)) (Fin.last 1)
  rw [show refToGeneral (fun i d => refVertices 2 i d + 10 * (el : ℝ)) (fun _ => 1 / 3) (Fin.last 1)
    = 1 / 3 + 10 * (el : ℝ) from this, last_two]
  have he : (0 : ℝ) ≤ el := Nat.cast_nonneg el
  norm_num [defaults]
  nlinarith

/-- The located element and coordinates for a point of element 0. -/
theorem exTwo_locate (a b : ℝ) (ha : 0 ≤ a) (hb : 0 ≤ b) (hb4 : b < 1 / 4) (hab : a + b ≤ 1) :
    ∃ c, locate exTwo (defaults 100) ![a, b] [0, 1] = some c ∧ c.no = 0 ∧ c.xi = ![a, b] := by
  obtain ⟨c, h1, _, _, h4, h5, h6⟩ := C60_inside exTwo (defaults 100) (by norm_num [defaults])
    (by norm_num [defaults]) (by norm_num [defaults]) (by norm_num [defaults]) (by norm_num [defaults])
    [0, 1] (fun el i d => refVertices 2 i d + 10 * (el : ℝ)) (fun el _ => exTwo_good el) ![a, b]
    (fun el _ _ => exTwo_gap el a b hb4 hb) 0 (by simp) ![a, b]
    ⟨by intro d; fin_cases d <;> simpa, by simpa [Fin.sum_univ_two] using hab⟩
    (by rw [exTwo_map]; funext d; simp)
  rw [exTwo_map] at h6
  simp only [List.mem_cons, List.not_mem_nil, or_false] at h4
  rcases h4 with h4 | h4
  · refine ⟨c, h1, h4, ?_⟩
    rw [h4] at h6
    rw [← h6]
    funext d; simp
  · exfalso
    have := congrFun h6 1
    rw [h4] at this
    have hc := h5.1 1
    simp at this
    linarith

/-- Non-vacuity of `C60_boundary_exact`: a probe on facet 7, the lower edge of element 0. -/
example : ∃ r, bndLocate exTwo (defaults 100) ![1 / 4, 0] [0, 1] [(0, 7, 0), (1, 8, 1)] = some r
    ∧ r.dist = 0 ∧ r.x = ![1 / 4, 0] := by
  obtain ⟨r, h1, h2, h3, _⟩ := C60_boundary_exact exTwo (defaults 100) (by norm_num [defaults])
    (by norm_num [defaults]) (by norm_num [defaults]) (by norm_num [defaults]) (by norm_num [defaults])
    [0, 1] (fun el i d => refVertices 2 i d + 10 * (el : ℝ)) (fun el _ => exTwo_good el) ![1 / 4, 0]
    (fun el _ _ => exTwo_gap el _ 0 (by norm_num) le_rfl) 0 (by simp) ![1 / 4, 0]
    ⟨by intro d; fin_cases d <;> norm_num, by simp [Fin.sum_univ_two]; norm_num⟩
    (by rw [exTwo_map]; funext d; simp) [(0, 7, 0), (1, 8, 1)]
    (by
      intro el
      by_cases h0 : el = 0
      · exact ⟨[], [(0, 7, 0)], [(1, 8, 1)], rfl, by simp [h0], by simp [h0]⟩
      · by_cases h1 : el = 1
        · exact ⟨[(0, 7, 0)], [(1, 8, 1)], [], rfl, by simp [h1], by simp [h1]⟩
        · exact ⟨[(0, 7, 0), (1, 8, 1)], [], [], rfl, by simp, by
            simp only [List.append_nil, List.mem_cons, List.not_mem_nil, or_false, forall_eq_or_imp,
              forall_eq]
            exact ⟨fun h => h0 h.symm, fun h => h1 h.symm⟩⟩)
    (by
      intro el hel xi hxi hX
      rw [exTwo_map] at hX
      simp only [List.mem_cons, List.not_mem_nil, or_false] at hel
      rcases hel with rfl | rfl
      · refine ⟨(0, 7, 0), by simp, rfl, fun _ => 1 / 4, ⟨fun _ => by norm_num, by simp; norm_num⟩, ?_⟩
        rw [exTwo_map]
        funext d
        fin_cases d <;> simp [facetParam, refVertices, f2v, Fin.succAbove, Fin.rev] <;> decide
      · exfalso
        have := congrFun hX 1
        have hc := hxi.1 1
        simp at this
        linarith)
  exact ⟨r, h1, h2, h3⟩

/-- The facet parameters of a point whose closest facet point is known. -/
theorem closest_face_is (big : ℝ) (f : Fin 3) (p : Fin 2 → ℝ) (mu : Fin 2 → ℝ) (hmu : Bary mu)
    (hb : ∃ i, ∑ d, (refVertices 2 (f2v f i) d - p d) ^ 2 < big)
    (hmin : ∀ nu, Bary nu → euclid (baryPoint (fun i : Fin 2 => refVertices 2 (f2v f i)) mu) p
      ≤ euclid (baryPoint (fun i : Fin 2 => refVertices 2 (f2v f i)) nu) p) :
    ∃ c, SimplexDistance.closest big (fun i : Fin 2 => refVertices 2 (f2v f i)) p = some c
      ∧ c.bary = mu := by
  obtain ⟨c, h1, h2, h3, h4, _⟩ := SimplexDistance.C59_closest big _ (face_independent f) p hb
  refine ⟨c, h1, ?_⟩
  exact (SimplexDistance.C59_unique big _ (face_independent f) p hb c h1 mu hmu (by
    rw [h4, h3]; exact hmin _ h2)).2

/-- C60 (finding): the loop of the boundary locator does not stop at the entries of the closest element.
For the probe `(1/20, 1/5)` inside element 0, whose only probe facet is facet 7, facet 8 is reported:
a facet of element 1, all of whose points are more than nine units away. -/
theorem C60_wrong_facet :
    (∃ r, bndLocate exTwo (defaults 100) ![1 / 20, 1 / 5] [0, 1] [(0, 7, 0), (1, 8, 1)] = some r
      ∧ r.no = 8 ∧ r.dist = 1 / 20)
    ∧ ∀ chi, InRefSimplex chi → 9 ≤ euclid (exTwo.X 1 (facetParam 1 chi)) ![1 / 20, 1 / 5] := by
  constructor
  · obtain ⟨c, hc, hno, hxi⟩ := exTwo_locate (1 / 20) (1 / 5) (by norm_num) (by norm_num) (by norm_num)
      (by norm_num)
    obtain ⟨c0, h0, hb0⟩ := closest_face_is (defaults 100).big 0 ![1 / 20, 1 / 5] ![19 / 20, 1 / 20]
      ⟨by intro i; fin_cases i <;> norm_num, by simp [Fin.sum_univ_two]; norm_num⟩
      ⟨0, by
        have : f2v (0 : Fin 3) (0 : Fin 2) = 0 := by decide
        rw [this]; simp [Fin.sum_univ_two, refVertices]; norm_num [defaults]⟩
      (by
        intro nu hnu
        apply Real.sqrt_le_sqrt
        have e0 : f2v (0 : Fin 3) (0 : Fin 2) = 0 := by decide
        have e1 : f2v (0 : Fin 3) (1 : Fin 2) = 1 := by decide
        simp [Fin.sum_univ_two, baryPoint, e0, e1, refVertices]
        nlinarith [sq_nonneg (nu 1 - 1 / 20)])
    obtain ⟨c1, h1, hb1⟩ := closest_face_is (defaults 100).big 1 ![1 / 20, 1 / 5] ![4 / 5, 1 / 5]
      ⟨by intro i; fin_cases i <;> norm_num, by simp [Fin.sum_univ_two]; norm_num⟩
      ⟨0, by
        have : f2v (1 : Fin 3) (0 : Fin 2) = 0 := by decide
        rw [this]; simp [Fin.sum_univ_two, refVertices]; norm_num [defaults]⟩
      (by
        intro nu hnu
        apply Real.sqrt_le_sqrt
        have e0 : f2v (1 : Fin 3) (0 : Fin 2) = 0 := by decide
        have e1 : f2v (1 : Fin 3) (1 : Fin 2) = 2 := by decide
        simp [Fin.sum_univ_two, baryPoint, e0, e1, refVertices]
        nlinarith [sq_nonneg (nu 1 - 1 / 5)])
    have d0 : norm (exTwo.X 0 (facetParam 0 fun d => c0.bary d.succ) - ![1 / 20, 1 / 5]) = 1 / 5 := by
      rw [hb0, exTwo_map, norm_euclid, euclid]
      have e0 : f2v (0 : Fin 3) (0 : Fin 2) = 0 := by decide
      have e1 : f2v (0 : Fin 3) (1 : Fin 2) = 1 := by decide
      rw [Real.sqrt_eq_iff_mul_self_eq_of_pos (by norm_num)]
      simp [Fin.sum_univ_two, facetParam, e0, e1, refVertices]
      norm_num
    have d1 : norm (exTwo.X 0 (facetParam 1 fun d => c1.bary d.succ) - ![1 / 20, 1 / 5]) = 1 / 20 := by
      rw [hb1, exTwo_map, norm_euclid, euclid]
      have e0 : f2v (1 : Fin 3) (0 : Fin 2) = 0 := by decide
      have e1 : f2v (1 : Fin 3) (1 : Fin 2) = 2 := by decide
      rw [Real.sqrt_eq_iff_mul_self_eq_of_pos (by norm_num)]
      simp [Fin.sum_univ_two, facetParam, e0, e1, refVertices]
      norm_num
    refine ⟨⟨8, 1 / 20, fun d => c1.bary d.succ, exTwo.X 0 (facetParam 1 fun d => c1.bary d.succ)⟩, ?_,
      rfl, rfl⟩
    simp only [bndLocate, hc, Option.bind_eq_bind, Option.bind_some, hno, hxi]
    rw [show List.dropWhile (fun b : ℕ × ℕ × Fin 3 => decide (b.1 ≠ 0)) [(0, 7, 0), (1, 8, 1)]
      = [(0, 7, 0), (1, 8, 1)] from rfl]
    simp only [List.foldlM_cons, List.foldlM_nil, bndStep, h0, h1, Option.bind_eq_bind, Option.bind_some,
      pure, d0, d1]
    rw [if_pos (by norm_num [defaults])]
  · intro chi hchi
    rw [exTwo_map, euclid]
    apply Real.le_sqrt_of_sq_le
    have e0 : f2v (1 : Fin 3) (0 : Fin 2) = 0 := by decide
    have e1 : f2v (1 : Fin 3) (1 : Fin 2) = 2 := by decide
    have := hchi.1 0
    simp [Fin.sum_univ_two, facetParam, e0, e1, refVertices]
    nlinarith [sq_nonneg (chi 0 + 10 - 5⁻¹)]

end
end Tandem.PointLocator
