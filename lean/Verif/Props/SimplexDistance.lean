import Verif.Lemmas.SimplexDistance
import Mathlib.Topology.Instances.Real.Lemmas
import Mathlib.Topology.Algebra.Ring.Basic
import Mathlib.Algebra.BigOperators.Field
import Mathlib.Tactic.FunProp
import Mathlib.Tactic.NormNum
import Mathlib.Tactic.FinCases
/-! # Property C59: the closest point of a simplex -/
namespace Tandem.SimplexDistance
open Combinatorics Curvilinear Matrix Spec

noncomputable section
variable {D V : ℕ}

/-- A candidate: barycentric coordinates, their point and the squared distance fit together. -/
def Valid (v : Fin V → Fin D → ℝ) (p : Fin D → ℝ) (r : Result D V) : Prop :=
  Bary r.bary ∧ r.xi = baryPoint v r.bary ∧ r.dist = dot (r.xi - p) (r.xi - p)

theorem consider_spec (v : Fin V → Fin D → ℝ) (p : Fin D → ℝ) (hv : AffineIndependent ℝ v) (DD : ℕ)
    (c : List ℕ) (hc : IsSubset V (DD + 1) c) (r : Result D V) :
    (consider v p DD r c = r ∨ Valid v p (consider v p DD r c)) ∧ (consider v p DD r c).dist ≤ r.dist
    ∧ ((∀ j, 0 ≤ solve v p DD (isOf DD c) j) →
      (consider v p DD r c).dist ≤ dot (combine v DD (isOf DD c) (solve v p DD (isOf DD c)) - p)
        (combine v DD (isOf DD c) (solve v p DD (isOf DD c)) - p)) := by
  obtain ⟨hlt, hinj⟩ := isOf_spec DD c hc
  unfold consider
  by_cases h : ∀ j, solve v p DD (isOf DD c) j ≥ 0
  · simp only [if_pos h]
    split
    · rename_i h2
      refine ⟨Or.inr ⟨⟨?_, ?_⟩, ?_, rfl⟩, h2.le, fun _ => le_rfl⟩
      · intro i
        simp only
        rw [scatter_eq DD _ hlt hinj]
        exact Finset.sum_nonneg fun j _ => by split; exact h j; exact le_rfl
      · have := scatter_sum DD _ hlt hinj (solve v p DD (isOf DD c)) (fun _ => (1 : ℝ))
        simp only [mul_one] at this
        rw [this, solve_sum v p hv DD _ hlt hinj]
      · simp only
        rw [combine_eq]
        funext d
        rw [baryPoint, scatter_sum DD _ hlt hinj _ (fun i => v i d)]
        exact Finset.sum_congr rfl fun j _ => by simp [vert, hlt j]
    · rename_i h2
      exact ⟨Or.inl rfl, le_rfl, fun _ => not_lt.mp h2⟩
  · simp only [if_neg h]
    exact ⟨Or.inl trivial, le_rfl, fun h' => absurd h' h⟩

theorem foldl_spec (v : Fin V → Fin D → ℝ) (p : Fin D → ℝ) (hv : AffineIndependent ℝ v) (DD : ℕ)
    (cs : List (List ℕ)) (hcs : ∀ c ∈ cs, IsSubset V (DD + 1) c) (r : Result D V) :
    (cs.foldl (consider v p DD) r = r ∨ Valid v p (cs.foldl (consider v p DD) r))
    ∧ (cs.foldl (consider v p DD) r).dist ≤ r.dist
    ∧ (∀ c ∈ cs, (∀ j, 0 ≤ solve v p DD (isOf DD c) j) →
      (cs.foldl (consider v p DD) r).dist ≤ dot (combine v DD (isOf DD c) (solve v p DD (isOf DD c)) - p)
        (combine v DD (isOf DD c) (solve v p DD (isOf DD c)) - p)) := by
  induction cs generalizing r with
  | nil => exact ⟨Or.inl rfl, le_rfl, by simp⟩
  | cons c cs ih =>
    obtain ⟨a1, a2, a3⟩ := consider_spec v p hv DD c (hcs c (by simp)) r
    obtain ⟨b1, b2, b3⟩ := ih (fun c h => hcs c (by simp [h])) (consider v p DD r c)
    rw [List.foldl_cons]
    refine ⟨?_, b2.trans a2, ?_⟩
    · rcases b1 with b1 | b1
      · rw [b1]; exact a1
      · exact Or.inr b1
    · intro c' hc' hpos
      rcases List.mem_cons.mp hc' with rfl | h
      · exact b2.trans (a3 hpos)
      · exact b3 c' h hpos

theorem closest2_spec (big : ℝ) (v : Fin V → Fin D → ℝ) (p : Fin D → ℝ) (hv : AffineIndependent ℝ v)
    (ds : List ℕ) (hne : ds ≠ []) (hds : ∀ DD ∈ ds, DD < V) :
    ∃ r, closest2 big v p ds = some r ∧ (r = ⟨big, fun _ => 0, fun _ => 0⟩ ∨ Valid v p r)
      ∧ ∀ DD ∈ ds, ∀ c, IsSubset V (DD + 1) c → (∀ j, 0 ≤ solve v p DD (isOf DD c) j) →
        r.dist ≤ dot (combine v DD (isOf DD c) (solve v p DD (isOf DD c)) - p)
        (combine v DD (isOf DD c) (solve v p DD (isOf DD c)) - p) := by
  induction ds with
  | nil => exact absurd rfl hne
  | cons DD ds ih =>
    obtain ⟨cs, h1, h2⟩ := solvers_spec V DD (hds DD (by simp))
    obtain ⟨a1, _, a3⟩ := foldl_spec v p hv DD cs (fun c h => (h2 c).mp h)
      ⟨big, fun _ => 0, fun _ => 0⟩
    rw [closest2, h1, Option.bind_eq_bind, Option.bind_some]
    simp only
    set r := cs.foldl (consider v p DD) ⟨big, fun _ => 0, fun _ => 0⟩ with hr
    have hr1 : r = ⟨big, fun _ => 0, fun _ => 0⟩ ∨ Valid v p r := a1
    by_cases ht : ds = []
    · rw [if_pos ht]
      refine ⟨r, rfl, hr1, ?_⟩
      intro DD' h c hc hpos
      subst ht
      simp only [List.mem_singleton] at h
      subst h
      exact a3 c ((h2 c).mpr hc) hpos
    · obtain ⟨o, o1, o2, o3⟩ := ih ht (fun d h => hds d (by simp [h]))
      rw [if_neg ht, o1]
      refine ⟨_, rfl, ?_, ?_⟩
      · split
        · exact o2
        · exact hr1
      · intro DD' h c hc hpos
        have hmin : (if o.dist < r.dist then o else r).dist ≤ o.dist
            ∧ (if o.dist < r.dist then o else r).dist ≤ r.dist := by
          split
          · rename_i h; exact ⟨le_rfl, h.le⟩
          · rename_i h; exact ⟨not_lt.mp h, le_rfl⟩
        rcases List.mem_cons.mp h with rfl | h
        · exact hmin.2.trans (a3 c ((h2 c).mpr hc) hpos)
        · exact hmin.1.trans (o3 DD' h c hc hpos)

/-- The squared distance of the point with coordinates `mu`. -/
def sq (v : Fin V → Fin D → ℝ) (p : Fin D → ℝ) (mu : Fin V → ℝ) : ℝ :=
  dot (baryPoint v mu - p) (baryPoint v mu - p)

/-- A minimiser exists. -/
theorem minimiser (v : Fin V → Fin D → ℝ) (p : Fin D → ℝ) (hV : 0 < V) :
    ∃ mu, Bary mu ∧ ∀ nu, Bary nu → sq v p mu ≤ sq v p nu := by
  haveI : Nonempty (Fin V) := ⟨⟨0, hV⟩⟩
  have hc : Continuous (sq v p) := by
    unfold sq baryPoint dot
    simp only [Pi.sub_apply]
    fun_prop
  obtain ⟨mu, h1, h2⟩ := (isCompact_stdSimplex ℝ (Fin V)).exists_isMinOn
    (⟨_, single_mem_stdSimplex ℝ (⟨0, hV⟩ : Fin V)⟩) hc.continuousOn
  exact ⟨mu, h1, fun nu hnu => h2 (show nu ∈ stdSimplex ℝ (Fin V) from hnu)⟩

theorem slope_zero (c q delta : ℝ) (hq : 0 ≤ q) (hd : 0 < delta)
    (h : ∀ t, |t| ≤ delta → 0 ≤ 2 * t * c + t ^ 2 * q) : c = 0 := by
  by_contra hc
  have hp : 0 < |c| := abs_pos.mpr hc
  set s := min delta (|c| / (q + 1)) with hs
  have hs0 : 0 < s := lt_min hd (by positivity)
  have hs1 : s * (q + 1) ≤ |c| := by
    have : s ≤ |c| / (q + 1) := min_le_right _ _
    rwa [le_div_iff₀ (by positivity)] at this
  rcases lt_or_gt_of_ne hc with h0 | h0
  · have := h s (by rw [abs_of_pos hs0]; exact min_le_left _ _)
    rw [abs_of_neg h0] at hs1
    nlinarith
  · have := h (-s) (by rw [abs_neg, abs_of_pos hs0]; exact min_le_left _ _)
    rw [abs_of_pos h0] at hs1
    nlinarith

/-- At a minimiser the difference vector is orthogonal to the face of the positive coordinates. -/
theorem minimiser_orthogonal (v : Fin V → Fin D → ℝ) (p : Fin D → ℝ) (mu : Fin V → ℝ) (hmu : Bary mu)
    (hmin : ∀ nu, Bary nu → sq v p mu ≤ sq v p nu) (i j : Fin V) (hi : 0 < mu i) (hj : 0 < mu j) :
    dot (baryPoint v mu - p) (v i) = dot (baryPoint v mu - p) (v j) := by
  by_cases hij : i = j
  · rw [hij]
  have key : dot (baryPoint v mu - p) (v i - v j) = 0 := by
    refine slope_zero _ (dot (v i - v j) (v i - v j)) (min (mu i) (mu j)) (dot_self_nonneg _)
      (lt_min hi hj) ?_
    intro t ht
    have hti := abs_le.mp (ht.trans (min_le_left _ _))
    have htj := abs_le.mp (ht.trans (min_le_right _ _))
    let nu : Fin V → ℝ := fun k => mu k + t * ((if k = i then 1 else 0) - (if k = j then 1 else 0))
    have hb : Bary nu := by
      constructor
      · intro k
        have := hmu.1 k
        by_cases h1 : k = i
        · subst h1; simp [nu, hij]; linarith
        · by_cases h2 : k = j
          · subst h2; simp [nu, h1]; linarith
          · simp [nu, h1, h2, this]
      · simp only [nu, Finset.sum_add_distrib, hmu.2, ← Finset.mul_sum, Finset.sum_sub_distrib,
          Finset.sum_ite_eq', Finset.mem_univ, if_true]
        ring
    have hp : baryPoint v nu - p = (baryPoint v mu - p) + t • (v i - v j) := by
      funext d
      simp only [baryPoint, nu, Pi.sub_apply, Pi.add_apply, Pi.smul_apply, smul_eq_mul, add_mul,
        Finset.sum_add_distrib, mul_assoc, ← Finset.mul_sum, sub_mul, Finset.sum_sub_distrib,
        ite_mul, one_mul, zero_mul, Finset.sum_ite_eq', Finset.mem_univ, if_true]
      ring
    have h := hmin nu hb
    unfold sq at h
    rw [hp] at h
    rw [Curvilinear.dot_add, Curvilinear.dot_comm (_ + _), Curvilinear.dot_add,
      Curvilinear.dot_comm (_ + _) (t • (v i - v j)), Curvilinear.dot_add, Curvilinear.dot_smul,
      Curvilinear.smul_dot, Curvilinear.smul_dot, Curvilinear.dot_smul,
      Curvilinear.dot_comm (v i - v j) (baryPoint v mu - p)] at h
    nlinarith
  rw [dot_sub] at key
  linarith

/-- Some face of the simplex has the minimiser as accepted candidate. -/
theorem minimiser_found (v : Fin V → Fin D → ℝ) (p : Fin D → ℝ) (hv : AffineIndependent ℝ v)
    (mu : Fin V → ℝ) (hmu : Bary mu) (hmin : ∀ nu, Bary nu → sq v p mu ≤ sq v p nu) :
    ∃ DD < V, ∃ c, IsSubset V (DD + 1) c ∧ (∀ j, 0 ≤ solve v p DD (isOf DD c) j)
      ∧ combine v DD (isOf DD c) (solve v p DD (isOf DD c)) = baryPoint v mu := by
  set S : Finset (Fin V) := Finset.univ.filter (fun i => 0 < mu i) with hS
  have hSne : S.Nonempty := by
    by_contra hne
    rw [Finset.not_nonempty_iff_eq_empty] at hne
    have : ∑ i, mu i = 0 := Finset.sum_eq_zero fun i _ => by
      have h1 : i ∉ S := by rw [hne]; simp
      have h2 := hmu.1 i
      simp only [hS, Finset.mem_filter, Finset.mem_univ, true_and, not_lt] at h1
      linarith
    rw [hmu.2] at this
    exact one_ne_zero this
  obtain ⟨DD, hDD⟩ : ∃ DD, S.card = DD + 1 := ⟨S.card - 1, by have := hSne.card_pos; omega⟩
  have hcard : S.card ≤ V := by simpa using Finset.card_le_univ S
  let e : Fin (DD + 1) ↪o Fin V := S.orderEmbOfFin hDD
  have heS : ∀ j, e j ∈ S := fun j => S.orderEmbOfFin_mem hDD j
  let c : List ℕ := List.ofFn (fun j => (e j : ℕ))
  have hc : IsSubset V (DD + 1) c := by
    refine ⟨by simp [c], ?_, ?_⟩
    · rw [List.pairwise_ofFn]
      intro a b hab
      exact e.strictMono hab
    · intro x hx
      simp only [c, List.mem_ofFn] at hx
      obtain ⟨j, rfl⟩ := hx
      exact (e j).isLt
  have his : isOf DD c = fun j => (e j : ℕ) := by
    funext j
    rw [isOf, List.getD_eq_getElem?_getD, List.getElem?_eq_getElem (by simp [c]; omega), Option.getD_some]
    simp only [c, List.getElem_ofFn]
  obtain ⟨hlt, hinj⟩ := isOf_spec DD c hc
  have hvert : ∀ j, vert v (isOf DD c j) = v (e j) := by
    intro j; rw [his]; simp [vert]
  have hsupp : ∀ f : Fin V → ℝ, ∑ j, mu (e j) * f (e j) = ∑ i, mu i * f i := by
    intro f
    have h1 : ∑ j, mu (e j) * f (e j) = ∑ i ∈ Finset.univ.map e.toEmbedding, mu i * f i := by
      rw [Finset.sum_map]; rfl
    have h2 : Finset.univ.map e.toEmbedding = S := by
      rw [Finset.map_eq_image]
      exact S.image_orderEmbOfFin_univ hDD
    rw [h1, h2]
    refine Finset.sum_subset (Finset.subset_univ _) fun i _ hi => ?_
    simp only [hS, Finset.mem_filter, Finset.mem_univ, true_and, not_lt] at hi
    have := hmu.1 i
    rw [show mu i = 0 by linarith, zero_mul]
  have hpt : (fun d => ∑ j, mu (e j) * v (e j) d) = baryPoint v mu := by
    funext d; exact hsupp (fun i => v i d)
  have hsolve : solve v p DD (isOf DD c) = fun j => mu (e j) := by
    rw [solve_eq v p hv DD _ hlt hinj]
    funext i
    simp only [solverMatrix, solverRhs, Matrix.mulVec, dotProduct, Matrix.of_apply]
    by_cases hi : (i : ℕ) < DD
    · simp only [dif_pos hi, hvert, sub_mul, Finset.sum_sub_distrib]
      have hrow : ∀ w : Fin D → ℝ, ∑ j, dot w (v (e j)) * mu (e j) = dot w (baryPoint v mu) := by
        intro w
        rw [← hpt, dot_sum]
        exact Finset.sum_congr rfl fun j _ => mul_comm _ _
      rw [hrow, hrow]
      have horth := minimiser_orthogonal v p mu hmu hmin (e ⟨i + 1, by omega⟩) (e 0)
        (by simpa [hS] using heS ⟨i + 1, by omega⟩) (by simpa [hS] using heS 0)
      rw [Curvilinear.dot_comm (baryPoint v mu - p), Curvilinear.dot_comm (baryPoint v mu - p),
        dot_sub, dot_sub] at horth
      rw [Curvilinear.dot_comm p, Curvilinear.dot_comm p]
      linarith
    · simp only [dif_neg hi, one_mul]
      have := hsupp (fun _ => 1)
      simpa [hmu.2] using this
  refine ⟨DD, by omega, c, hc, ?_, ?_⟩
  · rw [hsolve]; exact fun j => hmu.1 _
  · rw [combine_eq, hsolve, ← hpt]
    funext d
    exact Finset.sum_congr rfl fun j _ => by rw [hvert]

theorem sq_eq (v : Fin V → Fin D → ℝ) (p : Fin D → ℝ) (mu : Fin V → ℝ) :
    Real.sqrt (sq v p mu) = euclid (baryPoint v mu) p := by
  simp only [sq, euclid, dot, Pi.sub_apply, pow_two]

/-- C59: for every non-degenerate simplex and every point (closer than the square root of the largest
double to some vertex), the result has non-negative barycentric coordinates with sum one, its point is
the point of the simplex with these coordinates, its distance is the Euclidean distance to the given
point, and no point of the simplex is closer. -/
theorem C59_closest (big : ℝ) (v : Fin V → Fin D → ℝ) (hv : AffineIndependent ℝ v)
    (p : Fin D → ℝ) (hbig : ∃ i, ∑ d, (v i d - p d) ^ 2 < big) :
    ∃ r, closest big v p = some r ∧ Bary r.bary ∧ r.xi = baryPoint v r.bary
      ∧ r.dist = euclid r.xi p ∧ ∀ mu, Bary mu → r.dist ≤ euclid (baryPoint v mu) p := by
  obtain ⟨i0, hi0⟩ := hbig
  have hV : 0 < V := i0.pos
  obtain ⟨r, h1, h2, h3⟩ := closest2_spec big v p hv (List.range V) (by simp; omega) (by simp)
  obtain ⟨mu, hmu, hmin⟩ := minimiser v p hV
  obtain ⟨DD, hDD, c, hc, hpos, hx⟩ := minimiser_found v p hv mu hmu hmin
  have hle : r.dist ≤ sq v p mu := by
    have := h3 DD (by simpa using hDD) c hc hpos
    rwa [hx] at this
  have hlt : sq v p mu < big := by
    refine (hmin (Pi.single i0 1) (single_mem_stdSimplex ℝ i0)).trans_lt (lt_of_eq_of_lt ?_ hi0)
    simp only [sq, dot, baryPoint, Pi.sub_apply, pow_two, Pi.single_apply, ite_mul, one_mul, zero_mul,
      Finset.sum_ite_eq', Finset.mem_univ, if_true]
  rcases h2 with h2 | ⟨h2, h4, h5⟩
  · rw [h2] at hle; exact absurd hle (not_le.mpr hlt)
  · refine ⟨⟨Real.sqrt r.dist, r.xi, r.bary⟩, by rw [closest, h1]; rfl, h2, h4, ?_, ?_⟩
    · simp only
      rw [h5, h4]
      exact sq_eq v p r.bary
    · intro nu hnu
      simp only
      rw [← sq_eq]
      exact Real.sqrt_le_sqrt (hle.trans (hmin nu hnu))

/-- The result always exists; if it is not a point of the simplex (all points too far away), the
coordinates are all zero. -/
theorem closest_total (big : ℝ) (v : Fin V → Fin D → ℝ) (hv : AffineIndependent ℝ v) (hV : 0 < V)
    (p : Fin D → ℝ) : ∃ r, closest big v p = some r ∧
      ((r.xi = (fun _ => 0) ∧ r.bary = fun _ => 0) ∨ (Bary r.bary ∧ r.xi = baryPoint v r.bary)) := by
  obtain ⟨r, h1, h2, _⟩ := closest2_spec big v p hv (List.range V) (by simp; omega) (by simp)
  refine ⟨⟨Real.sqrt r.dist, r.xi, r.bary⟩, by rw [closest, h1]; rfl, ?_⟩
  rcases h2 with h2 | ⟨h2, h4, _⟩
  · exact Or.inl (by rw [h2]; exact ⟨rfl, rfl⟩)
  · exact Or.inr ⟨h2, h4⟩

/-- C59: the closest point is unique, so the result does not depend on which face found it. -/
theorem C59_unique (big : ℝ) (v : Fin V → Fin D → ℝ) (hv : AffineIndependent ℝ v)
    (p : Fin D → ℝ) (hbig : ∃ i, ∑ d, (v i d - p d) ^ 2 < big) (r : Result D V)
    (hr : closest big v p = some r) (mu : Fin V → ℝ) (hmu : Bary mu)
    (heq : euclid (baryPoint v mu) p ≤ r.dist) : r.xi = baryPoint v mu ∧ r.bary = mu := by
  obtain ⟨r', h1, h2, h3, h4, h5⟩ := C59_closest big v hv p hbig
  rw [hr] at h1
  cases h1
  have hb : r.xi = baryPoint v mu := by
    let nu : Fin V → ℝ := fun i => (r.bary i + mu i) / 2
    have hnu : Bary nu := ⟨fun i => by have := h2.1 i; have := hmu.1 i; simp only [nu]; linarith, by
      simp only [nu, ← Finset.sum_div, Finset.sum_add_distrib, h2.2, hmu.2]; norm_num⟩
    have e1 := h5 nu hnu
    have hp : ∀ d, baryPoint v nu d = (r.xi d + baryPoint v mu d) / 2 := by
      intro d
      rw [h3]
      simp only [baryPoint, nu, ← Finset.sum_add_distrib, Finset.sum_div]
      exact Finset.sum_congr rfl fun i _ => by ring
    have e2 := h5 mu hmu
    have n1 : ∀ x : Fin D → ℝ, 0 ≤ ∑ d, (x d - p d) ^ 2 := fun x =>
      Finset.sum_nonneg fun d _ => sq_nonneg _
    have e3 : ∑ d, (r.xi d - p d) ^ 2 ≤ ∑ d, (baryPoint v nu d - p d) ^ 2 := by
      rw [h4] at e1
      exact (Real.sqrt_le_sqrt_iff (n1 _)).mp e1
    have e4 : ∑ d, (baryPoint v mu d - p d) ^ 2 ≤ ∑ d, (r.xi d - p d) ^ 2 := by
      rw [h4] at heq
      exact (Real.sqrt_le_sqrt_iff (n1 _)).mp heq
    have e5 : ∑ d, (baryPoint v nu d - p d) ^ 2
        = (∑ d, (r.xi d - p d) ^ 2) / 2 + (∑ d, (baryPoint v mu d - p d) ^ 2) / 2
          - (∑ d, (r.xi d - baryPoint v mu d) ^ 2) / 4 := by
      rw [Finset.sum_div, Finset.sum_div, Finset.sum_div, ← Finset.sum_add_distrib,
        ← Finset.sum_sub_distrib]
      exact Finset.sum_congr rfl fun d _ => by rw [hp]; ring
    have e6 : ∑ d, (r.xi d - baryPoint v mu d) ^ 2 = 0 := by
      have : 0 ≤ ∑ d, (r.xi d - baryPoint v mu d) ^ 2 := Finset.sum_nonneg fun d _ => sq_nonneg _
      linarith
    funext d
    have := (Finset.sum_eq_zero_iff_of_nonneg (fun d _ => sq_nonneg _)).mp e6 d (Finset.mem_univ _)
    exact sub_eq_zero.mp (pow_eq_zero_iff (two_ne_zero) |>.mp this)
  refine ⟨hb, ?_⟩
  rw [affineIndependent_iff] at hv
  have hz := hv Finset.univ (fun i => r.bary i - mu i) (by
    rw [Finset.sum_sub_distrib, h2.2, hmu.2, sub_self]) (by
    funext d
    have := congrFun (h3.symm.trans hb) d
    simp only [baryPoint] at this
    simp only [Finset.sum_apply, Pi.smul_apply, smul_eq_mul, sub_mul, Finset.sum_sub_distrib, this,
      Pi.zero_apply, sub_self])
  funext i
  exact sub_eq_zero.mp (hz i (Finset.mem_univ _))

/-- The vertices of the reference simplex are affinely independent. -/
theorem refVertices_independent (D : ℕ) : AffineIndependent ℝ (Equidistant.refVertices D) := by
  rw [affineIndependent_iff_of_fintype]
  intro w hw h
  rw [Finset.univ.weightedVSub_eq_linear_combination hw] at h
  have hs : ∀ d : Fin D, w d.succ = 0 := by
    intro d
    have := congrFun h d
    simp only [Finset.sum_apply, Pi.smul_apply, Equidistant.refVertices, smul_eq_mul, mul_ite, mul_one,
      mul_zero, Pi.zero_apply] at this
    rw [Finset.sum_eq_single d.succ] at this
    · simpa using this
    · intro b _ hb
      rw [if_neg]
      intro hbd
      exact hb (Fin.ext (by simpa using hbd))
    · simp
  intro i
  induction i using Fin.cases with
  | zero =>
    rw [Fin.sum_univ_succ] at hw
    simpa [hs] using hw
  | succ d => exact hs d

/-- Non-vacuity: the reference triangle and the point `(2, 2)` meet the hypotheses of `C59_closest`; the
closest point is the midpoint of the long edge. -/
example : ∃ r, closest 100 (Equidistant.refVertices 2) ![2, 2] = some r ∧ r.xi = ![1 / 2, 1 / 2]
    ∧ r.bary = ![0, 1 / 2, 1 / 2] := by
  have hbig : ∃ i, ∑ d, (Equidistant.refVertices 2 i d - (![2, 2] : Fin 2 → ℝ) d) ^ 2 < 100 :=
    ⟨0, by simp [Fin.sum_univ_two, Equidistant.refVertices]; norm_num⟩
  obtain ⟨r, h1, h2, h3, h4, h5⟩ := C59_closest 100 _ (refVertices_independent 2) ![2, 2] hbig
  have hpt : baryPoint (Equidistant.refVertices 2) ![0, 1 / 2, 1 / 2] = ![1 / 2, 1 / 2] := by
    funext d
    fin_cases d <;> simp [baryPoint, Fin.sum_univ_three, Equidistant.refVertices]
  have := C59_unique 100 _ (refVertices_independent 2) ![2, 2] hbig r h1 ![0, 1 / 2, 1 / 2]
    ⟨fun i => by fin_cases i <;> norm_num, by simp [Fin.sum_univ_three]; norm_num⟩ (by
      rw [h4, hpt]
      apply Real.sqrt_le_sqrt
      obtain ⟨hb1, hb2⟩ := h2
      have b0 := hb1 0
      rw [Fin.sum_univ_three] at hb2
      have e0 : r.xi 0 = r.bary 1 := by
        rw [h3]; simp [baryPoint, Fin.sum_univ_three, Equidistant.refVertices]
      have e1 : r.xi 1 = r.bary 2 := by
        rw [h3]; simp [baryPoint, Fin.sum_univ_three, Equidistant.refVertices]
      simp only [Fin.sum_univ_two, e0, e1]
      simp only [Matrix.cons_val_zero, Matrix.cons_val_one]
      nlinarith [sq_nonneg (r.bary 1 - r.bary 2)])
  exact ⟨r, h1, this.1.trans hpt, this.2⟩

end
end Tandem.SimplexDistance
