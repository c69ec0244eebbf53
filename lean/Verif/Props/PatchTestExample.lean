import Verif.Props.PatchTest
import Verif.Props.ConstructExample
/-! # Property C101: the patch test — one polynomial on the whole domain -/
namespace Tandem.PatchTest
open RefElement Error CurvilinearBuild Finset Spec Construct
open Tandem.DGTopo (View FacetInfo facetInfo)

variable {D P : ℕ} {elems : ℕ → List (List ℕ)} {num fnum tag : List ℕ → ℕ} {views : ℕ → View} {d : Domain (D + 1)} {b : ℕ → CurvilinearBuild.Built (D + 1)}
  {o : Construct.Options D}

theorem info_tag (h : Setup P elems num fnum tag views d b) {r : ℕ} (hr : r < P) {i : ℕ} {info : FacetInfo} {f : List ℕ}
    (hinfo : facetInfo (views r) i = some info) (hf : (views r).facets[i]? = some f) :
    info.bc = tag f ∧ (info.up0 = info.up1 → OnBoundary P elems f) := by
  have hi := Construct.info_local h hr hinfo hf
  obtain ⟨info', f', e0, e1, g1, g2, g3, g4, g5, g6, g7, -, -, -, -, -, -, -, g8⟩ := DGTopo.C33_facet_info h.mesh r hr i hi
  obtain rfl := Option.some.inj (hinfo.symm.trans g1)
  obtain rfl := Option.some.inj (hf.symm.trans g2)
  refine ⟨g8, fun heq => ⟨e0, ((h.mesh.view r hr).exactly e0).1 (List.mem_of_getElem? g3) |>.1, g5, fun e' h1 h2 => ?_⟩⟩
  rw [heq] at g3
  obtain rfl := Option.some.inj (g3.symm.trans g4)
  exact (g7 e' h1 h2).elim id id

open MvPolynomial in
/-- **C101 (patch test, Poisson)**: every polynomial of at most the degree of the elements whose flux vanishes on the natural boundary solves
the boundary value problem with its own data, so `C101_poisson` applies to it. -/
theorem C101_poisson_patch (h : Setup P elems num fnum tag views d b) (r : ℕ) (hr : r < P) (k : ℝ) (U : MvPolynomial (Fin (D + 1)) ℝ) (hU : U.totalDegree ≤ o.p)
    (htag : ∀ f, OnBoundary P elems f → tag f = 1 ∨ tag f = 3 ∨ tag f = 5)
    (hnat : ∀ f, OnBoundary P elems f → tag f = 1 → ∀ n y, PerpTo d.x f n → poissonFlux k U n y = 0) :
    PoissonSolution (views r) d o (fun _ => k) (poissonPatchData (views r) d o k U) (fun _ => U) where
  degree _ := hU
  force u e he q := by simp [poissonPatchData, List.getD_eq_getElem?_getD, he]
  inside i info f e0 e1 _ _ _ _ _ q := by simp [poissonPatchData]
  boundary i info f e hi hf he heq q := by
    obtain ⟨h1, h2⟩ := info_tag h hr hi hf
    rw [h1]
    rcases htag f (h2 heq) with ht | ht | ht
    · rw [if_pos ht]; exact fun n hn => hnat f (h2 heq) ht n _ hn
    · simp [ht, poissonPatchData, List.getD_eq_getElem?_getD, hf]
    · simp [ht, poissonPatchData, List.getD_eq_getElem?_getD, hf]

open MvPolynomial in
/-- **C101 (patch test, elasticity)**: the same for elasticity and `C101_elasticity`. -/
theorem C101_elasticity_patch (h : Setup P elems num fnum tag views d b) (r : ℕ) (hr : r < P) (lam mu : ℝ) (U : Fin (D + 1) → MvPolynomial (Fin (D + 1)) ℝ)
    (hU : ∀ p, (U p).totalDegree ≤ o.p) (htag : ∀ f, OnBoundary P elems f → tag f = 1 ∨ tag f = 3 ∨ tag f = 5)
    (hnat : ∀ f, OnBoundary P elems f → tag f = 1 → ∀ n p y, PerpTo d.x f n → elasticTraction lam mu U n p y = 0) :
    ElasticSolution (views r) d o (fun _ => lam) (fun _ => mu) (elasticPatchData (views r) d o lam mu U) (fun _ => U) where
  degree _ := hU
  force u e he p q := by simp [elasticPatchData, List.getD_eq_getElem?_getD, he]
  inside i info f e0 e1 _ _ _ _ _ p q := by simp [elasticPatchData]
  boundary i info f e hi hf he heq p q := by
    obtain ⟨h1, h2⟩ := info_tag h hr hi hf
    rw [h1]
    rcases htag f (h2 heq) with ht | ht | ht
    · rw [if_pos ht]; exact fun n hn => hnat f (h2 heq) ht n p _ hn
    · simp [ht, elasticPatchData, List.getD_eq_getElem?_getD, hf]
    · simp [ht, elasticPatchData, List.getD_eq_getElem?_getD, hf]

theorem exTags (f : List ℕ) (h : OnBoundary 3 Ghosts.exElems f) : Poisson.exTag f = 1 ∨ Poisson.exTag f = 3 ∨ Poisson.exTag f = 5 := by
  obtain ⟨e, h1, h2, h3⟩ := h
  unfold Poisson.exTag
  split
  · exact Or.inl rfl
  split
  · next h12 =>
    have a1 := h3 [0, 1, 2] ⟨0, by decide, by decide⟩ (by rw [h12]; decide)
    have a2 := h3 [1, 2, 3] ⟨0, by decide, by decide⟩ (by rw [h12]; decide)
    rw [← a2] at a1
    exact absurd a1 (by decide)
  · exact Or.inr (Or.inl rfl)

theorem exFacet (f : List ℕ) (h : Poisson.exTag f = 1) : f = [0, 1] := by
  unfold Poisson.exTag at h
  split at h
  · assumption
  · split at h <;> simp at h

theorem exPerp (n : Fin 2 → ℝ) (h : PerpTo exDomain.x [0, 1] n) : n 0 + n 1 = 0 := by
  have := h 1 (by simp) 0 (by simp)
  simpa [exDomain] using this

open MvPolynomial in
/-- `U = x + y` on the strip of triangles with natural boundary, inner facets and faults; three ranks. -/
example : ∃ num fnum views b ranks plans buf arrival, Setup 3 Ghosts.exElems num fnum Poisson.exTag views exDomain b ∧
    Exchange 3 views b ranks plans buf arrival ∧ StraightDomain exDomain ∧ Curvilinear.Valid 3 Ghosts.exElems exDomain.x ∧ GoodOptions exOptions ∧
    ∀ r < 3, PoissonSolution (views r) exDomain exOptions (fun _ => 3) (poissonPatchData (views r) exDomain exOptions 3 (X 0 + X 1)) (fun _ => X 0 + X 1) := by
  obtain ⟨num, fnum, views, b, h⟩ := exSetup
  obtain ⟨ranks, plans, buf, arrival, hx⟩ := exchange_exists 3 views b
  refine ⟨num, fnum, views, b, ranks, plans, buf, arrival, h, hx, exStraight, exValid, exGood, fun r hr =>
    C101_poisson_patch h r hr 3 _ ((totalDegree_add _ _).trans (by simp [exOptions])) exTags fun f _ hf n y hn => ?_⟩
  rw [exFacet f hf] at hn
  have := exPerp n hn
  simp [poissonFlux, Fin.sum_univ_two, pderiv_X]
  linarith

open MvPolynomial in
/-- `U = (x + 2y, 2x + y)` with both Lamé parameters 1: the stress does not vanish, the traction on the natural boundary does. -/
example : ∃ num fnum views b ranks plans buf arrival, Setup 3 Ghosts.exElems num fnum Poisson.exTag views exDomain b ∧
    Exchange 3 views b ranks plans buf arrival ∧ StraightDomain exDomain ∧ Curvilinear.Valid 3 Ghosts.exElems exDomain.x ∧ GoodOptions exOptions ∧
    ∀ r < 3, ElasticSolution (views r) exDomain exOptions (fun _ => 1) (fun _ => 1)
      (elasticPatchData (views r) exDomain exOptions 1 1 ![X 0 + 2 * X 1, 2 * X 0 + X 1]) (fun _ => ![X 0 + 2 * X 1, 2 * X 0 + X 1]) := by
  obtain ⟨num, fnum, views, b, h⟩ := exSetup
  obtain ⟨ranks, plans, buf, arrival, hx⟩ := exchange_exists 3 views b
  have h2 : ∀ i : Fin 2, (2 * X i : MvPolynomial (Fin 2) ℝ).totalDegree ≤ 1 := fun i => by
    refine (totalDegree_mul _ _).trans ?_
    rw [totalDegree_X, show (2 : MvPolynomial (Fin 2) ℝ) = C 2 from rfl, totalDegree_C]
  refine ⟨num, fnum, views, b, ranks, plans, buf, arrival, h, hx, exStraight, exValid, exGood, fun r hr =>
    C101_elasticity_patch h r hr 1 1 _ (fun p => ?_) exTags fun f _ hf n p y hn => ?_⟩
  · fin_cases p
    · exact (totalDegree_add _ _).trans (max_le (by simp [exOptions]) (h2 1))
    · exact (totalDegree_add _ _).trans (max_le (h2 0) (by simp [exOptions]))
  · rw [exFacet f hf] at hn
    have := exPerp n hn
    have d2 : ∀ i : Fin 2, pderiv i (2 : MvPolynomial (Fin 2) ℝ) = 0 := fun i => by
      rw [show (2 : MvPolynomial (Fin 2) ℝ) = C 2 from rfl, pderiv_C]
    fin_cases p <;> simp [elasticTraction, stress, Fin.sum_univ_two, pderiv_X, d2, Derivation.leibniz] <;> linarith

end Tandem.PatchTest
