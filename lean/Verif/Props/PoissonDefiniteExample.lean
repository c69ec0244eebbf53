import Verif.Props.PoissonDefinite
import Verif.Props.ElasticityDefinite
import Verif.Props.PatchTestExample
/-! # The hypotheses of C102 can be met: a strip of triangles on three ranks -/
namespace Tandem.Definite
open Finset Spec Construct

theorem exAnchored : Anchored 3 Ghosts.exElems Poisson.exTag := by
  have key : ∀ (e f : List ℕ), InElems 3 Ghosts.exElems e → IsFacet e f → (∀ a, InElems 3 Ghosts.exElems a → IsFacet a f → a = e) → Poisson.exTag f ≠ 1 →
      ∃ a f, Relation.ReflTransGen (SharesFacet 3 Ghosts.exElems) e a ∧ InElems 3 Ghosts.exElems a ∧ IsFacet a f ∧
        (∀ a', InElems 3 Ghosts.exElems a' → IsFacet a' f → a' = a) ∧ Poisson.exTag f ≠ 1 := fun e f h1 h2 h3 h4 => ⟨e, f, .refl, h1, h2, h3, h4⟩
  have hall : ∀ e, InElems 3 Ghosts.exElems e → e ∈ Ghosts.exAll := by
    rintro e ⟨s, hs, he⟩
    have : s = 0 ∨ s = 1 ∨ s = 2 := by omega
    rcases this with rfl | rfl | rfl <;> simp [Ghosts.exElems, Ghosts.exAll] at he ⊢ <;> tauto
  have hmem : ∀ e ∈ Ghosts.exAll, InElems 3 Ghosts.exElems e := by
    intro e he
    simp only [Ghosts.exAll, List.mem_cons, List.not_mem_nil, or_false] at he
    rcases he with rfl | rfl | rfl | rfl | rfl
    exacts [⟨0, by decide, by decide⟩, ⟨0, by decide, by decide⟩, ⟨1, by decide, by decide⟩, ⟨2, by decide, by decide⟩, ⟨2, by decide, by decide⟩]
  have honly : ∀ e f, (∀ a ∈ Ghosts.exAll, IsFacet a f → a = e) → ∀ a, InElems 3 Ghosts.exElems a → IsFacet a f → a = e := fun e f h a ha hf => h a (hall a ha) hf
  -- from the first element through the second one to the third; the others have a facet with prescribed values themselves
  intro e he
  have he' := hall e he
  simp only [Ghosts.exAll, List.mem_cons, List.not_mem_nil, or_false] at he'
  rcases he' with rfl | rfl | rfl | rfl | rfl
  · refine ⟨[2, 3, 4], [2, 4], ?_, hmem _ (by decide), by decide, honly _ _ (by decide), by decide⟩
    refine .tail (.tail .refl (b := [0, 1, 2]) (c := [1, 2, 3]) ⟨he, hmem _ (by decide), [1, 2], by decide, by decide⟩) ?_
    exact ⟨hmem _ (by decide), hmem _ (by decide), [2, 3], by decide, by decide⟩
  · exact key _ [1, 3] he (by decide) (honly _ _ (by decide)) (by decide)
  · exact key _ [2, 4] he (by decide) (honly _ _ (by decide)) (by decide)
  · exact key _ [4, 6] he (by decide) (honly _ _ (by decide)) (by decide)
  · exact key _ [3, 5] he (by decide) (honly _ _ (by decide)) (by decide)

open MvPolynomial in
/-- `U = x + y` on the strip of triangles with natural boundary, inner facets and faults; three ranks. -/
example : ∃ num fnum views b ranks plans buf arrival, Setup 3 Ghosts.exElems num fnum Poisson.exTag views exDomain b ∧
    Exchange 3 views b ranks plans buf arrival ∧ StraightDomain exDomain ∧ Curvilinear.Valid 3 Ghosts.exElems exDomain.x ∧ GoodOptions exOptions ∧
    exOptions.method = .IP ∧ Anchored 3 Ghosts.exElems Poisson.exTag ∧
    ∀ r < 3, PoissonSolution (views r) exDomain exOptions (fun _ => 3) (poissonPatchData (views r) exDomain exOptions 3 (X 0 + X 1)) (fun _ => X 0 + X 1) := by
  obtain ⟨num, fnum, views, b, h⟩ := exSetup
  obtain ⟨ranks, plans, buf, arrival, hx⟩ := exchange_exists 3 views b
  refine ⟨num, fnum, views, b, ranks, plans, buf, arrival, h, hx, exStraight, exValid, exGood, rfl, exAnchored, fun r hr =>
    PatchTest.C101_poisson_patch h r hr 3 _ ((totalDegree_add _ _).trans (by simp [exOptions])) PatchTest.exTags fun f _ hf n y hn => ?_⟩
  rw [PatchTest.exFacet f hf] at hn
  have := PatchTest.exPerp n hn
  simp [poissonFlux, Fin.sum_univ_two, pderiv_X]
  linarith

open MvPolynomial in
/-- The displacement `(x + 2 y, 2 x + y)` on the same mesh, with Lamé parameters one: all hypotheses of `C102_elasticity_exact`. -/
example : ∃ num fnum views b ranks plans buf arrival C_N, Setup 3 Ghosts.exElems num fnum Poisson.exTag views exDomain b ∧
    Exchange 3 views b ranks plans buf arrival ∧ StraightDomain exDomain ∧ Curvilinear.Valid 3 Ghosts.exElems exDomain.x ∧ GoodOptions exOptions ∧
    exOptions.method = .IP ∧ Cfl.gradConstant 2 exOptions.p = some C_N ∧ Anchored 3 Ghosts.exElems Poisson.exTag ∧
    ∀ r < 3, ElasticSolution (views r) exDomain exOptions (fun _ => 1) (fun _ => 1)
      (elasticPatchData (views r) exDomain exOptions 1 1 ![X 0 + 2 * X 1, 2 * X 0 + X 1]) (fun _ => ![X 0 + 2 * X 1, 2 * X 0 + X 1]) := by
  obtain ⟨num, fnum, views, b, h⟩ := exSetup
  obtain ⟨ranks, plans, buf, arrival, hx⟩ := exchange_exists 3 views b
  obtain ⟨C_N, hC, -⟩ := Cfl.C97_gradient_reference 2 exOptions.p (Or.inl ⟨rfl, le_rfl, by decide⟩)
  have h2 : ∀ i : Fin 2, (2 * X i : MvPolynomial (Fin 2) ℝ).totalDegree ≤ 1 := fun i => by
    refine (totalDegree_mul _ _).trans ?_
    rw [totalDegree_X, show (2 : MvPolynomial (Fin 2) ℝ) = C 2 from rfl, totalDegree_C]
  refine ⟨num, fnum, views, b, ranks, plans, buf, arrival, C_N, h, hx, exStraight, exValid, exGood, rfl, hC, exAnchored, fun r hr =>
    PatchTest.C101_elasticity_patch h r hr 1 1 _ (fun p => ?_) PatchTest.exTags fun f _ hf n p y hn => ?_⟩
  · fin_cases p
    · exact (totalDegree_add _ _).trans (max_le (by simp [exOptions]) (h2 1))
    · exact (totalDegree_add _ _).trans (max_le (h2 0) (by simp [exOptions]))
  · rw [PatchTest.exFacet f hf] at hn
    have := PatchTest.exPerp n hn
    have d2 : ∀ i : Fin 2, pderiv i (2 : MvPolynomial (Fin 2) ℝ) = 0 := fun i => by
      rw [show (2 : MvPolynomial (Fin 2) ℝ) = C 2 from rfl, pderiv_C]
    fin_cases p <;> simp [elasticTraction, stress, Fin.sum_univ_two, pderiv_X, d2, Derivation.leibniz] <;> linarith

/-- A natural boundary all around does not hold the mesh. -/
example : ¬ Anchored 3 Ghosts.exElems fun _ => 1 := fun h => by
  obtain ⟨a, f, -, -, -, -, hf⟩ := h [0, 1, 2] ⟨0, by decide, by decide⟩
  exact hf rfl

end Tandem.Definite
