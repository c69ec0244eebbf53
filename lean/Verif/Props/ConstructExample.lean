import Verif.Props.ConstructMatrix
/-! # Property C99: the hypotheses can be met, on the strip of triangles and three ranks -/
namespace Tandem.Construct
open RefElement Error CurvilinearBuild Finset Spec
open Tandem.DGTopo (View FacetInfo facetInfo)

/-- For every mesh there are plans; the messages may come in the order of the plan. -/
theorem exchange_exists {D : ℕ} (P : ℕ) (views : ℕ → View) (b : ℕ → Built (D + 1)) :
    ∃ ranks plans buf arrival, Exchange P views b ranks plans buf arrival := by
  set p : ℕ → ScatterPlan.Plan := fun r => ScatterPlan.setup (ScatterPlan.planMaps r (DGTopo.elemFaces (views r))).1
    (ScatterPlan.planMaps r (DGTopo.elemFaces (views r))).2 with hp
  refine ⟨(List.range P).map fun r => (views r, b r), (List.range P).map p, fun r => List.replicate (p r).recvIdx.length 7,
    fun r => (p r).recvBlocks.reverse, ⟨fun r hr => ?_, fun r hr => ⟨p r, ?_, ⟨_, _, List.Perm.refl _, List.Perm.refl _, rfl⟩, by simp, List.reverse_perm _⟩⟩⟩
  · rw [List.getElem?_map, List.getElem?_range hr]; rfl
  · rw [List.getElem?_map, List.getElem?_range hr]; rfl

/-- Triangles with vertices `(i, i mod 2)` in two regions. -/
noncomputable def exDomain : Domain 2 where
  x v := ![(v : ℝ), ((v % 2 : ℕ) : ℝ)]
  region e := if e.sum < 7 then 1 else 2
  curved := none
  transform := id
  degree := 1
  refNodes := Equidistant.nodes .VTK 2 1

theorem exStraight : StraightDomain exDomain :=
  ⟨rfl, rfl, le_rfl, (Equidistant.C61_lattice .VTK 2 1 (by decide) (by decide)).2.1,
    (C78_unisolvent 2 1 (by decide) _ (Equidistant.C61_lattice .VTK 2 1 (by decide) (by decide)).2.1).1 (C78_equidistant .VTK 2 1 (by decide) (by decide))⟩

theorem exValid : Curvilinear.Valid 3 Ghosts.exElems exDomain.x where
  volume := by
    intro e he
    have hm := (Cfl.exMem he).1
    simp only [Ghosts.exAll, List.mem_cons, List.not_mem_nil, or_false] at hm
    rcases hm with rfl | rfl | rfl | rfl | rfl <;>
      simp [Curvilinear.edgeMatrix, Curvilinear.elemVerts, Matrix.det_fin_two, exDomain] <;> norm_num
  apart := by
    intro f e e' he he' hne hf hf'
    have h0 : ∀ a ∈ Ghosts.exAll, ∀ b ∈ Ghosts.exAll, ∀ f ∈ Ghosts.facets 2 a, a ≠ b → IsFacet b f →
        ∃ n ∈ List.range 4, f = [n + 1, n + 2] ∧ (a = [n, n + 1, n + 2] ∧ b = [n + 1, n + 2, n + 3] ∨ b = [n, n + 1, n + 2] ∧ a = [n + 1, n + 2, n + 3]) := by
      decide +kernel
    obtain ⟨n, hn, rfl, h⟩ := h0 e (Cfl.exMem he).1 e' (Cfl.exMem he').1 f (((Cfl.exMem he).2 f).2 hf) hne hf'
    have hn := List.mem_range.1 hn
    rcases h with ⟨rfl, rfl⟩ | ⟨rfl, rfl⟩
    · refine ⟨if n % 2 = 0 then ![1, 1] else ![1, -1], if n % 2 = 0 then -((n : ℝ) + 2) else -((n : ℝ) + 1), ?_, ?_, ?_⟩ <;>
        interval_cases n <;> simp [exDomain, dotProduct] <;> norm_num
    · refine ⟨if n % 2 = 0 then ![-1, -1] else ![-1, 1], if n % 2 = 0 then ((n : ℝ) + 2) else ((n : ℝ) + 1), ?_, ?_, ?_⟩ <;>
        interval_cases n <;> simp [exDomain, dotProduct] <;> norm_num

/-- Linear elements, midpoints of the edges, Simpson's rule on the facets. -/
noncomputable def exOptions : Options 1 where
  p := 1
  volRule := Material.exRule
  fctRule := ⟨[![0], ![1 / 2], ![1]], [1 / 6, 2 / 3, 1 / 6]⟩
  massRule := Material.exRule
  nodes := Equidistant.nodes .VTK 2 1
  method := .IP

theorem exGood : GoodOptions exOptions where
  degree := le_rfl
  vol := Material.exRegular.exact
  fct := by
    refine Functions.exact_of_monomials 1 2 (by simp) [![0], ![1 / 2], ![1]] [1 / 6, 2 / 3, 1 / 6] rfl fun m hm => ?_
    rw [Fin.sum_univ_one] at hm
    have : m 0 = 0 ∨ m 0 = 1 ∨ m 0 = 2 := by omega
    rcases this with h0 | h0 | h0 <;> simp [Functions.moment, h0, Nat.factorial] <;> norm_num
  mass := Material.exRegular.exact
  volPos := by
    intro w hw
    have : w = 1 / 6 := by simpa [exOptions, Material.exRule] using hw
    rw [this]; norm_num
  fctPos := by
    intro w hw
    have : w = 1 / 6 ∨ w = 2 / 3 ∨ w = 1 / 6 := by simpa [exOptions] using hw
    rcases this with rfl | rfl | rfl <;> norm_num
  length := exStraight.length
  nodes := exStraight.nodes

theorem exSetup : ∃ num fnum views b, Setup 3 Ghosts.exElems num fnum Poisson.exTag views exDomain b := by
  obtain ⟨num, fnum, views, h, h'⟩ := DGTopo.C33_local_meshes Ghosts.exEnv Ghosts.exElems Ghosts.exMesh Ghosts.exOk (by decide)
    (fun _ f => Poisson.exTag f)
    (fun r => (DGTopo.sortedBy_exists Ghosts.exEnv.P Ghosts.exEnv.plex2rank (DGTopo.facetLists Ghosts.exEnv Ghosts.exElems)
      (fun s => (Ghosts.exElems s).length) none (some (fun _ f => Poisson.exTag f)) r).choose)
    (fun r _ => (DGTopo.sortedBy_exists Ghosts.exEnv.P Ghosts.exEnv.plex2rank (DGTopo.facetLists Ghosts.exEnv Ghosts.exElems)
      (fun s => (Ghosts.exElems s).length) none (some (fun _ f => Poisson.exTag f)) r).choose_spec)
  refine ⟨num, fnum, views, _, h, fun r hr => ?_, fun r hr => rfl⟩
  obtain ⟨lf, -, hlf⟩ := h' r hr
  exact DGTopo.C33_facet_order Ghosts.exEnv Ghosts.exElems r lf (views r) hlf

/-- Everything `C99_poisson_matrix` and `C99_elasticity_matrix` assume, with two regions of different material. -/
example : ∃ num fnum views b ranks plans buf arrival, Setup 3 Ghosts.exElems num fnum Poisson.exTag views exDomain b ∧
    Exchange 3 views b ranks plans buf arrival ∧ StraightDomain exDomain ∧ Curvilinear.Valid 3 Ghosts.exElems exDomain.x ∧
    GoodOptions exOptions ∧ Cfl.Checked 2 exOptions.p ∧ exOptions.method = .IP ∧
    ∃ K : (Fin 2 → ℝ) → ℤ → Fin 1 → ℝ, (∀ x t, K x t 0 = (if t = 1 then 3 else 4)) ∧
      poissonMaterial exOptions exDomain K [0, 1, 2] = (fun _ => 3) ∧ poissonMaterial exOptions exDomain K [2, 3, 4] = (fun _ => 4) := by
  obtain ⟨num, fnum, views, b, h⟩ := exSetup
  obtain ⟨ranks, plans, buf, arrival, hx⟩ := exchange_exists 3 views b
  refine ⟨num, fnum, views, b, ranks, plans, buf, arrival, h, hx, exStraight, exValid, exGood, Or.inl ⟨rfl, le_rfl, by simp [exOptions]⟩, rfl,
    fun _ t _ => if t = 1 then 3 else 4, fun _ _ => rfl, ?_, ?_⟩
  · have hin : InElems 3 Ghosts.exElems [0, 1, 2] := ⟨0, by decide, by decide⟩
    rw [poisson_material (by decide) exStraight exGood _ (fun t => if t = 1 then 3 else 4) (fun _ _ => rfl) _ (exValid.volume _ hin)]
    funext i; simp [exDomain]
  · have hin : InElems 3 Ghosts.exElems [2, 3, 4] := ⟨1, by decide, by decide⟩
    rw [poisson_material (by decide) exStraight exGood _ (fun t => if t = 1 then 3 else 4) (fun _ _ => rfl) _ (exValid.volume _ hin)]
    funext i; simp [exDomain]

end Tandem.Construct
