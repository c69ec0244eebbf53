import Verif.Lemmas.GlobalForm
import Verif.Props.DGTopo
import Mathlib.LinearAlgebra.FiniteDimensional.Basic
/-! # A distributed linear system whose homogeneous form has the zero solution only has exactly one solution (C102) -/
namespace Tandem.DGAssembly
open Tandem.Spec Tandem.DGTopo

variable {P D : Nat} {elems : Nat → List (List Nat)} {num fnum tag : List Nat → Nat} {views : Nat → View}

theorem rowApply_add {B V : Type} [AddCommGroup V] (act : B → V → V) (ha : ∀ b x y, act b (x + y) = act b x + act b y)
    (blocks : List (Nat × Nat × B)) (x y : Nat → V) (u : Nat) : rowApply act blocks (fun j => x j + y j) u = rowApply act blocks x u + rowApply act blocks y u := by
  unfold rowApply
  simp only [ha]
  exact List.sum_map_add

theorem rowApply_smul {B V : Type} [AddCommGroup V] [Module ℝ V] (act : B → V → V) (ha : ∀ b (c : ℝ) x, act b (c • x) = c • act b x)
    (blocks : List (Nat × Nat × B)) (c : ℝ) (x : Nat → V) (u : Nat) : rowApply act blocks (fun j => c • x j) u = c • rowApply act blocks x u := by
  unfold rowApply
  simp only [ha]
  rw [List.smul_sum, List.map_map]; rfl

/-- An element has one position on one rank. -/
theorem position (hd : IsDistributed P D elems num fnum tag views) {r r' u u' : Nat} (hr : r < P) (hr' : r' < P) (hu : u < (elems r).length)
    (hu' : u' < (elems r').length) {e : List Nat} (h : (views r).elems[u]? = some e) (h' : (views r').elems[u']? = some e) : r = r' ∧ u = u' := by
  have h1 := (own_iff hr hd.mesh (hd.view r hr) h).2.1 (by rw [(hd.view r hr).numLocal]; exact hu)
  have h2 := (own_iff hr' hd.mesh (hd.view r' hr') h').2.1 (by rw [(hd.view r' hr').numLocal]; exact hu')
  obtain rfl := own_unique hd.mesh hr hr' h1 h2
  exact ⟨rfl, get_inj (hd.view r hr).once h h'⟩

theorem solvable (hd : IsDistributed P D elems num fnum tag views) {B V : Type} [AddCommGroup V] [Module ℝ V] [FiniteDimensional ℝ V] (act : B → V → V)
    (ha : ∀ b x y, act b (x + y) = act b x + act b y) (hc : ∀ b (c : ℝ) x, act b (c • x) = c • act b x) (blocks : Nat → List (Nat × Nat × B))
    (hinj : ∀ X : List Nat → V, (∀ r, r < P → ∀ u, u < (elems r).length → rowApply act (blocks r) (fun j => X ((views r).elems.getD j [])) u = 0) →
      ∀ e, InElems P elems e → X e = 0)
    (b : Nat → Nat → V) : ∃ X : List Nat → V, ∀ r, r < P → ∀ u, u < (elems r).length →
      rowApply act (blocks r) (fun j => X ((views r).elems.getD j [])) u = b r u := by
  classical
  let E := {e // e ∈ ((List.range P).flatMap elems).toFinset}
  have hE : ∀ e, e ∈ ((List.range P).flatMap elems).toFinset ↔ InElems P elems e := fun e => by simp [InElems]
  have hpos : ∀ e : E, ∃ r u, r < P ∧ u < (elems r).length ∧ (views r).elems[u]? = some e.1 := fun e => by
    obtain ⟨r, hr, her⟩ := (hE e.1).1 e.2
    have hv := hd.view r hr
    obtain ⟨u, hu⟩ := List.mem_iff_getElem?.1 ((hv.exactly e.1).2 ⟨⟨r, hr, her⟩, Or.inl her⟩)
    exact ⟨r, u, hr, by rw [← hv.numLocal]; exact (own_iff hr hd.mesh hv hu).2.2 her, hu⟩
  choose rk ps h1 h2 h3 using hpos
  let ext : (E → V) → List Nat → V := fun x e => if h : e ∈ ((List.range P).flatMap elems).toFinset then x ⟨e, h⟩ else 0
  let L : (E → V) →ₗ[ℝ] (E → V) :=
    { toFun := fun x e => rowApply act (blocks (rk e)) (fun j => ext x ((views (rk e)).elems.getD j [])) (ps e)
      map_add' := fun x y => by
        funext e
        rw [Pi.add_apply, ← rowApply_add act ha]
        congr 1
        funext j
        simp only [ext]
        split <;> simp
      map_smul' := fun c x => by
        funext e
        rw [Pi.smul_apply, RingHom.id_apply, ← rowApply_smul act hc]
        congr 1
        funext j
        simp only [ext]
        split <;> simp }
  have hall : ∀ (Q : Nat → Nat → Prop), (∀ e, Q (rk e) (ps e)) → ∀ r, r < P → ∀ u, u < (elems r).length → Q r u := by
    intro Q hQ r hr u hu
    have hul : u < (views r).elems.length := by
      have := numLocal_le (hd.view r hr); rw [(hd.view r hr).numLocal] at this; omega
    have hg := List.getElem?_eq_getElem hul
    have hin := ((hd.view r hr).exactly _).1 (List.mem_of_getElem? hg) |>.1
    have hp := position hd hr (h1 ⟨_, (hE _).2 hin⟩) hu (h2 ⟨_, (hE _).2 hin⟩) hg (h3 ⟨_, (hE _).2 hin⟩)
    have := hQ ⟨_, (hE _).2 hin⟩
    rwa [← hp.1, ← hp.2] at this
  have hinjL : Function.Injective L := by
    rw [← LinearMap.ker_eq_bot, LinearMap.ker_eq_bot']
    intro x hx
    have hz := hinj (ext x) (hall _ fun e => congrFun hx e)
    funext e
    have := hz e.1 ((hE e.1).1 e.2)
    simp only [ext, e.2, dif_pos] at this
    exact this
  obtain ⟨x, hx⟩ := LinearMap.injective_iff_surjective.1 hinjL fun e => b (rk e) (ps e)
  exact ⟨ext x, hall _ fun e => congrFun hx e⟩

end Tandem.DGAssembly
