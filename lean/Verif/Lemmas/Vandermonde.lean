import Verif.Lemmas.RefElement
import Verif.Props.Equidistant
/-! # Nonsingular Vandermonde matrices -/
namespace Tandem.RefElement
open Functions Finset

theorem isPoly_mono (D N M : ℕ) (h : N ≤ M) (f : (Fin D → ℝ) → ℝ) (hf : Spec.IsPoly D N f) :
    Spec.IsPoly D M f := by
  obtain ⟨p, hp, hf⟩ := hf
  exact ⟨p, hp.trans h, hf⟩

theorem isPoly_const (D N : ℕ) (c : ℝ) : Spec.IsPoly D N (fun _ => c) :=
  ⟨MvPolynomial.C c, by simp, fun x => by simp⟩

theorem isPoly_coord (D : ℕ) (d : Fin D) : Spec.IsPoly D 1 (fun x => x d) :=
  ⟨MvPolynomial.X d, by simp, fun x => by simp⟩

theorem isPoly_add (D N : ℕ) (f g : (Fin D → ℝ) → ℝ)
    (hf : Spec.IsPoly D N f) (hg : Spec.IsPoly D N g) : Spec.IsPoly D N (fun x => f x + g x) := by
  have := isPoly_sum D N (univ : Finset (Fin 2)) ![f, g] (fun i _ => by fin_cases i <;> simpa)
  simpa [Fin.sum_univ_two] using this

theorem isPoly_prod {ι : Type*} (D : ℕ) (s : Finset ι) (m : ι → ℕ) (f : ι → (Fin D → ℝ) → ℝ)
    (h : ∀ i ∈ s, Spec.IsPoly D (m i) (f i)) :
    Spec.IsPoly D (∑ i ∈ s, m i) (fun x => ∏ i ∈ s, f i x) := by
  classical
  induction s using Finset.induction_on with
  | empty => simpa using isPoly_const D 0 1
  | insert a s ha ih =>
    simp only [sum_insert ha, prod_insert ha]
    exact isPoly_mul D _ _ _ _ (h a (mem_insert_self a s))
      (ih fun i hi => h i (mem_insert_of_mem hi))

/-- If every node has a polynomial that vanishes at all other nodes but not there, the Vandermonde
matrix is nonsingular. -/
theorem vandermonde_unit (D N : ℕ) (hD : D = 1 ∨ D = 2 ∨ D = 3) (nodes : List (Fin D → ℝ))
    (h : ∀ i : Fin (nbf D N), ∃ f, Spec.IsPoly D N f ∧ f (nodes.getD i.val 0) ≠ 0 ∧
      ∀ j : Fin (nbf D N), j ≠ i → f (nodes.getD j.val 0) = 0) :
    IsUnit (vandermonde N nodes).det := by
  choose f hf h1 h0 using h
  choose c hc using fun i => poly_expand D N hD (f i) (hf i)
  refine Matrix.isUnit_det_of_right_inverse
    (B := Matrix.of fun k i => c i k / f i (nodes.getD i.val 0)) ?_
  ext j i
  rw [Matrix.mul_apply]
  have : ∑ k, vandermonde N nodes j k * (Matrix.of fun k i => c i k / f i (nodes.getD i.val 0)) k i
      = f i (nodes.getD j.val 0) / f i (nodes.getD i.val 0) := by
    rw [hc i (nodes.getD j.val 0), Finset.sum_div]
    refine sum_congr rfl fun k _ => ?_
    simp only [vandermonde, Matrix.of_apply]
    ring
  rw [this, Matrix.one_apply]
  by_cases e : j = i
  · rw [if_pos e, e, div_self (h1 i)]
  · rw [if_neg e, h0 i j e, zero_div]

/-- The polynomial of a lattice point. -/
noncomputable def latticePoly (D n : ℕ) (α : Fin D → ℕ) (x : Fin D → ℝ) : ℝ :=
  (∏ d, ∏ k ∈ range (α d), ((n : ℝ) * x d + -(k : ℝ)))
    * ∏ k ∈ range (n - ∑ d, α d), ((n : ℝ) * (1 + -1 * ∑ d, x d) + -(k : ℝ))

theorem latticePoly_isPoly (D n : ℕ) (α : Fin D → ℕ) (h : ∑ d, α d ≤ n) :
    Spec.IsPoly D n (latticePoly D n α) := by
  have hn : n = ∑ d, α d + (n - ∑ d, α d) := by omega
  have h1 : Spec.IsPoly D (∑ d, α d)
      (fun x => ∏ d, ∏ k ∈ range (α d), ((n : ℝ) * x d + -(k : ℝ))) := by
    refine isPoly_prod D univ α _ fun d _ => ?_
    have := isPoly_prod D (range (α d)) (fun _ => 1) (fun k x => (n : ℝ) * x d + -(k : ℝ)) fun k _ =>
      isPoly_add D 1 _ _ (isPoly_const_mul D 1 _ _ (isPoly_coord D d)) (isPoly_const D 1 _)
    simpa using this
  have h2 : Spec.IsPoly D (n - ∑ d, α d)
      (fun x => ∏ k ∈ range (n - ∑ d, α d), ((n : ℝ) * (1 + -1 * ∑ d, x d) + -(k : ℝ))) := by
    have := isPoly_prod D (range (n - ∑ d, α d)) (fun _ => 1)
      (fun k x => (n : ℝ) * (1 + -1 * ∑ d, x d) + -(k : ℝ)) fun k _ =>
      isPoly_add D 1 _ _ (isPoly_const_mul D 1 _ _ (isPoly_add D 1 _ _ (isPoly_const D 1 _)
        (isPoly_const_mul D 1 _ _ (isPoly_sum D 1 univ _ fun d _ => isPoly_coord D d))))
        (isPoly_const D 1 _)
    simpa using this
  have := isPoly_mul D _ _ _ _ h1 h2
  rw [← hn] at this
  exact this

theorem latticePoly_val (D n : ℕ) (hn : 0 < n) (α β : Fin D → ℕ) (hα : ∑ d, α d ≤ n)
    (hβ : ∑ d, β d ≤ n) (x : Fin D → ℝ) (hx : ∀ d, x d = (β d : ℝ) / n) :
    latticePoly D n α x ≠ 0 ↔ α = β := by
  have hn' : (n : ℝ) ≠ 0 := by positivity
  have e1 : ∀ d, (n : ℝ) * x d = β d := fun d => by rw [hx]; field_simp
  have e2 : (n : ℝ) * (1 + -1 * ∑ d, x d) = ((n - ∑ d, β d : ℕ) : ℝ) := by
    rw [Nat.cast_sub hβ, Nat.cast_sum, mul_add, mul_one, mul_left_comm, Finset.mul_sum]
    simp only [e1]; ring
  unfold latticePoly
  simp only [e1, e2, mul_ne_zero_iff, Finset.prod_ne_zero_iff, mem_univ, true_implies, mem_range]
  constructor
  · rintro ⟨h1, h2⟩
    have g1 : ∀ d, α d ≤ β d := fun d => by
      by_contra hc
      exact h1 d (β d) (by omega) (by ring)
    have g2 : ∑ d, β d ≤ ∑ d, α d := by
      by_contra hc
      exact h2 (n - ∑ d, β d) (by omega) (by ring)
    have g3 : ∑ d, α d = ∑ d, β d := le_antisymm (sum_le_sum fun d _ => g1 d) g2
    funext d
    exact (sum_eq_sum_iff_of_le fun d _ => g1 d).1 g3 d (mem_univ d)
  · rintro rfl
    refine ⟨fun d k hk hc => ?_, fun k hk hc => ?_⟩
    · have : (α d : ℝ) = k := by linarith
      have := Nat.cast_injective this
      omega
    · have : ((n - ∑ d, α d : ℕ) : ℝ) = k := by linarith
      have := Nat.cast_injective this
      omega

/-- The equidistant nodes have a nonsingular Vandermonde matrix. -/
theorem equidistant_unit (conv : Equidistant.Convention) (D n : ℕ) (hD : D = 1 ∨ D = 2 ∨ D = 3)
    (hn : 0 < n) : IsUnit (vandermonde n (Equidistant.nodes conv D n)).det := by
  obtain ⟨h1, h2, h3⟩ := Equidistant.C61_lattice conv D n hD hn
  refine vandermonde_unit D n hD _ fun i => ?_
  have hget : ∀ i : Fin (nbf D n), ∃ h : i.val < (Equidistant.nodes conv D n).length,
      (Equidistant.nodes conv D n).getD i.val 0 = (Equidistant.nodes conv D n)[i.val] := fun i =>
    ⟨by rw [h2]; exact i.2, List.getD_eq_getElem _ _ _⟩
  obtain ⟨hi, ei⟩ := hget i
  obtain ⟨α, hα, hxα⟩ := (h3 _).1 (List.getElem_mem hi)
  refine ⟨latticePoly D n α, latticePoly_isPoly D n α hα, ?_, fun j hj => ?_⟩
  · rw [ei]; exact (latticePoly_val D n hn α α hα hα _ hxα).2 rfl
  · obtain ⟨hj', ej⟩ := hget j
    obtain ⟨β, hβ, hxβ⟩ := (h3 _).1 (List.getElem_mem hj')
    rw [ej]
    by_contra hc
    have := (latticePoly_val D n hn α β hα hβ _ hxβ).1 hc
    subst this
    apply hj
    have : (Equidistant.nodes conv D n)[j.val] = (Equidistant.nodes conv D n)[i.val] := by
      funext d; rw [hxα, hxβ]
    exact Fin.ext ((List.Nodup.getElem_inj_iff h1).1 this)

/-- On the line any distinct nodes will do. -/
theorem line_unit (N : ℕ) (nodes : List (Fin 1 → ℝ)) (hl : nodes.length = N + 1) (hnd : nodes.Nodup) :
    IsUnit (vandermonde N nodes).det := by
  have hb : nbf 1 N = N + 1 := by simp [nbf]
  refine vandermonde_unit 1 N (Or.inl rfl) nodes fun i => ?_
  refine ⟨fun x => ∏ j ∈ (univ.erase i : Finset (Fin (nbf 1 N))), (x 0 + -(nodes.getD j.val 0 0)), ?_, ?_, ?_⟩
  · have := isPoly_prod 1 (univ.erase i : Finset (Fin (nbf 1 N))) (fun _ => 1)
      (fun j x => x 0 + -(nodes.getD j.val 0 0)) fun j _ =>
        isPoly_add 1 1 _ _ (isPoly_coord 1 0) (isPoly_const 1 1 _)
    refine isPoly_mono 1 _ _ ?_ _ this
    simp [hb]
  · rw [prod_ne_zero_iff]
    intro j hj hc
    have hj := (mem_erase.1 hj).1
    apply hj
    have e1 : i.val < nodes.length := by rw [hl, ← hb]; exact i.2
    have e2 : j.val < nodes.length := by rw [hl, ← hb]; exact j.2
    rw [List.getD_eq_getElem _ _ e1, List.getD_eq_getElem _ _ e2] at hc
    have : nodes[j.val] = nodes[i.val] := by
      funext d
      rw [Subsingleton.elim d 0]; linarith
    exact Fin.ext ((List.Nodup.getElem_inj_iff hnd).1 this)
  · intro j hj
    refine prod_eq_zero (mem_erase.2 ⟨hj, mem_univ j⟩) (by ring)

/-- The modal basis functions are linearly independent. -/
theorem modal_indep (D N : ℕ) (hD : D = 1 ∨ D = 2 ∨ D = 3) (c : Fin (nbf D N) → ℝ)
    (h : ∀ x, ∑ k : Fin (nbf D N), dubinerP D (index D N k) x * c k = 0) : c = 0 := by
  have hD0 : 0 < D := by omega
  have hle : nbf D N ≤ nbf D (N + 1) := Nat.choose_le_choose D (by omega)
  have hu := equidistant_unit .VTK D (N + 1) hD (by omega)
  let c' : Fin (nbf D (N + 1)) → ℝ := fun k => if h : k.val < nbf D N then c ⟨k.val, h⟩ else 0
  have hs : ∀ x, ∑ k : Fin (nbf D (N + 1)), dubinerP D (index D (N + 1) k) x * c' k = 0 := by
    intro x
    rw [← h x]
    symm
    refine sum_of_injOn (fun k : Fin (nbf D N) => (⟨k.val, by omega⟩ : Fin (nbf D (N + 1))))
      (fun a _ b _ e => by simpa [Fin.ext_iff] using e) (fun _ _ => by simp) ?_ ?_
    · intro k _ hk
      have : ¬ k.val < nbf D N := fun hc => hk ⟨⟨k.val, hc⟩, by simp⟩
      simp [c', this]
    · intro k _
      simp [c', index_hier D N (N + 1) k.val hD0 k.2 (by omega)]
  have h0 : (vandermonde (N + 1) (Equidistant.nodes .VTK D (N + 1))).mulVec c' = 0 := by
    funext i
    exact hs _
  have h1 : c' = 0 := by
    have := Matrix.mulVec_injective_of_isUnit ((Matrix.isUnit_iff_isUnit_det _).2 hu)
    apply this
    rw [h0, Matrix.mulVec_zero]
  funext k
  have := congrFun h1 ⟨k.val, by omega⟩
  simpa [c'] using this

end Tandem.RefElement
