import Verif.Model.RefElement
import Verif.Spec.RefElement
import Verif.Lemmas.DubinerSpan
import Verif.Props.Combinatorics
/-! # The numbering of the basis functions and the Vandermonde matrix -/
namespace Tandem.RefElement
open Functions Combinatorics Finset

theorem sumsLoop_eq (stop : List ℕ) : ∀ (fuel : ℕ) (m : List ℕ) (L : List (List ℕ)),
    sumsLoop stop fuel m = some L →
      L = (List.range L.length).map fun k => sumsDeref (sumsStep^[k] m) := by
  intro fuel
  induction fuel with
  | zero =>
    intro m L h
    unfold sumsLoop at h
    by_cases hm : m = stop
    · rw [if_pos hm] at h; cases h; rfl
    · rw [if_neg hm] at h; cases h
  | succ fuel ih =>
    intro m L h
    unfold sumsLoop at h
    by_cases hm : m = stop
    · rw [if_pos hm] at h; cases h; rfl
    · rw [if_neg hm] at h
      simp only [Option.map_eq_some_iff] at h
      obtain ⟨L', h1, rfl⟩ := h
      have := ih _ _ h1
      rw [List.length_cons, List.range_succ_eq_map, List.map_cons, List.map_map]
      simp only [Function.iterate_zero, id]
      conv_lhs => rw [this]
      rfl

theorem visited (D N : ℕ) (hD : 0 < D) : ∃ L, sumsVisit D true N (nbf D N) = some L ∧
    Spec.ListsExactly L (fun t => t.length = D ∧ t.sum ≤ N) ∧ L.length = nbf D N ∧
    L = (List.range (nbf D N)).map fun k => sumsDeref (sumsStep^[k] (sumsMake D true 0 N)) := by
  obtain ⟨L, h1, h2, h3⟩ := C06_sums_at_most D N hD (nbf D N) le_rfl
  refine ⟨L, h1, h2, h3, ?_⟩
  have := sumsLoop_eq _ _ _ _ h1
  rwa [h3] at this

theorem sumsMake_zero (D N M : ℕ) : sumsMake D true 0 N = sumsMake D true 0 M := rfl

theorem length_indices (D N : ℕ) (hD : 0 < D) : (indices D N).length = nbf D N := by
  obtain ⟨L, h1, _, h3, _⟩ := visited D N hD
  simp [indices, h1, h3]

theorem list_fun_sum {D : ℕ} (l : List ℕ) (h : l.length = D) : ∑ d : Fin D, l.getD d.val 0 = l.sum := by
  subst h
  induction l with
  | nil => simp
  | cons a l ih =>
    rw [List.sum_cons, ← ih]
    exact (Fin.sum_univ_succ (n := l.length) (fun d => (a :: l).getD d.val 0)).trans (by simp)

theorem mem_indices (D N : ℕ) (hD : 0 < D) (j : Fin D → ℕ) : j ∈ indices D N ↔ ∑ d, j d ≤ N := by
  obtain ⟨L, h1, ⟨h2, h2'⟩, h3, _⟩ := visited D N hD
  simp only [indices, h1, Option.getD_some, List.mem_map]
  constructor
  · rintro ⟨l, hl, rfl⟩
    obtain ⟨h4, h5⟩ := (h2' l).1 hl
    rw [list_fun_sum l h4]; exact h5
  · intro h
    have hj : (fun d : Fin D => (List.ofFn j).getD d.val 0) = j := by
      funext d; simp [List.getD_eq_getElem?_getD]
    refine ⟨List.ofFn j, (h2' _).2 ⟨by simp, ?_⟩, hj⟩
    rw [List.sum_ofFn]; exact h

theorem nodup_indices (D N : ℕ) (hD : 0 < D) : (indices D N).Nodup := by
  obtain ⟨L, h1, ⟨h2, h2'⟩, h3, _⟩ := visited D N hD
  simp only [indices, h1, Option.getD_some]
  refine (List.nodup_map_iff_inj_on h2).2 fun l hl l' hl' e => ?_
  have e1 := ((h2' l).1 hl).1
  have e2 := ((h2' l').1 hl').1
  refine List.ext_getElem (e1.trans e2.symm) fun d h h' => ?_
  have := congrFun e ⟨d, by omega⟩
  simpa [List.getD_eq_getElem?_getD, List.getElem?_eq_getElem h, List.getElem?_eq_getElem h'] using this

/-- The numbering is hierarchical: the functions of lower degree come first. -/
theorem index_hier (D M N bf : ℕ) (hD : 0 < D) (h : bf < nbf D M) (hMN : M ≤ N) :
    index D N bf = index D M bf := by
  obtain ⟨L, h1, _, h3, h4⟩ := visited D N hD
  obtain ⟨L', h1', _, h3', h4'⟩ := visited D M hD
  have hle : nbf D M ≤ nbf D N := Nat.choose_le_choose D (by omega)
  have e : L[bf]? = L'[bf]? := by
    rw [h4, h4', List.getElem?_map, List.getElem?_map, List.getElem?_range (by omega),
      List.getElem?_range h, sumsMake_zero D N M]
  simp only [index, indices, h1, h1', Option.getD_some, List.getD_eq_getElem?_getD,
    List.getElem?_map, e]

theorem index_degree (D N bf : ℕ) (hD : 0 < D) (h : bf < nbf D N) : ∑ d, index D N bf d ≤ N := by
  rw [← mem_indices D N hD, index, List.getD_eq_getElem _ _ (by rw [length_indices D N hD]; exact h)]
  exact List.getElem_mem _

theorem index_surj (D N : ℕ) (hD : 0 < D) (j : Fin D → ℕ) (h : ∑ d, j d ≤ N) :
    ∃ bf : Fin (nbf D N), index D N bf = j := by
  obtain ⟨k, hk, e⟩ := List.getElem_of_mem ((mem_indices D N hD j).2 h)
  rw [length_indices D N hD] at hk
  refine ⟨⟨k, hk⟩, ?_⟩
  rw [index, List.getD_eq_getElem _ _ (by rw [length_indices D N hD]; exact hk)]
  exact e

/-- Every polynomial is a combination of the modal basis functions. -/
theorem poly_expand (D N : ℕ) (hD : D = 1 ∨ D = 2 ∨ D = 3) (f : (Fin D → ℝ) → ℝ)
    (hf : Spec.IsPoly D N f) :
    ∃ c : Fin (nbf D N) → ℝ, ∀ x, f x = ∑ k : Fin (nbf D N), dubinerP D (index D N k) x * c k := by
  obtain ⟨p, hp, hf⟩ := hf
  have hD0 : 0 < D := by omega
  have hs := poly_mem_span D N hD p hp
  have hsub : {q | ∃ j : Fin D → ℕ, ∑ d, j d ≤ N ∧ q = dubPoly D j} ⊆
      Set.range fun k : Fin (nbf D N) => dubPoly D (index D N k) := by
    rintro q ⟨j, hj, rfl⟩
    obtain ⟨k, rfl⟩ := index_surj D N hD0 j hj
    exact ⟨k, rfl⟩
  obtain ⟨c, hc⟩ := (Submodule.mem_span_range_iff_exists_fun ℝ).1 (Submodule.span_mono hsub hs)
  refine ⟨c, fun x => ?_⟩
  rw [hf, ← hc, map_sum]
  refine sum_congr rfl fun k _ => ?_
  rw [MvPolynomial.smul_eval, eval_dubPoly, mul_comm]

theorem modal_isPoly (D N bf : ℕ) (hD : 0 < D) (h : bf < nbf D N) :
    Spec.IsPoly D N (dubinerP D (index D N bf)) :=
  ⟨dubPoly D (index D N bf), (totalDegree_dubPoly D _).trans (index_degree D N bf hD h),
    fun x => (eval_dubPoly D _ x).symm⟩

theorem isPoly_sum {ι : Type*} (D N : ℕ) (s : Finset ι) (f : ι → (Fin D → ℝ) → ℝ)
    (h : ∀ i ∈ s, Spec.IsPoly D N (f i)) : Spec.IsPoly D N (fun x => ∑ i ∈ s, f i x) := by
  classical
  choose! p hp hf using h
  refine ⟨∑ i ∈ s, p i, MvPolynomial.totalDegree_finsetSum_le fun i hi => hp i hi, fun x => ?_⟩
  rw [map_sum]
  exact sum_congr rfl fun i hi => hf i hi x

theorem isPoly_const_mul (D N : ℕ) (c : ℝ) (f : (Fin D → ℝ) → ℝ)
    (h : Spec.IsPoly D N f) : Spec.IsPoly D N (fun x => c * f x) := by
  obtain ⟨p, hp, hf⟩ := h
  refine ⟨c • p, (MvPolynomial.totalDegree_smul_le _ _).trans hp, fun x => ?_⟩
  rw [MvPolynomial.smul_eval, ← hf]

theorem isPoly_mul (D N M : ℕ) (f g : (Fin D → ℝ) → ℝ)
    (hf : Spec.IsPoly D N f) (hg : Spec.IsPoly D M g) : Spec.IsPoly D (N + M) (fun x => f x * g x) := by
  obtain ⟨p, hp, hf⟩ := hf
  obtain ⟨q, hq, hg⟩ := hg
  refine ⟨p * q, (MvPolynomial.totalDegree_mul _ _).trans (Nat.add_le_add hp hq), fun x => ?_⟩
  rw [map_mul, ← hf, ← hg]

theorem entry_eq {m n : ℕ} (A : Matrix (Fin m) (Fin n) ℝ) (i : Fin m) (j : Fin n) :
    entry A i.val j.val = A i j := by
  simp [entry]

end Tandem.RefElement
