import Verif.Lemmas.QuadCheck
import Verif.Lemmas.SimplexMoments
import Verif.Model.QuadRules
import Verif.Spec.QuadTable
/-! # Soundness of the integer computation of moments -/
namespace Tandem.QuadTable
open Finset Functions RefElement Quadrature

theorem almost_of_moments (D N : ℕ) (hD : D = 1 ∨ D = 2 ∨ D = 3) (ε : ℝ) (P : List (Fin D → ℝ)) (W : List ℝ)
    (hl : P.length = W.length)
    (h : ∀ m : Fin D → ℕ, ∑ d, m d ≤ N →
      |((P.zip W).map fun pw => pw.2 * ∏ d, pw.1 d ^ m d).sum - moment D m| ≤ ε) :
    Spec.AlmostExact D N ε P W := by
  refine ⟨hl, fun p hp => ?_⟩
  have hf' : (fun x => MvPolynomial.eval x p) = fun x => ∑ t ∈ p.support, p.coeff t * ∏ d, x d ^ t d := by
    funext x; rw [MvPolynomial.eval_eq']
  have lin : ∀ l : List ((Fin D → ℝ) × ℝ),
      (l.map fun pw => pw.2 * MvPolynomial.eval pw.1 p).sum
        = ∑ t ∈ p.support, p.coeff t * (l.map fun pw => pw.2 * ∏ d, pw.1 d ^ t d).sum := by
    intro l
    induction l with
    | nil => simp
    | cons a l ih =>
      rw [List.map_cons, List.sum_cons, ih, MvPolynomial.eval_eq']
      simp only [List.map_cons, List.sum_cons, mul_add, sum_add_distrib]
      rw [mul_sum]
      congr 1
      exact sum_congr rfl fun t _ => by ring
  rw [lin, hf', simplex_sum D hD p.support (fun t => p.coeff t) (fun t d => t d), ← sum_sub_distrib,
    Spec.coeffSum, mul_sum]
  refine (abs_sum_le_sum_abs _ _).trans (sum_le_sum fun t ht => ?_)
  rw [← mul_sub, abs_mul, mul_comm]
  refine mul_le_mul_of_nonneg_right (h (fun d => t d) ?_) (abs_nonneg _)
  have := (MvPolynomial.le_totalDegree ht).trans hp
  rwa [Finsupp.sum_fintype _ _ (fun _ => rfl)] at this

theorem fac_eq (n : ℕ) : fac n = n.factorial := by
  induction n with
  | zero => rfl
  | succ n ih => rw [fac, ih, Nat.factorial_succ]; rfl

theorem close_iff (E a b c : ℕ) (h : close E a b c = true) : (E : ℝ) * |(a : ℝ) - b| ≤ c := by
  unfold close at h
  have h' := Nat.le_of_ble_eq_true h
  change E * (a - b + (b - a)) ≤ c at h'
  have h2 : ((E * (a - b + (b - a)) : ℕ) : ℝ) ≤ c := by exact_mod_cast h'
  refine le_trans (le_of_eq ?_) h2
  push_cast
  rcases le_total a b with hab | hab
  · rw [Nat.sub_eq_zero_of_le hab, abs_of_nonpos (by simpa using hab), Nat.cast_sub hab]; simp
  · rw [Nat.sub_eq_zero_of_le hab, abs_of_nonneg (by simpa using hab), Nat.cast_sub hab]; simp

theorem close_div (E s f b V M : ℕ) (hE : 0 < E) (hf : 0 < f) (hu : 0 < V * M)
    (h : close E (Nat.mul s f) (Nat.mul b (Nat.mul V M)) (Nat.mul (Nat.mul V M) f) = true) :
    |(s : ℝ) / (V * M) - b / f| ≤ 1 / E := by
  have h1 := close_iff _ _ _ _ h
  simp only [Nat.mul_eq] at h1
  push_cast at h1
  have hE' : (0 : ℝ) < E := by exact_mod_cast hE
  have hf' : (0 : ℝ) < f := by exact_mod_cast hf
  have hu' : (0 : ℝ) < V * M := by exact_mod_cast hu
  have e : (s : ℝ) / (V * M) - b / f = (s * f - b * (V * M)) / (V * M * f) := by
    rw [div_sub_div _ _ hu'.ne' hf'.ne']; ring
  rw [e, abs_div, abs_of_pos (mul_pos hu' hf'), div_le_div_iff₀ (mul_pos hu' hf') hE', one_mul, mul_comm]
  exact h1

/-- Point and weight as real numbers. -/
noncomputable def Pt2.real (M V : ℝ) (p : Pt2) : (Fin 2 → ℝ) × ℝ := (![p.x / M, p.y / M], p.w / V)

/-- Point and weight as real numbers. -/
noncomputable def Pt3.real (M V : ℝ) (p : Pt3) : (Fin 3 → ℝ) × ℝ := (![p.x / M, p.y / M, p.z / M], p.w / V)

theorem sum2_eq (M V : ℝ) (i j : ℕ) (l : List Pt2) :
    ((l.map (Pt2.real M V)).map fun pw => pw.2 * ∏ d, pw.1 d ^ (![i, j] : Fin 2 → ℕ) d).sum
      = (sum2 i j l : ℝ) / (V * M ^ (i + j)) := by
  induction l with
  | nil => simp [sum2]
  | cons p l ih =>
    rw [List.map_cons, List.map_cons, List.sum_cons, ih, sum2]
    simp only [Pt2.real, Fin.prod_univ_two, Matrix.cons_val_zero, Matrix.cons_val_one,
      Nat.add_eq, Nat.mul_eq, Nat.pow_eq]
    push_cast
    rw [pow_add, div_pow, div_pow, add_div]
    congr 1
    rw [div_mul_div_comm, div_mul_div_comm, mul_assoc]

theorem sum3_eq (M V : ℝ) (i j k : ℕ) (l : List Pt3) :
    ((l.map (Pt3.real M V)).map fun pw => pw.2 * ∏ d, pw.1 d ^ (![i, j, k] : Fin 3 → ℕ) d).sum
      = (sum3 i j k l : ℝ) / (V * M ^ (i + j + k)) := by
  induction l with
  | nil => simp [sum3]
  | cons p l ih =>
    rw [List.map_cons, List.map_cons, List.sum_cons, ih, sum3]
    simp only [Pt3.real, Fin.prod_univ_three, Matrix.cons_val_zero, Matrix.cons_val_one, Matrix.cons_val,
      Nat.add_eq, Nat.mul_eq, Nat.pow_eq]
    push_cast
    rw [pow_add, pow_add, div_pow, div_pow, div_pow, add_div]
    congr 1
    rw [div_mul_div_comm, div_mul_div_comm, div_mul_div_comm]
    congr 1 <;> ring

/-- What is known of a rule. -/
structure Good (D N : ℕ) (ε : ℝ) (r : Rule D) : Prop where
  almost : Spec.AlmostExact D N ε r.points r.weights
  pos : ∀ w ∈ r.weights, 0 < w
  inside : ∀ x ∈ r.points, Spec.InRefSimplex x

theorem points_of_zip {α β : Type*} (P : List α) (W : List β) (h : P.length = W.length) (x : α) (hx : x ∈ P) :
    ∃ w, (x, w) ∈ P.zip W := by
  obtain ⟨i, hi, rfl⟩ := List.getElem_of_mem hx
  exact ⟨W[i]'(h ▸ hi), by rw [← List.getElem_zip (h := by simp [h ▸ hi, hi])]; exact List.getElem_mem _⟩

theorem weights_of_zip {α β : Type*} (P : List α) (W : List β) (h : P.length = W.length) (w : β) (hx : w ∈ W) :
    ∃ x, (x, w) ∈ P.zip W := by
  obtain ⟨i, hi, rfl⟩ := List.getElem_of_mem hx
  exact ⟨P[i]'(h ▸ hi), by rw [← List.getElem_zip (h := by simp [h ▸ hi, hi])]; exact List.getElem_mem _⟩

theorem good2 (M V E N : ℕ) (hM : 0 < M) (hV : 0 < V) (hE : 0 < E) (r : Rule 2) (l : List Pt2)
    (hl : r.points.length = r.weights.length) (hz : r.points.zip r.weights = l.map (Pt2.real M V))
    (hok : all2 M V E l N = true) (hin : all2In M l = true) : Good 2 N (1 / E) r := by
  have hM' : (0 : ℝ) < M := by exact_mod_cast hM
  have hV' : (0 : ℝ) < V := by exact_mod_cast hV
  have hin' : ∀ e ∈ r.points.zip r.weights, Spec.InRefSimplex e.1 ∧ 0 < e.2 := by
    intro e he
    rw [hz, List.mem_map] at he
    obtain ⟨p, hp, rfl⟩ := he
    have := List.all_eq_true.1 hin p hp
    rw [Bool.and_eq_true, Nat.blt_eq, Nat.ble_eq] at this
    obtain ⟨h1, h2⟩ := this
    change p.x + p.y ≤ M at h2
    have h2' : (p.x : ℝ) + p.y ≤ M := by exact_mod_cast h2
    refine ⟨⟨?_, ?_⟩, ?_⟩
    · intro d
      fin_cases d <;> (simp [Pt2.real]; positivity)
    · simp [Pt2.real, Fin.sum_univ_two, ← add_div, div_le_one hM', h2']
    · have : (0 : ℝ) < p.w := by exact_mod_cast h1
      simp only [Pt2.real]; positivity
  refine ⟨almost_of_moments 2 N (by simp) _ _ _ hl ?_, ?_, ?_⟩
  · intro m hm
    have em : m = ![m 0, m 1] := by funext d; fin_cases d <;> rfl
    rw [Fin.sum_univ_two] at hm
    unfold all2 at hok
    have h1 := (allBelow_iff _ _).1 ((allBelow_iff _ _).1 hok (m 0) (by omega)) (m 1) (by omega)
    rw [em, hz, sum2_eq]
    unfold ok2 at h1
    have h2 := close_div E _ _ _ V _ hE (by rw [fac_eq]; positivity)
      (by have : 0 < M ^ (m 0 + m 1) := by positivity
          exact Nat.mul_pos hV this) h1
    simp only [fac_eq, Nat.pow_eq, Nat.mul_eq] at h2
    unfold moment
    simpa [Fin.prod_univ_two, Fin.sum_univ_two] using h2
  · intro w hw
    obtain ⟨x, hx⟩ := weights_of_zip _ _ hl w hw
    exact (hin' _ hx).2
  · intro x hx
    obtain ⟨w, hw⟩ := points_of_zip _ _ hl x hx
    exact (hin' _ hw).1

theorem good3 (M V E N : ℕ) (hM : 0 < M) (hV : 0 < V) (hE : 0 < E) (r : Rule 3) (l : List Pt3)
    (hl : r.points.length = r.weights.length) (hz : r.points.zip r.weights = l.map (Pt3.real M V))
    (hok : all3 M V E l N = true) (hin : all3In M l = true) : Good 3 N (1 / E) r := by
  have hM' : (0 : ℝ) < M := by exact_mod_cast hM
  have hV' : (0 : ℝ) < V := by exact_mod_cast hV
  have hin' : ∀ e ∈ r.points.zip r.weights, Spec.InRefSimplex e.1 ∧ 0 < e.2 := by
    intro e he
    rw [hz, List.mem_map] at he
    obtain ⟨p, hp, rfl⟩ := he
    have := List.all_eq_true.1 hin p hp
    rw [Bool.and_eq_true, Nat.blt_eq, Nat.ble_eq] at this
    obtain ⟨h1, h2⟩ := this
    change p.x + p.y + p.z ≤ M at h2
    have h2' : (p.x : ℝ) + p.y + p.z ≤ M := by exact_mod_cast h2
    refine ⟨⟨?_, ?_⟩, ?_⟩
    · intro d
      fin_cases d <;> (simp [Pt3.real]; positivity)
    · simp [Pt3.real, Fin.sum_univ_three, ← add_div, div_le_one hM', h2']
    · have : (0 : ℝ) < p.w := by exact_mod_cast h1
      simp only [Pt3.real]; positivity
  refine ⟨almost_of_moments 3 N (by simp) _ _ _ hl ?_, ?_, ?_⟩
  · intro m hm
    have em : m = ![m 0, m 1, m 2] := by funext d; fin_cases d <;> rfl
    rw [Fin.sum_univ_three] at hm
    unfold all3 at hok
    have h0 := (allBelow_iff _ _).1 hok (m 0) (by omega)
    unfold row3 at h0
    have h1 := (allBelow_iff _ _).1 ((allBelow_iff _ _).1 h0 (m 1) (by omega)) (m 2) (by omega)
    rw [em, hz, sum3_eq]
    unfold ok3 at h1
    have h2 := close_div E _ _ _ V _ hE (by rw [fac_eq]; positivity)
      (by have : 0 < M ^ (m 0 + m 1 + m 2) := by positivity
          exact Nat.mul_pos hV this) h1
    simp only [fac_eq, Nat.pow_eq, Nat.mul_eq] at h2
    unfold moment
    simpa [Fin.prod_univ_three, Fin.sum_univ_three, mul_assoc] using h2
  · intro w hw
    obtain ⟨x, hx⟩ := weights_of_zip _ _ hl w hw
    exact (hin' _ hx).2
  · intro x hx
    obtain ⟨w, hw⟩ := points_of_zip _ _ hl x hx
    exact (hin' _ hw).1

theorem toN_some (z : ℤ) (n : ℕ) (h : toN z = some n) : z = n := by
  cases z with
  | ofNat m => simp [toN] at h; simp [h]
  | negSucc m => simp [toN] at h

theorem norm2_spec (s : ℤ) (P : List (List ℤ)) (W : List ℤ) (l : List Pt2) (h : norm2 s P W = some l) :
    P.length = W.length ∧ ∀ (f : List ℤ → Fin 2 → ℝ) (g : ℤ → ℝ) (F : Pt2 → (Fin 2 → ℝ) × ℝ)
      (_ : ∀ (x y w : ℕ), (f [x - s, y - s], g w) = F ⟨x, y, w⟩), (P.map f).zip (W.map g) = l.map F := by
  induction P, W using norm2.induct generalizing l with
  | case1 => simp [norm2] at h; subst h; simp
  | case2 x y P w W ih =>
    simp only [norm2, bind, Option.bind_eq_some_iff, pure, Option.some.injEq] at h
    obtain ⟨a, ha, b, hb, c, hc, l', hl', rfl⟩ := h
    obtain ⟨i1, i2⟩ := ih l' hl'
    refine ⟨by simp [i1], fun f g F hF => ?_⟩
    have e1 := toN_some _ _ ha
    have e2 := toN_some _ _ hb
    have e3 := toN_some _ _ hc
    rw [List.map_cons, List.map_cons, List.zip_cons_cons, List.map_cons, i2 f g F hF, ← hF,
      show (a : ℤ) - s = x by omega, show (b : ℤ) - s = y by omega, e3]
  | case3 P W h1 h2 =>
    unfold norm2 at h
    split at h
    · exact absurd rfl (h1 rfl)
    · exact absurd rfl (h2 _ _ _ _ _ rfl)
    · simp at h

theorem norm3_spec (s : ℤ) (P : List (List ℤ)) (W : List ℤ) (l : List Pt3) (h : norm3 s P W = some l) :
    P.length = W.length ∧ ∀ (f : List ℤ → Fin 3 → ℝ) (g : ℤ → ℝ) (F : Pt3 → (Fin 3 → ℝ) × ℝ)
      (_ : ∀ (x y z w : ℕ), (f [x - s, y - s, z - s], g w) = F ⟨x, y, z, w⟩), (P.map f).zip (W.map g) = l.map F := by
  induction P, W using norm3.induct generalizing l with
  | case1 => simp [norm3] at h; subst h; simp
  | case2 x y z P w W ih =>
    simp only [norm3, bind, Option.bind_eq_some_iff, pure, Option.some.injEq] at h
    obtain ⟨a, ha, b, hb, d, hd, c, hc, l', hl', rfl⟩ := h
    obtain ⟨i1, i2⟩ := ih l' hl'
    refine ⟨by simp [i1], fun f g F hF => ?_⟩
    have e1 := toN_some _ _ ha
    have e2 := toN_some _ _ hb
    have e3 := toN_some _ _ hc
    have e4 := toN_some _ _ hd
    rw [List.map_cons, List.map_cons, List.zip_cons_cons, List.map_cons, i2 f g F hF, ← hF,
      show (a : ℤ) - s = x by omega, show (b : ℤ) - s = y by omega, show (d : ℤ) - s = z by omega, e3]
  | case3 P W h1 h2 =>
    unfold norm3 at h
    split at h
    · exact absurd rfl (h1 rfl)
    · exact absurd rfl (h2 _ _ _ _ _ _ rfl)
    · simp at h

theorem goodWV2 (r : Raw) (l : List Pt2) (N E : ℕ) (hE : 0 < E) (h : normWV2 r = some l)
    (hok : all2 (2 * 10 ^ r.digits) (4 * 10 ^ r.digits) E l N = true)
    (hin : all2In (2 * 10 ^ r.digits) l = true) : Good 2 N (1 / E) (transformWV (r.toRule 2)) := by
  obtain ⟨h1, h2⟩ := norm2_spec _ _ _ _ h
  refine good2 _ _ E N (by positivity) (by positivity) hE _ l (by simp [transformWV, Raw.toRule, h1]) ?_ hok hin
  unfold transformWV Raw.toRule
  simp only [List.map_map]
  refine h2 _ _ _ fun x y w => ?_
  have hS : (10 : ℝ) ^ r.digits ≠ 0 := by positivity
  have hcast : ((Int.ofNat (Nat.pow 10 r.digits) : ℤ) : ℝ) = 10 ^ r.digits := by
    simp
  simp only [Pt2.real, Prod.mk.injEq]
  constructor
  · funext d
    fin_cases d <;>
    · simp only [Function.comp_apply]
      simp
      field_simp
      ring
  · simp only [Function.comp_apply]
    push_cast
    field_simp
    norm_num

theorem goodWV3 (r : Raw) (l : List Pt3) (N E : ℕ) (hE : 0 < E) (h : normWV3 r = some l)
    (hok : all3 (2 * 10 ^ r.digits) (8 * 10 ^ r.digits) E l N = true)
    (hin : all3In (2 * 10 ^ r.digits) l = true) : Good 3 N (1 / E) (transformWV (r.toRule 3)) := by
  obtain ⟨h1, h2⟩ := norm3_spec _ _ _ _ h
  refine good3 _ _ E N (by positivity) (by positivity) hE _ l (by simp [transformWV, Raw.toRule, h1]) ?_ hok hin
  unfold transformWV Raw.toRule
  simp only [List.map_map]
  refine h2 _ _ _ fun x y z w => ?_
  have hS : (10 : ℝ) ^ r.digits ≠ 0 := by positivity
  simp only [Pt3.real, Prod.mk.injEq]
  constructor
  · funext d
    fin_cases d <;>
    · simp only [Function.comp_apply]
      simp
      field_simp
      ring
  · simp only [Function.comp_apply]
    push_cast
    field_simp
    norm_num

theorem goodJS (r : Raw) (l : List Pt3) (N E : ℕ) (hE : 0 < E) (h : normJS r = some l)
    (hok : all3 (10 ^ r.digits) (6 * 10 ^ r.digits) E l N = true)
    (hin : all3In (10 ^ r.digits) l = true) : Good 3 N (1 / E) (transformJS (r.toRule 3)) := by
  obtain ⟨h1, h2⟩ := norm3_spec _ _ _ _ h
  refine good3 _ _ E N (by positivity) (by positivity) hE _ l (by simp [transformJS, Raw.toRule, h1]) ?_ hok hin
  unfold transformJS Raw.toRule
  simp only [List.map_map]
  refine h2 _ _ _ fun x y z w => ?_
  have hS : (10 : ℝ) ^ r.digits ≠ 0 := by positivity
  simp only [Pt3.real, Prod.mk.injEq]
  constructor
  · funext d
    fin_cases d <;> simp
  · simp only [Function.comp_apply]
    push_cast
    field_simp

end Tandem.QuadTable
