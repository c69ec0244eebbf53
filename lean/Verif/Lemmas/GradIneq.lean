import Verif.Lemmas.PsdCheck
import Verif.Lemmas.SimplexMoments
import Verif.Lemmas.TraceIneq
import Verif.Props.GeometryData
/-! # The inverse gradient inequality on the reference simplex, from the kernel's evaluation of an elimination -/
namespace Tandem.GradIneq
open Spec Finset PsdCheck Functions

variable {D : ℕ}

/-- All exponents of `D` variables with sum at most `N`. -/
def exps : ℕ → ℕ → List (List ℕ)
  | 0, _ => [[]]
  | D + 1, N => (List.range (N + 1)).flatMap fun i => (exps D (N - i)).map (i :: ·)

/-- `K!` times the integral of a monomial. -/
def mom (K D : ℕ) (c : List ℕ) : ℕ := (c.map Nat.factorial).prod * (K.factorial / (c.sum + D).factorial)

/-- Exponents of the product of the derivatives, in direction `d`, of two monomials. -/
def expo (a b : List ℕ) (d : ℕ) : List ℕ := List.zipWith (· + ·) (a.modify d (· - 1)) (b.modify d (· - 1))

/-- `K!` times `kn` times the mass minus `kd` times the stiffness of two monomials. -/
def entry (kn kd K D : ℕ) (a b : List ℕ) : ℤ :=
  kn * mom K D (List.zipWith (· + ·) a b) -
    kd * (((List.range D).map fun d => a.getD d 0 * b.getD d 0 * mom K D (expo a b d)).sum : ℕ)

/-- Upper triangle of a symmetric matrix. -/
def tri (f : List ℕ → List ℕ → ℤ) : List (List ℕ) → List (List ℤ)
  | [] => []
  | a :: r => (f a a :: r.map (f a)) :: tri f r

/-- Evaluates all entries. -/
def force {α : Type} : List (List ℤ) → (List (List ℤ) → α) → α
  | r :: rs, k => schurRow 1 0 r r fun r' => force rs fun rs' => k (r' :: rs')
  | [], k => k []

/-- The criterion for `∫ |∇u|² ≤ kn / kd ∫ u²` on the reference simplex for all polynomials of degree `N`. -/
def gradCheck (D N kn kd : ℕ) : Bool := force (tri (entry kn kd (2 * N + D) D) (exps D N)) (check (exps D N).length)

theorem force_eq {α : Type} (rows : List (List ℤ)) (k : List (List ℤ) → α) : force rows k = k rows := by
  induction rows generalizing k with
  | nil => rfl
  | cons r rs ih =>
    rw [force, schurRow_eq, ih]
    congr 2
    induction r with
    | nil => rfl
    | cons a as ih => simp [ih]

theorem tri_tri (f : List ℕ → List ℕ → ℤ) : ∀ l : List (List ℕ), Tri l.length (tri f l)
  | [] => rfl
  | a :: r => ⟨_, _, rfl, by simp, tri_tri f r⟩

theorem dot_map (f : List ℕ → ℤ) (c : List ℕ → ℝ) (l : List (List ℕ)) : dot (l.map f) (l.map c) = (l.map fun b => (f b : ℝ) * c b).sum := by
  induction l with
  | nil => simp [dot]
  | cons a l ih => simp [dot, ih]

/-- The quadratic form of the triangle of a symmetric function. -/
theorem qf_tri (f : List ℕ → List ℕ → ℤ) (hf : ∀ a b, f a b = f b a) (c : List ℕ → ℝ) (l : List (List ℕ)) :
    qf (tri f l) (l.map c) = (l.map fun a => (l.map fun b => (f a b : ℝ) * (c a * c b)).sum).sum := by
  induction l with
  | nil => simp [tri, qf]
  | cons a l ih =>
    simp only [tri, List.map_cons, qf, List.sum_cons, ih, dot_map]
    have e1 : (l.map fun x => (f x a : ℝ) * (c x * c a) + (l.map fun b => (f x b : ℝ) * (c x * c b)).sum).sum =
        (l.map fun x => (f x a : ℝ) * (c x * c a)).sum + (l.map fun x => (l.map fun b => (f x b : ℝ) * (c x * c b)).sum).sum := by
      rw [← List.sum_map_add]
    rw [e1]
    have e2 : (l.map fun x => (f x a : ℝ) * (c x * c a)).sum = c a * (l.map fun b => (f a b : ℝ) * c b).sum := by
      rw [← List.sum_map_mul_left]
      congr 1
      exact List.map_congr_left fun x _ => by rw [hf x a]; ring
    have e3 : (l.map fun b => (f a b : ℝ) * (c a * c b)).sum = c a * (l.map fun b => (f a b : ℝ) * c b).sum := by
      rw [← List.sum_map_mul_left]
      congr 1
      exact List.map_congr_left fun x _ => by ring
    rw [e2, e3]; ring

theorem zip_comm (a b : List ℕ) : List.zipWith (· + ·) a b = List.zipWith (· + ·) b a :=
  List.zipWith_comm_of_comm (fun x y => Nat.add_comm x y)

theorem entry_symm (kn kd K D : ℕ) (a b : List ℕ) : entry kn kd K D a b = entry kn kd K D b a := by
  unfold entry
  rw [zip_comm a b]
  congr 5
  funext d
  rw [show expo a b d = expo b a d from zip_comm _ _, Nat.mul_comm (a.getD d 0)]

theorem mem_exps : ∀ (D N : ℕ) (l : List ℕ), l ∈ exps D N ↔ l.length = D ∧ l.sum ≤ N
  | 0, N, l => by
    simp only [exps, List.mem_singleton]
    constructor
    · rintro rfl; simp
    · rintro ⟨h, _⟩; exact List.length_eq_zero_iff.1 h
  | D + 1, N, l => by
    simp only [exps, List.mem_flatMap, List.mem_range, List.mem_map]
    constructor
    · rintro ⟨i, hi, a, ha, rfl⟩
      obtain ⟨h1, h2⟩ := (mem_exps D (N - i) a).1 ha
      simp only [List.length_cons, List.sum_cons]
      omega
    · rintro ⟨h1, h2⟩
      cases l with
      | nil => simp at h1
      | cons i a =>
        simp only [List.length_cons, List.sum_cons] at h1 h2
        exact ⟨i, by omega, a, (mem_exps D (N - i) a).2 ⟨by omega, by omega⟩, rfl⟩

theorem nodup_exps : ∀ D N : ℕ, (exps D N).Nodup
  | 0, N => by simp [exps]
  | D + 1, N => by
    rw [exps, List.nodup_flatMap]
    refine ⟨fun i _ => (nodup_exps D (N - i)).map (fun a b h => by simpa using h), ?_⟩
    refine List.nodup_range.pairwise_of_forall_ne ?_
    intro i _ j _ hij l h1 h2
    obtain ⟨a, _, rfl⟩ := List.mem_map.1 h1
    obtain ⟨b, _, h⟩ := List.mem_map.1 h2
    simp only [List.cons.injEq] at h
    exact hij h.1.symm

/-- The exponents as a function. -/
def toFn (D : ℕ) (l : List ℕ) : Fin D → ℕ := fun d => l.getD d 0

theorem ofFn_toFn (l : List ℕ) (h : l.length = D) : List.ofFn (toFn D l) = l := by
  subst h
  apply List.ext_getElem
  · simp
  · intro i h1 h2
    simp [toFn, List.getD_eq_getElem?_getD, List.getElem?_eq_getElem h2]

theorem toFn_ofFn (m : Fin D → ℕ) : toFn D (List.ofFn m) = m := by
  funext d
  simp [toFn, List.getD_eq_getElem?_getD]

theorem mom_eq (K : ℕ) (c : List ℕ) (hl : c.length = D) (hs : c.sum + D ≤ K) :
    ((mom K D c : ℕ) : ℝ) = (K.factorial : ℝ) * moment D (toFn D c) := by
  have e1 : (c.map Nat.factorial).prod = ∏ d, (toFn D c d).factorial := by
    conv_lhs => rw [← ofFn_toFn c hl]
    rw [List.map_ofFn, List.prod_ofFn]
    rfl
  have e2 : c.sum = ∑ d, toFn D c d := by
    conv_lhs => rw [← ofFn_toFn c hl]
    rw [List.sum_ofFn]
  unfold mom moment
  rw [e1, e2]
  rw [e2] at hs
  have hd : (∑ d, toFn D c d + D).factorial ∣ K.factorial := Nat.factorial_dvd_factorial hs
  have h0 : ((∑ d, toFn D c d + D).factorial : ℝ) ≠ 0 := by positivity
  push_cast [Nat.cast_div hd h0]
  field_simp

/-- The exponents as an index of `MvPolynomial`. -/
noncomputable def toFin (D : ℕ) (l : List ℕ) : Fin D →₀ ℕ := Finsupp.equivFunOnFinite.symm (toFn D l)

theorem sum_support (p : MvPolynomial (Fin D) ℝ) (N : ℕ) (hp : p.totalDegree ≤ N) (F : (Fin D →₀ ℕ) → ℝ) (hF : ∀ m, p.coeff m = 0 → F m = 0) :
    ∑ m ∈ p.support, F m = ∑ l ∈ (exps D N).toFinset, F (toFin D l) := by
  classical
  have hinj : ∀ m : Fin D →₀ ℕ, toFin D (List.ofFn fun d => m d) = m := by
    intro m
    ext d
    simp [toFin, toFn_ofFn]
  have h1 : ∑ m ∈ p.support, F m = ∑ l ∈ p.support.image (fun m => List.ofFn fun d => m d), F (toFin D l) := by
    rw [sum_image]
    · exact sum_congr rfl fun m _ => by rw [hinj]
    · intro a _ b _ h
      have := congrArg (toFin D) h
      simpa only [hinj] using this
  rw [h1]
  refine sum_subset ?_ ?_
  · intro l hl
    obtain ⟨m, hm, rfl⟩ := mem_image.1 hl
    rw [List.mem_toFinset, mem_exps]
    refine ⟨by simp, ?_⟩
    rw [List.sum_ofFn]
    have := (MvPolynomial.le_totalDegree hm).trans hp
    rwa [Finsupp.sum_fintype _ _ (fun _ => rfl)] at this
  · intro l hl hn
    apply hF
    by_contra h
    apply hn
    rw [mem_image]
    refine ⟨toFin D l, MvPolynomial.mem_support_iff.2 h, ?_⟩
    rw [List.mem_toFinset, mem_exps] at hl
    have : (fun d => (toFin D l) d) = toFn D l := rfl
    rw [this, ofFn_toFn l hl.1]

theorem eval_exps (p : MvPolynomial (Fin D) ℝ) (N : ℕ) (hp : p.totalDegree ≤ N) (x : Fin D → ℝ) :
    MvPolynomial.eval x p = ∑ l ∈ (exps D N).toFinset, p.coeff (toFin D l) * ∏ d, x d ^ toFn D l d := by
  rw [MvPolynomial.eval_eq']
  exact sum_support p N hp (fun m => p.coeff m * ∏ d, x d ^ m d) fun m hm => by rw [hm, zero_mul]

/-- Exponents of the derivative. -/
def lower (m : Fin D → ℕ) (d : Fin D) : Fin D → ℕ := fun e => if e = d then m e - 1 else m e

theorem eval_pderiv (p : MvPolynomial (Fin D) ℝ) (N : ℕ) (hp : p.totalDegree ≤ N) (d : Fin D) (x : Fin D → ℝ) :
    MvPolynomial.eval x (MvPolynomial.pderiv d p) =
      ∑ l ∈ (exps D N).toFinset, (p.coeff (toFin D l) * toFn D l d) * ∏ e, x e ^ lower (toFn D l) d e := by
  have h : MvPolynomial.eval x (MvPolynomial.pderiv d p) = ∑ m ∈ p.support, (p.coeff m * m d) * ∏ e, x e ^ lower (fun e => m e) d e := by
    conv_lhs => rw [MvPolynomial.as_sum p, map_sum, map_sum]
    refine sum_congr rfl fun m _ => ?_
    rw [MvPolynomial.pderiv_monomial, MvPolynomial.eval_monomial]
    congr 1
    rw [Finsupp.prod_fintype _ _ (fun _ => pow_zero _)]
    refine prod_congr rfl fun e _ => ?_
    congr 1
    unfold lower
    by_cases he : e = d
    · subst he; simp
    · rw [if_neg he]; simp [Finsupp.single_apply, Ne.symm he]
  rw [h]
  exact sum_support p N hp (fun m => (p.coeff m * m d) * ∏ e, x e ^ lower (fun e => m e) d e) fun m hm => by rw [hm]; ring

theorem int_square (hD : D = 1 ∨ D = 2 ∨ D = 3) (s : Finset (List ℕ)) (c : List ℕ → ℝ) (m : List ℕ → Fin D → ℕ) :
    simplexIntegral D (fun x => (∑ l ∈ s, c l * ∏ d, x d ^ m l d) ^ 2) = ∑ a ∈ s, ∑ b ∈ s, c a * c b * moment D (fun d => m a d + m b d) := by
  have h : (fun x : Fin D → ℝ => (∑ l ∈ s, c l * ∏ d, x d ^ m l d) ^ 2) =
      fun x => ∑ t ∈ s ×ˢ s, (c t.1 * c t.2) * ∏ d, x d ^ (m t.1 d + m t.2 d) := by
    funext x
    rw [sq, sum_mul_sum, sum_product]
    refine sum_congr rfl fun a _ => sum_congr rfl fun b _ => ?_
    simp only [pow_add, prod_mul_distrib]; ring
  rw [h, simplex_sum D hD (s ×ˢ s) (fun t => c t.1 * c t.2) (fun t d => m t.1 d + m t.2 d), sum_product]

theorem toFn_zip (a b : List ℕ) (ha : a.length = D) (hb : b.length = D) : toFn D (List.zipWith (· + ·) a b) = fun d => toFn D a d + toFn D b d := by
  funext d
  have h1 : (d : ℕ) < a.length := by omega
  have h2 : (d : ℕ) < b.length := by omega
  simp [toFn, List.getD_eq_getElem?_getD, List.getElem?_zipWith, List.getElem?_eq_getElem h1, List.getElem?_eq_getElem h2]

theorem toFn_modify (a : List ℕ) (ha : a.length = D) (d : Fin D) : toFn D (a.modify d (· - 1)) = lower (toFn D a) d := by
  funext e
  have h1 : (e : ℕ) < a.length := by omega
  simp only [toFn, lower, List.getD_eq_getElem?_getD, List.getElem?_modify, List.getElem?_eq_getElem h1]
  by_cases h : e = d
  · subst h; simp
  · have : (d : ℕ) ≠ e := fun h' => h (Fin.ext h'.symm)
    simp [h, this]

theorem sum_zip (a b : List ℕ) (h : a.length = b.length) : (List.zipWith (· + ·) a b).sum = a.sum + b.sum := by
  induction a generalizing b with
  | nil => cases b with
    | nil => rfl
    | cons x b => simp at h
  | cons x a ih => cases b with
    | nil => simp at h
    | cons y b => simp only [List.zipWith_cons_cons, List.sum_cons, ih b (by simpa using h)]; ring

theorem sum_modify (a : List ℕ) (d : ℕ) : (a.modify d (· - 1)).sum ≤ a.sum := by
  induction a generalizing d with
  | nil => simp
  | cons x a ih => cases d with
    | zero => simp
    | succ d => simp only [List.modify_succ_cons, List.sum_cons]; have := ih d; omega

/-- **The inverse gradient inequality** on the reference simplex, with a constant that passes the criterion. -/
theorem gradient_ineq (hD : D = 1 ∨ D = 2 ∨ D = 3) (N kn kd : ℕ) (hkd : 0 < kd) (hc : gradCheck D N kn kd = true)
    (p : MvPolynomial (Fin D) ℝ) (hp : p.totalDegree ≤ N) :
    ∑ d, simplexIntegral D (fun x => MvPolynomial.eval x (MvPolynomial.pderiv d p) ^ 2) ≤
      (kn / kd : ℝ) * simplexIntegral D (fun x => MvPolynomial.eval x p ^ 2) := by
  set K := 2 * N + D with hK
  set c : List ℕ → ℝ := fun l => p.coeff (toFin D l) with hcdef
  set s := (exps D N).toFinset with hs
  have hmass : simplexIntegral D (fun x => MvPolynomial.eval x p ^ 2) = ∑ a ∈ s, ∑ b ∈ s, c a * c b * moment D (fun d => toFn D a d + toFn D b d) := by
    rw [← int_square hD s c (toFn D)]
    congr 1
    funext x
    rw [eval_exps p N hp]
  have hstiff : ∀ d, simplexIntegral D (fun x => MvPolynomial.eval x (MvPolynomial.pderiv d p) ^ 2) =
      ∑ a ∈ s, ∑ b ∈ s, (c a * toFn D a d) * (c b * toFn D b d) * moment D (fun e => lower (toFn D a) d e + lower (toFn D b) d e) := by
    intro d
    rw [← int_square hD s (fun l => c l * toFn D l d) (fun l => lower (toFn D l) d)]
    congr 1
    funext x
    rw [eval_pderiv p N hp]
  have hpos : 0 ≤ qf (tri (entry kn kd K D) (exps D N)) ((exps D N).map c) := by
    refine check_sound _ _ (tri_tri _ _) ?_ _ (by simp)
    unfold gradCheck at hc
    rwa [force_eq] at hc
  rw [qf_tri _ (entry_symm kn kd K D)] at hpos
  have hsum : ∀ F : List ℕ → ℝ, ((exps D N).map F).sum = ∑ a ∈ s, F a := by
    intro F
    rw [hs, List.sum_toFinset F (nodup_exps D N)]
  simp only [hsum] at hpos
  have hentry : ∀ a ∈ s, ∀ b ∈ s, (entry kn kd K D a b : ℝ) = (K.factorial : ℝ) * (kn * moment D (fun d => toFn D a d + toFn D b d) -
      kd * ∑ d : Fin D, (toFn D a d * toFn D b d : ℝ) * moment D (fun e => lower (toFn D a) d e + lower (toFn D b) d e)) := by
    intro a ha b hb
    rw [hs, List.mem_toFinset, mem_exps] at ha hb
    unfold entry
    have h1 := mom_eq (D := D) K (List.zipWith (· + ·) a b) (by simp [ha.1, hb.1]) (by rw [sum_zip a b (ha.1.trans hb.1.symm)]; omega)
    rw [toFn_zip a b ha.1 hb.1] at h1
    have h2 : ((((List.range D).map fun d => a.getD d 0 * b.getD d 0 * mom K D (expo a b d)).sum : ℕ) : ℝ) =
        (K.factorial : ℝ) * ∑ d : Fin D, (toFn D a d * toFn D b d : ℝ) * moment D (fun e => lower (toFn D a) d e + lower (toFn D b) d e) := by
      have e1 : ∀ F : ℕ → ℕ, ((List.range D).map F).sum = ∑ d ∈ Finset.range D, F d := fun F => rfl
      rw [e1, Finset.sum_range, Nat.cast_sum, mul_sum]
      refine sum_congr rfl fun d _ => ?_
      have h3 := mom_eq (D := D) K (expo a b d) (by simp [expo, ha.1, hb.1])
        (by unfold expo
            rw [sum_zip _ _ (by simp [ha.1, hb.1])]
            have := sum_modify a d
            have := sum_modify b d
            omega)
      rw [show toFn D (expo a b d) = fun e => lower (toFn D a) d e + lower (toFn D b) d e by
        unfold expo
        rw [toFn_zip _ _ (by simp [ha.1]) (by simp [hb.1]), toFn_modify a ha.1, toFn_modify b hb.1]] at h3
      push_cast
      rw [h3]
      unfold toFn
      ring
    rw [Int.cast_sub, Int.cast_mul, Int.cast_mul, Int.cast_natCast, Int.cast_natCast, Int.cast_natCast, Int.cast_natCast, h1, h2]; ring
  have htotal : ∑ a ∈ s, ∑ b ∈ s, (entry kn kd K D a b : ℝ) * (c a * c b) =
      (K.factorial : ℝ) * (kn * simplexIntegral D (fun x => MvPolynomial.eval x p ^ 2) -
        kd * ∑ d, simplexIntegral D (fun x => MvPolynomial.eval x (MvPolynomial.pderiv d p) ^ 2)) := by
    rw [hmass]
    simp only [hstiff]
    have e1 : ∑ d : Fin D, ∑ a ∈ s, ∑ b ∈ s, (c a * toFn D a d) * (c b * toFn D b d) * moment D (fun e => lower (toFn D a) d e + lower (toFn D b) d e) =
        ∑ a ∈ s, ∑ b ∈ s, ∑ d : Fin D, (c a * toFn D a d) * (c b * toFn D b d) * moment D (fun e => lower (toFn D a) d e + lower (toFn D b) d e) := by
      rw [sum_comm]
      exact sum_congr rfl fun a _ => sum_comm
    rw [e1, mul_sum, mul_sum, ← sum_sub_distrib, mul_sum]
    refine sum_congr rfl fun a ha => ?_
    rw [mul_sum, mul_sum, ← sum_sub_distrib, mul_sum]
    refine sum_congr rfl fun b hb => ?_
    rw [hentry a ha b hb]
    have e2 : ∑ d : Fin D, (c a * toFn D a d) * (c b * toFn D b d) * moment D (fun e => lower (toFn D a) d e + lower (toFn D b) d e) =
        (c a * c b) * ∑ d : Fin D, (toFn D a d * toFn D b d : ℝ) * moment D (fun e => lower (toFn D a) d e + lower (toFn D b) d e) := by
      rw [mul_sum]
      exact sum_congr rfl fun d _ => by ring
    rw [e2]; ring
  rw [htotal] at hpos
  have hK0 : (0 : ℝ) < K.factorial := by positivity
  have h := nonneg_of_mul_nonneg_right hpos hK0
  have hkd' : (0 : ℝ) < kd := by exact_mod_cast hkd
  rw [div_mul_eq_mul_div, le_div_iff₀ hkd']
  linarith

end Tandem.GradIneq
