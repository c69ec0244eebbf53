import Verif.Spec.WaveEnergy
import Verif.Lemmas.BilinearForm
import Verif.Lemmas.Superposition
import Verif.Props.Elasticity
import Verif.Props.ConstructMatrix
import Mathlib.Analysis.Calculus.Deriv.Add
import Mathlib.Analysis.Calculus.Deriv.Mul
import Mathlib.Analysis.Calculus.Deriv.Pow
import Mathlib.Analysis.Calculus.MeanValue
/-! # Property C104: the fully dynamic mode conserves the energy -/
namespace Tandem.WaveEnergy
open Finset Spec DGTopo DGAssembly

variable {P dim Nbf Nbm Nq nq : ℕ} {elems : ℕ → List (List ℕ)} {num fnum tag : List ℕ → ℕ} {views : ℕ → View}

theorem own_elem (hd : IsDistributed P dim elems num fnum tag views) {r u : ℕ} (hr : r < P) (hu : u < (elems r).length) :
    (views r).elems[u]? = some ((views r).elems.getD u []) ∧ InElems P elems ((views r).elems.getD u []) := by
  have hlt : u < (views r).elems.length := by
    have := numLocal_le (hd.view r hr); rw [(hd.view r hr).numLocal] at this; omega
  have hg : (views r).elems[u]? = some ((views r).elems.getD u []) := by
    rw [List.getD_eq_getElem?_getD, List.getElem?_eq_getElem hlt]; rfl
  exact ⟨hg, (((hd.view r hr).exactly _).1 (List.mem_of_getElem? hg)).1⟩

/-- The derivative of the kinetic energy of an element. -/
theorem kinetic_deriv (E : Fin Nbf → Fin Nq → ℝ) (W c : Fin Nq → ℝ) (v : ℝ → Fin Nbf → Fin dim → ℝ) (a : Fin Nbf → Fin dim → ℝ) (t : ℝ)
    (h : ∀ k p, HasDerivAt (fun τ => v τ k p) (a k p) t) :
    HasDerivAt (fun τ => ∑ p, ∑ q, W q * c q * (∑ k, E k q * v τ k p) ^ 2)
      (2 * ∑ k, ∑ p, v t k p * ∑ l, massWith E W c k l * a l p) t := by
  have h1 : ∀ p q, HasDerivAt (fun τ => W q * c q * (∑ k, E k q * v τ k p) ^ 2)
      (W q * c q * (2 * (∑ k, E k q * v t k p) * ∑ k, E k q * a k p)) t := fun p q => by
    have h2 : HasDerivAt (fun τ => ∑ k, E k q * v τ k p) (∑ k, E k q * a k p) t :=
      HasDerivAt.fun_sum fun k _ => (h k p).const_mul (E k q)
    have h3 := (h2.fun_pow 2).const_mul (W q * c q)
    refine h3.congr_deriv ?_
    simp
  refine (HasDerivAt.fun_sum fun p _ => HasDerivAt.fun_sum fun q _ => h1 p q).congr_deriv ?_
  rw [show (∑ k, ∑ p, v t k p * ∑ l, massWith E W c k l * a l p) = ∑ p, ∑ k, v t k p * ∑ l, massWith E W c k l * a l p from sum_comm, mul_sum]
  refine sum_congr rfl fun p _ => ?_
  have h4 : ∀ q, W q * c q * (2 * (∑ k, E k q * v t k p) * ∑ k, E k q * a k p) =
      ∑ k, ∑ l, 2 * (v t k p * (E k q * (W q * c q) * E l q * a l p)) := fun q => by
    rw [mul_assoc 2, sum_mul_sum, mul_sum, mul_sum]
    refine sum_congr rfl fun k _ => ?_
    rw [mul_sum, mul_sum]
    exact sum_congr rfl fun l _ => by ring
  simp only [h4]
  simp only [massWith, mul_sum, sum_mul]
  rw [sum_comm]
  refine sum_congr rfl fun k _ => ?_
  rw [sum_comm]

/-- A product with a row of the assembled matrix can be differentiated term by term. -/
theorem rowApply_deriv (hd : IsDistributed P dim elems num fnum tag views) {n m : ℕ} {r : ℕ} (hr : r < P)
    (o : LocalOp (Fin n → Fin m → Fin n → Fin m → ℝ)) {blocks : List (ℕ × ℕ × (Fin n → Fin m → Fin n → Fin m → ℝ))}
    (hb : assemble (views r) o = some blocks) {U : ℝ → List ℕ → Fin n → Fin m → ℝ} {V : List ℕ → Fin n → Fin m → ℝ} {t : ℝ}
    (h : ∀ e, InElems P elems e → ∀ k p, HasDerivAt (fun τ => U τ e k p) (V e k p) t) {u : ℕ} (hu : u < (elems r).length) (k : Fin n) (p : Fin m) :
    HasDerivAt (fun τ => rowApply Elasticity.mulVec (blocks) (fun j => U τ ((views r).elems.getD j [])) u k p)
      (rowApply Elasticity.mulVec blocks (fun j => V ((views r).elems.getD j [])) u k p) t := by
  have hg := (own_elem hd hr hu).1
  simp only [rowApply_entries hd hr o hb _ hg]
  exact HasDerivAt.fun_sum fun e he => HasDerivAt.fun_sum fun l _ => HasDerivAt.fun_sum fun v _ =>
    (h e ((mem_all e).1 he) l v).const_mul _

theorem overElements_add (F G : ℕ → ℕ → List ℕ → ℝ) :
    overElements P elems views (fun r u e => F r u e + G r u e) = overElements P elems views F + overElements P elems views G := by
  unfold overElements; simp only [sum_add_distrib]

theorem overElements_congr {F G : ℕ → ℕ → List ℕ → ℝ}
    (h : ∀ r, r < P → ∀ u, u < (elems r).length → F r u ((views r).elems.getD u []) = G r u ((views r).elems.getD u [])) :
    overElements P elems views F = overElements P elems views G :=
  sum_congr rfl fun r hr => sum_congr rfl fun u hu => h r (mem_range.1 hr) u (mem_range.1 hu)

theorem overElements_deriv {F : ℝ → ℕ → ℕ → List ℕ → ℝ} {G : ℕ → ℕ → List ℕ → ℝ} {t : ℝ}
    (h : ∀ r, r < P → ∀ u, u < (elems r).length →
      HasDerivAt (fun τ => F τ r u ((views r).elems.getD u [])) (G r u ((views r).elems.getD u [])) t) :
    HasDerivAt (fun τ => overElements P elems views (F τ)) (overElements P elems views G) t :=
  HasDerivAt.fun_sum fun r hr => HasDerivAt.fun_sum fun u hu => h r (mem_range.1 hr) u (mem_range.1 hu)

/-- The derivative of the elastic energy. -/
theorem elastic_deriv (hd : IsDistributed P dim elems num fnum tag views) {n m : ℕ}
    (o : ℕ → LocalOp (Fin n → Fin m → Fin n → Fin m → ℝ)) {blocks : ℕ → List (ℕ × ℕ × (Fin n → Fin m → Fin n → Fin m → ℝ))}
    (hb : ∀ r, r < P → assemble (views r) (o r) = some (blocks r))
    (hsym : ∀ r r' e e', r < P → r' < P → e ∈ elems r → e' ∈ elems r' → ∀ k p l v,
      entry (views r) (blocks r) e e' k p l v = entry (views r') (blocks r') e' e l v k p)
    {U : ℝ → List ℕ → Fin n → Fin m → ℝ} {V : List ℕ → Fin n → Fin m → ℝ} {t : ℝ}
    (h : ∀ e, InElems P elems e → ∀ k p, HasDerivAt (fun τ => U τ e k p) (V e k p) t) :
    HasDerivAt (fun τ => elasticEnergy P elems views blocks (U τ))
      (overElements P elems views fun r u e => ∑ k, ∑ p, V e k p * rowApply Elasticity.mulVec (blocks r) (fun j => U t ((views r).elems.getD j [])) u k p) t := by
  unfold elasticEnergy
  have h1 : HasDerivAt (fun τ => overElements P elems views fun r u e =>
      ∑ k, ∑ p, U τ e k p * rowApply Elasticity.mulVec (blocks r) (fun j => U τ ((views r).elems.getD j [])) u k p)
      (overElements P elems views fun r u e => (∑ k, ∑ p, V e k p * rowApply Elasticity.mulVec (blocks r) (fun j => U t ((views r).elems.getD j [])) u k p) +
        ∑ k, ∑ p, U t e k p * rowApply Elasticity.mulVec (blocks r) (fun j => V ((views r).elems.getD j [])) u k p) t := by
    refine overElements_deriv (fun r hr u hu => ?_)
    refine (HasDerivAt.fun_sum fun k _ => HasDerivAt.fun_sum fun p _ =>
      (h _ (own_elem hd hr hu).2 k p).fun_mul (rowApply_deriv hd hr (o r) (hb r hr) h hu k p)).congr_deriv ?_
    simp only [sum_add_distrib]
  rw [overElements_add] at h1
  have h2 := form_symmetric hd o hb hsym V (U t)
  unfold overElements at h1 ⊢
  rw [h2] at h1
  exact (h1.const_mul (1 / 2)).congr_deriv (by ring)

variable {op : ℕ → Elasticity.Op dim Nbf Nbm Nq nq} {ref : Elasticity.Ref dim Nbf Nbm Nq nq}
  {blocks : ℕ → List (ℕ × ℕ × (Fin Nbf → Fin dim → Fin Nbf → Fin dim → ℝ))}

/-- **C104 (balance of energy)**: along every solution of the fully dynamic problem, the derivative of the sum of kinetic and elastic
energy is the power of the loads, for density and Jacobian constant on each element. -/
theorem C104_balance (hd : IsDistributed P dim elems num fnum tag views) (href : ∀ r, r < P → (op r).ref = ref)
    (hinv : IsInverse ref.MinvRef (massWith ref.E_Q ref.W (fun _ => 1))) (rho J : List ℕ → ℝ)
    (hrho : ∀ r, r < P → ∀ u e, (views r).elems[u]? = some e → ∀ q, (op r).rhoInvQ u q = 1 / rho e)
    (hJ : ∀ r, r < P → ∀ u e, (views r).elems[u]? = some e → ∀ q, (op r).J_Q u q = J e)
    (hpos : ∀ e, InElems P elems e → rho e ≠ 0 ∧ J e ≠ 0)
    (hb : ∀ r, r < P → assemble (views r) (op r).localOp = some (blocks r))
    (hsym : ∀ r r' e e', r < P → r' < P → e ∈ elems r → e' ∈ elems r' → ∀ k p l v,
      entry (views r) (blocks r) e e' k p l v = entry (views r') (blocks r') e' e l v k p)
    (data : ℝ → ℕ → Elasticity.Data dim Nq nq) (load : ℝ → ℕ → ℕ → Fin Nbf → Fin dim → ℝ) (U V : ℝ → List ℕ → Fin Nbf → Fin dim → ℝ)
    (hs : WaveSolution P elems views op blocks data load U V) (t : ℝ) :
    HasDerivAt (fun τ => kineticEnergy P elems views op rho (V τ) + elasticEnergy P elems views blocks (U τ)) (power P elems views (load t) (V t)) t := by
  have hE := elastic_deriv hd (fun r => (op r).localOp) hb hsym (hs.displacement t)
  have hK : HasDerivAt (fun τ => overElements P elems views fun r u e =>
      ∑ p, ∑ q, (op r).ref.W q * (rho e * (op r).J_Q u q) * (∑ k, (op r).ref.E_Q k q * V τ e k p) ^ 2)
      (overElements P elems views fun r u e => 2 * ∑ k, ∑ p, V t e k p *
        (- (rowApply Elasticity.mulVec (blocks r) (fun j => U t ((views r).elems.getD j [])) u k p - load t r u k p))) t := by
    refine overElements_deriv (fun r hr u hu => ?_)
    obtain ⟨hg, hI⟩ := own_elem hd hr hu
    refine (kinetic_deriv (op r).ref.E_Q (op r).ref.W _ (fun τ => V τ ((views r).elems.getD u [])) _ t (hs.velocity t r hr u hu)).congr_deriv ?_
    congr 1
    refine sum_congr rfl fun k _ => sum_congr rfl fun p _ => ?_
    congr 1
    obtain ⟨h1, h2⟩ := hpos _ hI
    have hw : (fun q => (op r).rhoInvQ u q / (op r).J_Q u q) = fun q => 1 / (rho ((views r).elems.getD u []) * (op r).J_Q u q) := by
      funext q; rw [hrho r hr u _ hg, div_div]
    have hi : IsInverse (op r).ref.MinvRef (massWith (op r).ref.E_Q (op r).ref.W (fun _ => 1)) := by rw [href r hr]; exact hinv
    have h := Elasticity.inverse_apply (Elasticity.inverse_comm (Elasticity.C81_inverse (op r).ref.MinvRef (op r).ref.E_Q (op r).ref.W
      (fun q => rho ((views r).elems.getD u []) * (op r).J_Q u q) hi _ (mul_ne_zero h1 h2) (fun q => by rw [hJ r hr u _ hg q])))
      (fun l => rowApply Elasticity.mulVec (blocks r) (fun j => U t ((views r).elems.getD j [])) u l p - load t r u l p) k
    rw [hw, ← h, ← sum_neg_distrib]
    exact sum_congr rfl fun l _ => by ring
  refine ((hK.const_mul (1 / 2)).fun_add hE).congr_deriv ?_
  unfold power overElements
  simp only [mul_sum, ← sum_add_distrib]
  refine sum_congr rfl fun r _ => sum_congr rfl fun u _ => ?_
  refine sum_congr rfl fun k _ => sum_congr rfl fun p _ => by ring

/-- The energies are nonnegative. -/
theorem kinetic_nonneg (rho : List ℕ → ℝ) (V : List ℕ → Fin Nbf → Fin dim → ℝ)
    (hd : IsDistributed P dim elems num fnum tag views)
    (h : ∀ r, r < P → ∀ u e, (views r).elems[u]? = some e → ∀ q, 0 ≤ (op r).ref.W q * (rho e * (op r).J_Q u q)) :
    0 ≤ kineticEnergy P elems views op rho V := by
  unfold kineticEnergy overElements
  refine mul_nonneg (by norm_num) (sum_nonneg fun r hr => sum_nonneg fun u hu => sum_nonneg fun p _ => sum_nonneg fun q _ => ?_)
  exact mul_nonneg (h r (mem_range.1 hr) u _ (own_elem hd (mem_range.1 hr) (mem_range.1 hu)).1 q) (sq_nonneg _)

/-- Where slip and displacement at the boundary are zero, there is no load. -/
theorem load_zero {v : View} {o : Elasticity.Op dim Nbf Nbm Nq nq} (hm : o.method = .IP) {d : Elasticity.Data dim Nq nq}
    (h1 : d.dirichlet.getD 0 = 0) (h2 : d.slip.getD 0 = 0) {B : ℕ → Fin Nbf → Fin dim → ℝ}
    (h : rhs v (o.localRhs ⟨none, d.dirichlet, d.slip⟩) 0 = some B) (u : ℕ) : B u = 0 := by
  have := Elasticity.rhs_superposition v o hm (c1 := 0) (c2 := 0) (d := ⟨none, d.dirichlet, d.slip⟩) (d1 := ⟨none, d.dirichlet, d.slip⟩)
    (d2 := ⟨none, d.dirichlet, d.slip⟩) ⟨by simp, by simp [h2], by simp [h1]⟩ h h h u
  simpa using this

/-- **C104 (locked fault)**: while the loads do not change, the sum of the energies less the work of the loads never changes. -/
theorem C104_locked (hd : IsDistributed P dim elems num fnum tag views) (href : ∀ r, r < P → (op r).ref = ref)
    (hinv : IsInverse ref.MinvRef (massWith ref.E_Q ref.W (fun _ => 1))) (rho J : List ℕ → ℝ)
    (hrho : ∀ r, r < P → ∀ u e, (views r).elems[u]? = some e → ∀ q, (op r).rhoInvQ u q = 1 / rho e)
    (hJ : ∀ r, r < P → ∀ u e, (views r).elems[u]? = some e → ∀ q, (op r).J_Q u q = J e)
    (hpos : ∀ e, InElems P elems e → rho e ≠ 0 ∧ J e ≠ 0)
    (hb : ∀ r, r < P → assemble (views r) (op r).localOp = some (blocks r))
    (hsym : ∀ r r' e e', r < P → r' < P → e ∈ elems r → e' ∈ elems r' → ∀ k p l v,
      entry (views r) (blocks r) e e' k p l v = entry (views r') (blocks r') e' e l v k p)
    (data : ℝ → ℕ → Elasticity.Data dim Nq nq)
    (hdata : ∀ t r, r < P → (data t r).dirichlet = (data 0 r).dirichlet ∧ (data t r).slip = (data 0 r).slip)
    (load : ℝ → ℕ → ℕ → Fin Nbf → Fin dim → ℝ) (U V : ℝ → List ℕ → Fin Nbf → Fin dim → ℝ)
    (hs : WaveSolution P elems views op blocks data load U V) (t : ℝ) :
    kineticEnergy P elems views op rho (V t) + elasticEnergy P elems views blocks (U t) - power P elems views (load 0) (U t) =
      kineticEnergy P elems views op rho (V 0) + elasticEnergy P elems views blocks (U 0) - power P elems views (load 0) (U 0) := by
  have hl : ∀ t r, r < P → load t r = load 0 r := fun t r hr => by
    have h := hs.rightHandSide t r hr
    rw [(hdata t r hr).1, (hdata t r hr).2, hs.rightHandSide 0 r hr] at h
    exact (Option.some.inj h).symm
  have hder := C104_balance hd href hinv rho J hrho hJ hpos hb hsym data load U V hs
  have hp : ∀ t, HasDerivAt (fun τ => power P elems views (load 0) (U τ)) (power P elems views (load 0) (V t)) t := fun t =>
    overElements_deriv fun r hr u hu => HasDerivAt.fun_sum fun k _ => HasDerivAt.fun_sum fun p _ =>
      (hs.displacement t _ (own_elem hd hr hu).2 k p).mul_const _
  have hsub := fun t => (hder t).fun_sub (hp t)
  refine is_const_of_deriv_eq_zero (fun t => (hsub t).differentiableAt) (fun t => ?_) t 0
  rw [(hsub t).deriv, sub_eq_zero]
  exact overElements_congr fun r hr u _ => by simp only [hl t r hr]

/-- **C104 (no loads)**: where slip and displacement at the boundary are zero, the sum of the energies never changes. -/
theorem C104_conserved (hd : IsDistributed P dim elems num fnum tag views) (href : ∀ r, r < P → (op r).ref = ref)
    (hm : ∀ r, r < P → (op r).method = .IP)
    (hinv : IsInverse ref.MinvRef (massWith ref.E_Q ref.W (fun _ => 1))) (rho J : List ℕ → ℝ)
    (hrho : ∀ r, r < P → ∀ u e, (views r).elems[u]? = some e → ∀ q, (op r).rhoInvQ u q = 1 / rho e)
    (hJ : ∀ r, r < P → ∀ u e, (views r).elems[u]? = some e → ∀ q, (op r).J_Q u q = J e)
    (hpos : ∀ e, InElems P elems e → rho e ≠ 0 ∧ J e ≠ 0)
    (hb : ∀ r, r < P → assemble (views r) (op r).localOp = some (blocks r))
    (hsym : ∀ r r' e e', r < P → r' < P → e ∈ elems r → e' ∈ elems r' → ∀ k p l v,
      entry (views r) (blocks r) e e' k p l v = entry (views r') (blocks r') e' e l v k p)
    (data : ℝ → ℕ → Elasticity.Data dim Nq nq) (hdata : ∀ t r, r < P → (data t r).dirichlet.getD 0 = 0 ∧ (data t r).slip.getD 0 = 0)
    (load : ℝ → ℕ → ℕ → Fin Nbf → Fin dim → ℝ) (U V : ℝ → List ℕ → Fin Nbf → Fin dim → ℝ)
    (hs : WaveSolution P elems views op blocks data load U V) (t : ℝ) :
    kineticEnergy P elems views op rho (V t) + elasticEnergy P elems views blocks (U t) =
      kineticEnergy P elems views op rho (V 0) + elasticEnergy P elems views blocks (U 0) := by
  have hder := C104_balance hd href hinv rho J hrho hJ hpos hb hsym data load U V hs
  refine is_const_of_deriv_eq_zero (fun t => (hder t).differentiableAt) (fun t => ?_) t 0
  rw [(hder t).deriv]
  unfold power overElements
  refine sum_eq_zero fun r hr => sum_eq_zero fun u _ => sum_eq_zero fun k _ => sum_eq_zero fun p _ => ?_
  have hr := mem_range.1 hr
  rw [load_zero (hm r hr) (hdata t r hr).1 (hdata t r hr).2 (hs.rightHandSide t r hr) u]; simp

end Tandem.WaveEnergy
