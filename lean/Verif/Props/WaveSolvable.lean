import Verif.Props.WaveEnergy
import Verif.Props.DirectTraction
import Verif.Lemmas.LinearOde
/-! # Property C104: the fully dynamic problem has solutions -/
namespace Tandem.WaveEnergy
open Finset Spec DGTopo DGAssembly

variable {P dim Nbf Nbm Nq nq : ℕ} {elems : ℕ → List (List ℕ)} {num fnum tag : List ℕ → ℕ} {views : ℕ → View}
  {op : ℕ → Elasticity.Op dim Nbf Nbm Nq nq} {blocks : ℕ → List (ℕ × ℕ × (Fin Nbf → Fin dim → Fin Nbf → Fin dim → ℝ))}

theorem mulVec_add {n m : ℕ} (A : Fin n → Fin m → Fin n → Fin m → ℝ) (x y : Fin n → Fin m → ℝ) :
    Elasticity.mulVec A (x + y) = Elasticity.mulVec A x + Elasticity.mulVec A y := by
  funext i p; simp [Elasticity.mulVec, mul_add, sum_add_distrib]

theorem mulVec_smul {n m : ℕ} (A : Fin n → Fin m → Fin n → Fin m → ℝ) (c : ℝ) (x : Fin n → Fin m → ℝ) :
    Elasticity.mulVec A (c • x) = c • Elasticity.mulVec A x := by
  funext i p; simp only [Elasticity.mulVec, Pi.smul_apply, smul_eq_mul, mul_sum]
  exact sum_congr rfl fun j _ => sum_congr rfl fun u _ => by ring

/-- **C104 (solutions exist)**: while the loads do not change, the fully dynamic problem has a solution from every displacement and velocity. -/
theorem C104_solvable (hd : IsDistributed P dim elems num fnum tag views) (data : ℕ → Elasticity.Data dim Nq nq)
    (U0 V0 : List ℕ → Fin Nbf → Fin dim → ℝ) :
    ∃ load U V, WaveSolution P elems views op blocks (fun _ => data) (fun _ => load) U V ∧
      ∀ e, InElems P elems e → U 0 e = U0 e ∧ V 0 e = V0 e := by
  classical
  have hrhs : ∀ r, ∃ B, r < P → rhs (views r) ((op r).localRhs ⟨none, (data r).dirichlet, (data r).slip⟩) 0 = some B := fun r => by
    by_cases hr : r < P
    · obtain ⟨B, hB⟩ := rhs_exists hd r hr ((op r).localRhs ⟨none, (data r).dirichlet, (data r).slip⟩) 0
      exact ⟨B, fun _ => hB⟩
    · exact ⟨0, fun h => absurd h hr⟩
  choose load hload using hrhs
  let S := {e // e ∈ allElems P elems}
  let X := S → Fin Nbf → Fin dim → ℝ
  let ext : X → List ℕ → Fin Nbf → Fin dim → ℝ := fun x e => if h : e ∈ allElems P elems then x ⟨e, h⟩ else 0
  have hext_add : ∀ x y e, ext (x + y) e = ext x e + ext y e := fun x y e => by
    by_cases h : e ∈ allElems P elems <;> simp [ext, h] <;> rfl
  have hext_smul : ∀ (c : ℝ) x e, ext (c • x) e = c • ext x e := fun c x e => by
    by_cases h : e ∈ allElems P elems <;> simp [ext, h] <;> rfl
  have hplace : ∀ e : S, ∃ p : ℕ × ℕ, p.1 < P ∧ p.2 < (elems p.1).length ∧ (views p.1).elems[p.2]? = some e.1 := fun e => by
    obtain ⟨r, hr, he⟩ := (mem_all _).1 e.2
    obtain ⟨u, hu⟩ := List.mem_iff_getElem?.1 ((hd.view r hr).exactly e.1 |>.2 ⟨⟨r, hr, he⟩, by
      first | exact Or.inl he | exact ⟨r, hr, he⟩⟩)
    exact ⟨(r, u), hr, by rw [← (hd.view r hr).numLocal]; exact (own_iff hr hd.mesh (hd.view r hr) hu).2.2 he, hu⟩
  choose place hp1 hp2 hp3 using hplace
  let acc : X → ℝ → S → Fin Nbf → Fin dim → ℝ := fun x c e k p =>
    - ∑ l, weightAdjusted (op (place e).1).ref.MinvRef (op (place e).1).ref.E_Q (op (place e).1).ref.W
      (fun q => (op (place e).1).rhoInvQ (place e).2 q / (op (place e).1).J_Q (place e).2 q) k l *
      (rowApply Elasticity.mulVec (blocks (place e).1) (fun j => ext x ((views (place e).1).elems.getD j [])) (place e).2 l p - c * load (place e).1 (place e).2 l p)
  let L : (X × X × ℝ) →ₗ[ℝ] (X × X × ℝ) :=
    { toFun := fun x => (x.2.1, acc x.1 x.2.2, 0)
      map_add' := fun x y => by
        refine Prod.ext rfl (Prod.ext ?_ (by simp))
        funext e k p
        change acc (x + y).1 (x + y).2.2 e k p = acc x.1 x.2.2 e k p + acc y.1 y.2.2 e k p
        simp only [acc, Prod.fst_add, Prod.snd_add, hext_add, rowApply_add Elasticity.mulVec mulVec_add, Pi.add_apply]
        rw [← neg_add, ← sum_add_distrib]
        exact congrArg Neg.neg (sum_congr rfl fun l _ => by ring)
      map_smul' := fun c x => by
        refine Prod.ext rfl (Prod.ext ?_ (by simp))
        funext e k p
        change - _ = c * (- _)
        simp only [Prod.smul_fst, Prod.smul_snd, hext_smul, rowApply_smul Elasticity.mulVec mulVec_smul, Pi.smul_apply, smul_eq_mul, RingHom.id_apply]
        rw [mul_neg, mul_sum]
        exact congrArg Neg.neg (sum_congr rfl fun l _ => by ring) }
  obtain ⟨x, hx0, hx⟩ := linear_ode L ((fun e => U0 e.1, fun e => V0 e.1, 1) : X × X × ℝ)
  have hone : ∀ t, (x t).2.2 = 1 := fun t => by
    have h : ∀ t, HasDerivAt (fun τ => (x τ).2.2) 0 t := fun t => (hx t).snd.snd
    rw [is_const_of_deriv_eq_zero (fun t => (h t).differentiableAt) (fun t => (h t).deriv) t 0, hx0]
  refine ⟨load, fun t => ext (x t).1, fun t => ext (x t).2.1, ⟨fun t r hr => hload r hr, fun t e he k p => ?_, fun t r hr u hu k p => ?_⟩, fun e he => ?_⟩
  · have he := (mem_all e).2 he
    simp only [ext, he, dif_pos]
    have h := (hx t).fst
    exact hasDerivAt_pi.1 (hasDerivAt_pi.1 (hasDerivAt_pi.1 h ⟨e, he⟩) k) p
  · obtain ⟨hg, hI⟩ := own_elem hd hr hu
    have he := (mem_all _).2 hI
    generalize hE : (views r).elems.getD u [] = e at hg he
    have h := (hx t).snd.fst
    have h := hasDerivAt_pi.1 (hasDerivAt_pi.1 (hasDerivAt_pi.1 h ⟨e, he⟩) k) p
    have hr' : (place ⟨e, he⟩).1 = r := own_unique hd.mesh (hp1 _) hr
      ((own_iff (hp1 _) hd.mesh (hd.view _ (hp1 _)) (hp3 ⟨e, he⟩)).2.1 (by rw [(hd.view _ (hp1 _)).numLocal]; exact hp2 _))
      ((own_iff hr hd.mesh (hd.view r hr) hg).2.1 (by rw [(hd.view r hr).numLocal]; exact hu))
    have hu' : (place ⟨e, he⟩).2 = u := by
      have := hp3 ⟨e, he⟩
      rw [hr'] at this
      exact get_inj (hd.view r hr).once this hg
    simp only [ext, he, dif_pos]
    refine h.congr_deriv ?_
    simp only [L, acc, LinearMap.coe_mk, AddHom.coe_mk, hr', hu', hone, one_mul]
    rfl
  · have he := (mem_all e).2 he
    simp only [ext, he, dif_pos, hx0, and_self]

/-- Every element has a place among the elements of its rank. -/
theorem elem_place (hd : IsDistributed P dim elems num fnum tag views) {e : List ℕ} (he : InElems P elems e) :
    ∃ r u, r < P ∧ u < (elems r).length ∧ (views r).elems[u]? = some e := by
  obtain ⟨r, hr, he⟩ := he
  obtain ⟨u, hu⟩ := List.mem_iff_getElem?.1 ((hd.view r hr).exactly e |>.2 ⟨⟨r, hr, he⟩, by
    first | exact Or.inl he | exact ⟨r, hr, he⟩⟩)
  exact ⟨r, u, hr, by rw [← (hd.view r hr).numLocal]; exact (own_iff hr hd.mesh (hd.view r hr) hu).2.2 he, hu⟩

/-- Only the zero velocity has no kinetic energy. -/
theorem kinetic_zero (hd : IsDistributed P dim elems num fnum tag views) {ref : Elasticity.Ref dim Nbf Nbm Nq nq} (href : ∀ r, r < P → (op r).ref = ref)
    (hinv : IsInverse ref.MinvRef (massWith ref.E_Q ref.W (fun _ => 1))) (hW : ∀ q, 0 ≤ ref.W q) (rho J : List ℕ → ℝ)
    (hJ : ∀ r, r < P → ∀ u e, (views r).elems[u]? = some e → ∀ q, (op r).J_Q u q = J e)
    (hpos : ∀ e, InElems P elems e → 0 < rho e ∧ 0 < J e) (V : List ℕ → Fin Nbf → Fin dim → ℝ)
    (h : kineticEnergy P elems views op rho V ≤ 0) (e : List ℕ) (he : InElems P elems e) : V e = 0 := by
  obtain ⟨r, u, hr, hu, hg⟩ := elem_place hd he
  have hterm : ∀ r, r < P → ∀ u, u < (elems r).length → ∀ p q,
      0 ≤ (op r).ref.W q * (rho ((views r).elems.getD u []) * (op r).J_Q u q) * (∑ k, (op r).ref.E_Q k q * V ((views r).elems.getD u []) k p) ^ 2 :=
    fun r hr u hu p q => by
      obtain ⟨hg, hI⟩ := own_elem hd hr hu
      rw [hJ r hr u _ hg q, href r hr]
      exact mul_nonneg (mul_nonneg (hW q) (mul_nonneg (hpos _ hI).1.le (hpos _ hI).2.le)) (sq_nonneg _)
  have hsum : overElements P elems views (fun r u e => ∑ p, ∑ q, (op r).ref.W q * (rho e * (op r).J_Q u q) * (∑ k, (op r).ref.E_Q k q * V e k p) ^ 2) = 0 := by
    refine le_antisymm ?_ (sum_nonneg fun r hr => sum_nonneg fun u hu => sum_nonneg fun p _ => sum_nonneg fun q _ =>
      hterm r (mem_range.1 hr) u (mem_range.1 hu) p q)
    unfold kineticEnergy at h
    linarith
  unfold overElements at hsum
  have h1 := (sum_eq_zero_iff_of_nonneg fun r hr => sum_nonneg fun u hu => sum_nonneg fun p _ => sum_nonneg fun q _ =>
      hterm r (mem_range.1 hr) u (mem_range.1 hu) p q).1 hsum r (mem_range.2 hr)
  have h2 := (sum_eq_zero_iff_of_nonneg fun u hu => sum_nonneg fun p _ => sum_nonneg fun q _ => hterm r hr u (mem_range.1 hu) p q).1 h1 u (mem_range.2 hu)
  have hget : (views r).elems.getD u [] = e := by rw [List.getD_eq_getElem?_getD, hg]; rfl
  funext k p
  have h3 := (sum_eq_zero_iff_of_nonneg fun p _ => sum_nonneg fun q _ => hterm r hr u hu p q).1 h2 p (mem_univ p)
  have h4 : ∀ q, ref.W q * (∑ k, ref.E_Q k q * V e k p) = 0 := fun q => by
    have h4 := (sum_eq_zero_iff_of_nonneg fun q _ => hterm r hr u hu p q).1 h3 q (mem_univ q)
    rw [hJ r hr u _ (own_elem hd hr hu).1 q, href r hr, hget] at h4
    rcases mul_eq_zero.1 h4 with h5 | h5
    · rcases mul_eq_zero.1 h5 with h5 | h5
      · rw [h5, zero_mul]
      · exact absurd h5 (mul_pos (hpos e he).1 (hpos e he).2).ne'
    · rw [pow_eq_zero_iff (by norm_num)] at h5
      rw [h5, mul_zero]
  have h5 := Elasticity.inverse_apply hinv (fun l => V e l p) k
  rw [← h5]
  refine sum_eq_zero fun m _ => ?_
  have h6 : ∑ l, massWith ref.E_Q ref.W (fun _ => 1) m l * V e l p = ∑ q, ref.E_Q m q * (ref.W q * ∑ l, ref.E_Q l q * V e l p) := by
    simp only [massWith, sum_mul, mul_sum]
    rw [sum_comm]
    exact sum_congr rfl fun q _ => sum_congr rfl fun l _ => by ring
  rw [h6]
  simp [h4]

/-- The difference of two solutions is a solution without loads. -/
theorem difference (hd : IsDistributed P dim elems num fnum tag views) (hm : ∀ r, r < P → (op r).method = .IP)
    {data : ℝ → ℕ → Elasticity.Data dim Nq nq} {load load' : ℝ → ℕ → ℕ → Fin Nbf → Fin dim → ℝ}
    {U V U' V' : ℝ → List ℕ → Fin Nbf → Fin dim → ℝ} (hs : WaveSolution P elems views op blocks data load U V)
    (hs' : WaveSolution P elems views op blocks data load' U' V') :
    WaveSolution P elems views op blocks (fun _ _ => ⟨none, none, none⟩) (fun _ _ => 0) (fun t e => U t e - U' t e) (fun t e => V t e - V' t e) where
  rightHandSide t r hr := by
    obtain ⟨B, hB⟩ := rhs_exists hd r hr ((op r).localRhs ⟨none, none, none⟩) 0
    have : B = 0 := funext fun u => load_zero (hm r hr) (d := ⟨none, none, none⟩) rfl rfl hB u
    exact this ▸ hB
  displacement t e he k p := (hs.displacement t e he k p).fun_sub (hs'.displacement t e he k p)
  velocity t r hr u hu k p := by
    refine ((hs.velocity t r hr u hu k p).fun_sub (hs'.velocity t r hr u hu k p)).congr_deriv ?_
    have hl : load t r = load' t r := Option.some.inj ((hs.rightHandSide t r hr).symm.trans (hs'.rightHandSide t r hr))
    have hr : rowApply Elasticity.mulVec (blocks r) (fun j => U t ((views r).elems.getD j []) - U' t ((views r).elems.getD j [])) u =
        rowApply Elasticity.mulVec (blocks r) (fun j => U t ((views r).elems.getD j [])) u -
          rowApply Elasticity.mulVec (blocks r) (fun j => U' t ((views r).elems.getD j [])) u := by
      have := rowApply_add Elasticity.mulVec mulVec_add (blocks r) (fun j => U t ((views r).elems.getD j []) - U' t ((views r).elems.getD j []))
        (fun j => U' t ((views r).elems.getD j [])) u
      rw [eq_sub_iff_add_eq, ← this]
      simp
    simp only [hr, Pi.sub_apply, hl, Pi.zero_apply]
    simp only [← sum_neg_distrib, ← sum_sub_distrib]
    exact sum_congr rfl fun l _ => by ring

/-- **C104 (one solution)**: where the elastic energy is nonnegative, two solutions of the fully dynamic problem with the same data that agree
at the start agree at all times. -/
theorem C104_unique (hd : IsDistributed P dim elems num fnum tag views) {ref : Elasticity.Ref dim Nbf Nbm Nq nq} (href : ∀ r, r < P → (op r).ref = ref)
    (hm : ∀ r, r < P → (op r).method = .IP)
    (hinv : IsInverse ref.MinvRef (massWith ref.E_Q ref.W (fun _ => 1))) (hW : ∀ q, 0 ≤ ref.W q) (rho J : List ℕ → ℝ)
    (hrho : ∀ r, r < P → ∀ u e, (views r).elems[u]? = some e → ∀ q, (op r).rhoInvQ u q = 1 / rho e)
    (hJ : ∀ r, r < P → ∀ u e, (views r).elems[u]? = some e → ∀ q, (op r).J_Q u q = J e)
    (hpos : ∀ e, InElems P elems e → 0 < rho e ∧ 0 < J e)
    (hb : ∀ r, r < P → assemble (views r) (op r).localOp = some (blocks r))
    (hsym : ∀ r r' e e', r < P → r' < P → e ∈ elems r → e' ∈ elems r' → ∀ k p l v,
      entry (views r) (blocks r) e e' k p l v = entry (views r') (blocks r') e' e l v k p)
    (hela : ∀ U, 0 ≤ elasticEnergy P elems views blocks U)
    (data : ℝ → ℕ → Elasticity.Data dim Nq nq) (load load' : ℝ → ℕ → ℕ → Fin Nbf → Fin dim → ℝ) (U V U' V' : ℝ → List ℕ → Fin Nbf → Fin dim → ℝ)
    (hs : WaveSolution P elems views op blocks data load U V) (hs' : WaveSolution P elems views op blocks data load' U' V')
    (h0 : ∀ e, InElems P elems e → U 0 e = U' 0 e ∧ V 0 e = V' 0 e) (t : ℝ) (e : List ℕ) (he : InElems P elems e) :
    U t e = U' t e ∧ V t e = V' t e := by
  have hdiff := difference hd hm hs hs'
  have hcons := fun t => C104_conserved hd href hm hinv rho J hrho hJ (fun e he => ⟨(hpos e he).1.ne', (hpos e he).2.ne'⟩) hb hsym _ (fun _ _ _ => ⟨rfl, rfl⟩) _ _ _ hdiff t
  have hk0 : kineticEnergy P elems views op rho (fun e => V 0 e - V' 0 e) = 0 := by
    unfold kineticEnergy overElements
    have : ∀ r ∈ range P, ∀ u ∈ range (elems r).length, ∀ k p, V 0 ((views r).elems.getD u []) k p - V' 0 ((views r).elems.getD u []) k p = 0 :=
      fun r hr u hu k p => by rw [(h0 _ (own_elem hd (mem_range.1 hr) (mem_range.1 hu)).2).2, sub_self]
    rw [sum_eq_zero fun r hr => sum_eq_zero fun u hu => sum_eq_zero fun p _ => sum_eq_zero fun q _ => by
      simp only [Pi.sub_apply, this r hr u hu, mul_zero, zero_mul, sum_const_zero, ne_eq, OfNat.ofNat_ne_zero, not_false_eq_true, zero_pow], mul_zero]
  have he0 : elasticEnergy P elems views blocks (fun e => U 0 e - U' 0 e) = 0 := by
    unfold elasticEnergy overElements
    have : ∀ r ∈ range P, ∀ u ∈ range (elems r).length, ∀ k p, U 0 ((views r).elems.getD u []) k p - U' 0 ((views r).elems.getD u []) k p = 0 :=
      fun r hr u hu k p => by rw [(h0 _ (own_elem hd (mem_range.1 hr) (mem_range.1 hu)).2).1, sub_self]
    rw [sum_eq_zero fun r hr => sum_eq_zero fun u hu => sum_eq_zero fun k _ => sum_eq_zero fun p _ => by
      simp only [Pi.sub_apply, this r hr u hu, mul_zero, zero_mul, sum_const_zero, ne_eq, OfNat.ofNat_ne_zero, not_false_eq_true, zero_pow], mul_zero]
  have hV : ∀ t e, InElems P elems e → V t e - V' t e = 0 := fun t e he =>
    kinetic_zero hd href hinv hW rho J hJ hpos (fun e => V t e - V' t e) (by
      have := hcons t; rw [hk0, he0] at this; linarith [hela (fun e => U t e - U' t e)]) e he
  refine ⟨?_, sub_eq_zero.1 (hV t e he)⟩
  funext k p
  have hder : ∀ t, HasDerivAt (fun τ => U τ e k p - U' τ e k p) 0 t := fun t => by
    have := hdiff.displacement t e he k p
    rw [hV t e he] at this
    exact this
  have := is_const_of_deriv_eq_zero (fun t => (hder t).differentiableAt) (fun t => (hder t).deriv) t 0
  rw [(h0 e he).1, sub_self] at this
  linarith

/-- **C104 (what is integrated)**: along a solution the derivative of the velocity of every element is what `wave_rhs` computes on the rank of the
element, after the exchange of the displacements with messages in any order, from the own and the received blocks. -/
theorem C104_wave_rhs (hd : IsDistributed P dim elems num fnum tag views) (hbc : BCsFit P elems tag)
    (hm : ∀ r, r < P → (op r).method = .IP) (hb : ∀ r, r < P → assemble (views r) (op r).localOp = some (blocks r))
    (data : ℝ → ℕ → Elasticity.Data dim Nq nq) (load : ℝ → ℕ → ℕ → Fin Nbf → Fin dim → ℝ) (U V : ℝ → List ℕ → Fin Nbf → Fin dim → ℝ)
    (hs : WaveSolution P elems views op blocks data load U V) (t : ℝ) (junk : ℕ → Elasticity.SidePre dim nq) (place : Fin Nbf → Fin dim → ℕ)
    (plans : List ScatterPlan.Plan) (hplans : ∀ s, s < P → ∃ p, plans[s]? = some p ∧ ScatterPlan.IsPlan s (elemFaces (views s)) p)
    (X : List ℕ → List ℝ) (hX : ∀ e, InElems P elems e → (X e).length = Nbf * dim)
    (hU : ∀ e, InElems P elems e → Elasticity.toBlock place (X e) = U t e)
    (xs : ℕ → List ℝ) (hxs : ∀ s, s < P → xs s = ((views s).elems.take (elems s).length).flatMap X)
    (xl : List (List ℝ)) (hxl : ∀ s, s < P → xl[s]? = some (xs s))
    (r : ℕ) (hr : r < P) (plan : ScatterPlan.Plan) (hplan : plans[r]? = some plan) (hlen : plan.recvIdx.length ≤ 2 ^ 64 - 1)
    (y : List ℝ) (hy : y.length = plan.recvIdx.length * (Nbf * dim))
    (arrival : List ScatterPlan.Block) (ha : arrival.Perm plan.recvBlocks) (during : ℕ → List ℝ) :
    ∃ ghost k tbl out, ScatterPlan.scatter (Nbf * dim) plans xl r y arrival = some ghost ∧
      numInterior (views r) = some k ∧ neighbourInfo (views r) (dim + 1) = some tbl ∧
      DGTopo.apply (Nbf * dim) (views r).numLocal k plan.recvIdx tbl (xs r) during ghost = some out ∧
      out.map (·.1) = List.range (elems r).length ∧
      ∀ (u : ℕ) (x0 : List ℝ) (xn : List (SideInfo × List ℝ)), (u, x0, xn) ∈ out → ∀ k p,
        HasDerivAt (fun τ => V τ ((views r).elems.getD u []) k p)
          ((op r).waveRhs (data t r) (Elasticity.preOf (op r) (views r) junk) u (Elasticity.toBlock place x0)
            (xn.map (fun p => (p.1, Elasticity.toBlock place p.2))) k p) t := by
  obtain ⟨ghost, kk, tbl, out, bs, b, h1, h2, h3, h4, h5, h6, h7, h8⟩ := Elasticity.C81_wave_rhs hd hbc (op r) (hm r hr) (data t r) junk place plans hplans
    X hX xs hxs xl hxl r hr plan hplan hlen y hy arrival ha during
  obtain rfl : blocks r = bs := Option.some.inj ((hb r hr).symm.trans h5)
  obtain rfl : load t r = b := Option.some.inj ((hs.rightHandSide t r hr).symm.trans h6)
  refine ⟨ghost, kk, tbl, out, h1, h2, h3, h4, h7, fun u x0 xn hmem k p => ?_⟩
  have hu : u < (elems r).length := by
    have : u ∈ out.map (·.1) := List.mem_map.2 ⟨_, hmem, rfl⟩
    rw [h7] at this; exact List.mem_range.1 this
  rw [h8 u x0 xn hmem k p]
  have hrow : ∀ l, rowApply Elasticity.mulVec (blocks r) (fun j => Elasticity.toBlock place (X ((views r).elems.getD j []))) u l p =
      rowApply Elasticity.mulVec (blocks r) (fun j => U t ((views r).elems.getD j [])) u l p := fun l => by
    rw [rowApply_entries hd hr _ (hb r hr) (fun e => Elasticity.toBlock place (X e)) (own_elem hd hr hu).1,
      rowApply_entries hd hr _ (hb r hr) (U t) (own_elem hd hr hu).1]
    exact sum_congr rfl fun e he => by rw [hU e ((mem_all e).1 he)]
  simp only [hrow]
  exact hs.velocity t r hr u hu k p

end Tandem.WaveEnergy
