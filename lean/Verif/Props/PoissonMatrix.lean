import Verif.Props.Poisson
import Verif.Lemmas.GlobalMatrix
/-! # Properties C71-C74 for the Poisson operator: symmetry, independence of the distribution, ... -/
namespace Tandem.Poisson
open Tandem.DGTopo Tandem.Spec
open Tandem.DGAssembly

variable {dim Nbf Nbm Nq nq : Nat}

/-- The data of the operator of a rank is that of the mesh: `K` the coefficients of the material by element, `pen` the
penalty by facet. -/
structure Samples (v : View) (o : Op dim Nbf Nbm Nq nq) (m : Method) (ref : Ref dim Nbf Nbm Nq nq) (g : Geometry dim Nq nq)
    (K : List Nat → Fin Nbm → ℝ) (pen : List Nat → ℝ) : Prop where
  method : o.method = m
  ref : o.ref = ref
  numbers : g.Numbers v
  J_Q : ∀ (u : Nat) (e : List Nat), v.elems[u]? = some e → o.J_Q u = g.absDetJ e
  G_Q : ∀ (u : Nat) (e : List Nat), v.elems[u]? = some e → o.G_Q u = g.jInv e
  K : ∀ (u : Nat) (e : List Nat), v.elems[u]? = some e → o.K u = K e
  JInv : ∀ (i : Nat) (info : FacetInfo) (f : List Nat) (s : Fin 2) (e : List Nat), facetInfo v i = some info →
    v.facets[i]? = some f → v.elems[upOf info s]? = some e → o.JInv i s = g.jInvFacet f e
  n_q : ∀ (i : Nat) (info : FacetInfo) (f e : List Nat), facetInfo v i = some info → v.facets[i]? = some f →
    v.elems[info.up0]? = some e → o.n_q i = g.normal f e
  penalty_ : ∀ (i : Nat) (f : List Nat), v.facets[i]? = some f → i < v.numLocalFacets → o.penalty_ i = pen f

/-- The inverse mass matrix from the data of an element. -/
noncomputable def minvOf (ref : Ref dim Nbf Nbm Nq nq) (J : Fin Nq → ℝ) : Fin Nbf → Fin Nbf → ℝ := fun k l =>
  ∑ r, ∑ s, ∑ q, ref.MinvRef k r * ref.W q * (1 / J q) * ref.E_Q r q * ref.E_Q s q * ref.MinvRef s l

/-- The block `A_xy` of an interior facet from the data of its two sides. -/
noncomputable def skel2 (m : Method) (ref : Ref dim Nbf Nbm Nq nq) (pen : ℝ) (n : Fin dim → Fin nq → ℝ)
    (K : Fin 2 → Fin Nbm → ℝ) (JI : Fin 2 → Fin dim → Fin dim → Fin nq → ℝ) (loc : Fin 2 → Nat)
    (J : Fin 2 → Fin Nq → ℝ) (x y : Fin 2) : Fin Nbf → Fin Nbf → ℝ :=
  kAssembleSurface ![-0.5, 0.5] ![epsilon * 0.5, -(epsilon * 0.5)] ![pen, -pen] ref.w
    (fun s => kKDxq (K s) (ref.matE_q_T (loc s)) (JI s) (ref.Dxi_q (loc s))) n (fun s => ref.E_q (loc s))
    (fun x => match m with
      | .BR2 => kLiftSkeleton (fun s => minvOf ref (J s)) (fun s => ref.E_q (loc s)) (fun s => kKq (K s) (ref.matE_q_T (loc s))) n ref.w x
      | .IP => kLiftIp (ref.E_q (loc x)) (normalLength n)) x y

theorem skeleton_skel2 (o : Op dim Nbf Nbm Nq nq) (f : Nat) (i : FacetInfo) (x y : Fin 2) :
    o.assembleSkeleton f i x y = skel2 o.method o.ref (o.penalty f) (o.n_q f) (fun s => o.K (upOf i s)) (o.JInv f)
      (fun s => localNoOf i s) (fun s => o.J_Q (upOf i s)) x y := by
  unfold Op.assembleSkeleton skel2
  congr 1

theorem half_flip (x : Fin 2) : (![-0.5, 0.5] : Fin 2 → ℝ) (1 - x) = - (![-0.5, 0.5] : Fin 2 → ℝ) x := by
  fin_cases x <;> simp

theorem eps_flip (x : Fin 2) : (![epsilon * 0.5, -(epsilon * 0.5)] : Fin 2 → ℝ) (1 - x) =
    - (![epsilon * 0.5, -(epsilon * 0.5)] : Fin 2 → ℝ) x := by
  fin_cases x <;> simp

theorem eq_flip (x y : Fin 2) : (1 - x = 1 - y) ↔ (x = y) := by
  fin_cases x <;> fin_cases y <;> decide

theorem normalLength_neg (n : Fin dim → Fin nq → ℝ) : normalLength (fun i q => - n i q) = normalLength n := by
  funext q; unfold normalLength; simp

theorem kLift_neg (Minv : Fin Nbf → Fin Nbf → ℝ) (Es Ex : Fin Nbf → Fin nq → ℝ) (n : Fin dim → Fin nq → ℝ)
    (w : Fin nq → ℝ) (l : Fin Nbf) (i : Fin dim) (u : Fin Nbf) :
    kLift Minv Es Ex (fun i q => - n i q) w l i u = - kLift Minv Es Ex n w l i u := by
  unfold kLift
  simp only [mul_neg, neg_mul, Finset.sum_neg_distrib]

theorem kLiftSkeleton_flip (Minv : Fin 2 → Fin Nbf → Fin Nbf → ℝ) (E : Fin 2 → Fin Nbf → Fin nq → ℝ)
    (Kq : Fin 2 → Fin nq → ℝ) (n : Fin dim → Fin nq → ℝ) (w : Fin nq → ℝ) (x : Fin 2) :
    kLiftSkeleton (fun s => Minv (1 - s)) (fun s => E (1 - s)) (fun s => Kq (1 - s)) (fun i q => - n i q) w x =
      kLiftSkeleton Minv E Kq n w (1 - x) := by
  funext l q
  unfold kLiftSkeleton
  apply Finset.sum_congr rfl; intro i _
  simp only [kLift_neg, mul_neg, Finset.sum_neg_distrib]
  have e1 : (1 : Fin 2) - 0 = 1 := rfl
  have e2 : (1 : Fin 2) - 1 = 0 := rfl
  simp only [e1, e2]
  ring

/-- Exchanging the two sides of a facet. -/
theorem skel2_flip (m : Method) (ref : Ref dim Nbf Nbm Nq nq) (pen : ℝ) (n : Fin dim → Fin nq → ℝ)
    (K : Fin 2 → Fin Nbm → ℝ) (JI : Fin 2 → Fin dim → Fin dim → Fin nq → ℝ) (loc : Fin 2 → Nat)
    (J : Fin 2 → Fin Nq → ℝ) (x y : Fin 2) :
    skel2 m ref pen (fun i q => - n i q) (fun s => K (1 - s)) (fun s => JI (1 - s)) (fun s => loc (1 - s)) (fun s => J (1 - s)) x y =
      skel2 m ref pen n K JI loc J (1 - x) (1 - y) := by
  funext k l
  unfold skel2
  rw [surface_entry, surface_entry]
  apply Finset.sum_congr rfl; intro q _
  rw [half_flip, eps_flip, nflux_neg, nflux_neg]
  simp only [eq_flip]
  cases m with
  | IP => simp only [normalLength_neg]; ring
  | BR2 =>
    simp only
    have := congrFun (congrFun (kLiftSkeleton_flip (fun s => minvOf ref (J s)) (fun s => ref.E_q (loc s))
      (fun s => kKq (K s) (ref.matE_q_T (loc s))) n ref.w y) l) q
    rw [this]; ring

/-- The blocks of the operator by facet and element. -/
noncomputable def meshOp (m : Method) (ref : Ref dim Nbf Nbm Nq nq) (g : Geometry dim Nq nq) (K : List Nat → Fin Nbm → ℝ)
    (pen : List Nat → ℝ) (tag : List Nat → Nat) : MeshOp (Fin Nbf → Fin Nbf → ℝ) :=
  let p := fun f => if m = .BR2 then ((dim + 1 : ℕ) : ℝ) else pen f
  let sk := fun f e a => skel2 m ref (p f) (g.normal f e) ![K e, K a] ![g.jInvFacet f e, g.jInvFacet f a]
    ![g.localNo e f, g.localNo a f] ![g.absDetJ e, g.absDetJ a]
  ⟨fun e => kAssembleVolume (g.absDetJ e) ref.W (K e) ref.matE_Q_T (kDxQ (g.jInv e) ref.Dxi_Q),
   fun f e a => sk f e a 0 0, fun f e a => sk f e a 0 1,
   fun f e => if tag f = bcNatural then none else
     let Kq := kKq (K e) (ref.matE_q_T (g.localNo e f))
     let E := ref.E_q (g.localNo e f)
     let L := match m with
       | .BR2 => kLiftBoundary (minvOf ref (g.absDetJ e)) E Kq (g.normal f e) ref.w
       | .IP => kLiftIp E (normalLength (g.normal f e))
     some (kAssembleSurface (fun _ => -1) (fun _ => epsilon) (fun _ => p f) ref.w
       (fun _ => kKDxq (K e) (ref.matE_q_T (g.localNo e f)) (g.jInvFacet f e) (ref.Dxi_q (g.localNo e f)))
       (g.normal f e) (fun _ => E) (fun _ => L) 0 0)⟩

theorem vec2_flip {α : Type} (a b : α) : (fun s : Fin 2 => (![a, b] : Fin 2 → α) (1 - s)) = ![b, a] := by
  funext s; fin_cases s <;> rfl

variable {P : Nat} {elems : Nat → List (List Nat)} {num fnum tag : List Nat → Nat} {views : Nat → View}

theorem agrees (hd : IsDistributed P dim elems num fnum tag views) (r : Nat) (hr : r < P) (o : Op dim Nbf Nbm Nq nq)
    (m : Method) (ref : Ref dim Nbf Nbm Nq nq) (g : Geometry dim Nq nq) (hg : g.Opposite P elems)
    (K : List Nat → Fin Nbm → ℝ) (pen : List Nat → ℝ) (ho : Samples (views r) o m ref g K pen) :
    Agrees (views r) (elems r).length o.localOp (meshOp m ref g K pen tag) where
  volume := by
    intro u e hu he
    unfold Op.localOp Op.assembleVolume meshOp
    simp only
    rw [ho.J_Q u e he, ho.K u e he, ho.G_Q u e he, ho.ref]
  skeleton := by
    intro i info f e0 e1 hi hinfo hf h0 h1 hne
    have hv := hd.view r hr
    obtain ⟨info', f', e0', e1', g1, g2, g3, g4, g5, g6, g7, _, _, ⟨d0, k0, k0'⟩, ⟨d1, k1, k1'⟩, _⟩ :=
      C33_facet_info hd r hr i hi
    obtain rfl := Option.some.inj (hinfo.symm.trans g1)
    obtain rfl := Option.some.inj (hf.symm.trans g2)
    obtain rfl := Option.some.inj (h0.symm.trans g3)
    obtain rfl := Option.some.inj (h1.symm.trans g4)
    have hne01 : e0 ≠ e1 := fun h => hne (get_inj hv.once g3 (h ▸ g4))
    have hp : o.penalty i = if m = .BR2 then ((dim + 1 : ℕ) : ℝ) else pen f := by
      unfold Op.penalty; rw [ho.method, ho.penalty_ i f hf hi]
    have hsk : ∀ x y, o.assembleSkeleton i info x y = skel2 m ref (if m = .BR2 then ((dim + 1 : ℕ) : ℝ) else pen f) (g.normal f e0) ![K e0, K e1]
        ![g.jInvFacet f e0, g.jInvFacet f e1] ![g.localNo e0 f, g.localNo e1 f] ![g.absDetJ e0, g.absDetJ e1] x y := by
      intro x y
      rw [skeleton_skel2, hp, ho.method, ho.ref, ho.n_q i info f e0 hinfo hf h0]
      have a1 : (fun s => o.K (upOf info s)) = ![K e0, K e1] := by
        funext s; fin_cases s
        · exact ho.K _ _ h0
        · exact ho.K _ _ h1
      have a2 : o.JInv i = ![g.jInvFacet f e0, g.jInvFacet f e1] := by
        funext s; fin_cases s
        · exact ho.JInv i info f 0 e0 hinfo hf h0
        · exact ho.JInv i info f 1 e1 hinfo hf h1
      have a3 : (fun s => localNoOf info s) = ![g.localNo e0 f, g.localNo e1 f] := by
        funext s; fin_cases s
        · exact (ho.numbers _ _ _ _ _ _ h0 k0 k0' hf).symm
        · exact (ho.numbers _ _ _ _ _ _ h1 k1 k1' hf).symm
      have a4 : (fun s => o.J_Q (upOf info s)) = ![g.absDetJ e0, g.absDetJ e1] := by
        funext s; fin_cases s
        · exact ho.J_Q _ _ h0
        · exact ho.J_Q _ _ h1
      rw [a1, a2, a3, a4]
    have hfl : ∀ x y, skel2 m ref (if m = .BR2 then ((dim + 1 : ℕ) : ℝ) else pen f) (g.normal f e0) ![K e0, K e1]
        ![g.jInvFacet f e0, g.jInvFacet f e1] ![g.localNo e0 f, g.localNo e1 f] ![g.absDetJ e0, g.absDetJ e1] (1 - x) (1 - y) =
        skel2 m ref (if m = .BR2 then ((dim + 1 : ℕ) : ℝ) else pen f) (g.normal f e1) ![K e1, K e0]
        ![g.jInvFacet f e1, g.jInvFacet f e0] ![g.localNo e1 f, g.localNo e0 f] ![g.absDetJ e1, g.absDetJ e0] x y := by
      intro x y
      rw [← skel2_flip, hg f e0 e1 (mem_inElems hv g3) (mem_inElems hv g4) hne01 g5 g6]
      simp only [vec2_flip]
    refine ⟨hsk 0 0, hsk 0 1, ?_, ?_⟩
    · exact (hsk 1 0).trans (hfl 0 1)
    · exact (hsk 1 1).trans (hfl 0 0)
  boundary := by
    intro i info f e hi hinfo hf he hne
    have hv := hd.view r hr
    obtain ⟨info', f', e0', e1', g1, g2, g3, g4, g5, g6, g7, _, _, ⟨d0, k0, k0'⟩, ⟨d1, k1, k1'⟩, _, _, _, g8⟩ :=
      C33_facet_info hd r hr i hi
    obtain rfl := Option.some.inj (hinfo.symm.trans g1)
    obtain rfl := Option.some.inj (hf.symm.trans g2)
    obtain rfl := Option.some.inj (he.symm.trans g3)
    have hp : o.penalty i = if m = .BR2 then ((dim + 1 : ℕ) : ℝ) else pen f := by
      unfold Op.penalty; rw [ho.method, ho.penalty_ i f hf hi]
    have hl : localNoOf info 0 = g.localNo e f := (ho.numbers _ _ _ _ _ _ he k0 k0' hf).symm
    have hu : upOf info 0 = info.up0 := rfl
    unfold Op.localOp Op.assembleBoundary meshOp
    simp only
    rw [g8]
    split
    · rfl
    · congr 1
      unfold Op.boundaryL Op.KDx Op.Es Op.Kq Op.nl_q
      rw [hl, hu, hp, ho.ref, ho.n_q i info f e hinfo hf he, ho.method, ho.K _ _ he, ho.JInv i info f 0 e hinfo hf he]
      unfold Op.minv minvOf
      rw [ho.J_Q _ _ he, ho.ref]
      cases m <;> rfl

/-- Transposition of a block. -/
def transpose (A : Fin Nbf → Fin Nbf → ℝ) : Fin Nbf → Fin Nbf → ℝ := fun k l => A l k

theorem volume_symmetric (J W : Fin Nq → ℝ) (K : Fin Nbm → ℝ) (mE : Fin Nq → Fin Nbm → ℝ) (Dx : Fin Nbf → Fin dim → Fin Nq → ℝ) :
    transpose (kAssembleVolume J W K mE Dx) = kAssembleVolume J W K mE Dx := by
  funext k l
  unfold transpose kAssembleVolume
  apply Finset.sum_congr rfl; intro q _
  apply Finset.sum_congr rfl; intro mm _
  apply Finset.sum_congr rfl; intro i _
  ring

/-- The penalty term of an interior facet is symmetric. -/
def LiftSym (w : Fin nq → ℝ) (E L : Fin 2 → Fin Nbf → Fin nq → ℝ) : Prop :=
  ∀ x y k l, ∑ q, w q * (E x k q * L y l q) = ∑ q, w q * (E y l q * L x k q)

theorem surface_transpose (c c2 : Fin 2 → ℝ) (w : Fin nq → ℝ) (KDx : Fin 2 → Fin Nbf → Fin dim → Fin nq → ℝ)
    (n : Fin dim → Fin nq → ℝ) (E L : Fin 2 → Fin Nbf → Fin nq → ℝ) (hL : LiftSym w E L) (x y : Fin 2) :
    transpose (kAssembleSurface c c c2 w KDx n E L x y) = kAssembleSurface c c c2 w KDx n E L y x := by
  funext k l
  unfold transpose
  rw [surface_entry, surface_entry]
  have h : ∀ x y k l, ∑ q, w q * (c y * nflux n (KDx x) k q * E y l q + c x * nflux n (KDx y) l q * E x k q +
      c2 (if x = y then 0 else 1) * E x k q * L y l q) =
      (∑ q, w q * (c y * nflux n (KDx x) k q * E y l q + c x * nflux n (KDx y) l q * E x k q)) +
      c2 (if x = y then 0 else 1) * ∑ q, w q * (E x k q * L y l q) := by
    intro x y k l
    rw [Finset.mul_sum, ← Finset.sum_add_distrib]
    apply Finset.sum_congr rfl; intro q _; ring
  rw [h, h, hL x y l k]
  have hxy : (if x = y then (0 : Fin 2) else 1) = if y = x then 0 else 1 := by simp only [eq_comm]
  rw [hxy]
  congr 1
  apply Finset.sum_congr rfl; intro q _; ring

theorem liftIp_sym (w : Fin nq → ℝ) (E : Fin 2 → Fin Nbf → Fin nq → ℝ) (nl : Fin nq → ℝ) :
    LiftSym w E (fun x => kLiftIp (E x) nl) := by
  intro x y k l
  apply Finset.sum_congr rfl; intro q _
  unfold kLiftIp; ring

theorem coef_eq : (![epsilon * 0.5, -(epsilon * 0.5)] : Fin 2 → ℝ) = ![-0.5, 0.5] := by
  unfold epsilon; funext s; fin_cases s <;> norm_num

theorem skel2_transpose (ref : Ref dim Nbf Nbm Nq nq) (pen : ℝ) (n : Fin dim → Fin nq → ℝ)
    (K : Fin 2 → Fin Nbm → ℝ) (JI : Fin 2 → Fin dim → Fin dim → Fin nq → ℝ) (loc : Fin 2 → Nat)
    (J : Fin 2 → Fin Nq → ℝ) (x y : Fin 2) :
    transpose (skel2 .IP ref pen n K JI loc J x y) = skel2 .IP ref pen n K JI loc J y x := by
  unfold skel2
  rw [coef_eq]
  exact surface_transpose _ _ _ _ _ _ _ (liftIp_sym _ _ _) x y

theorem symmetric_IP (hm : Mesh P dim elems) (ref : Ref dim Nbf Nbm Nq nq) (g : Geometry dim Nq nq) (hg : g.Opposite P elems)
    (K : List Nat → Fin Nbm → ℝ) (pen : List Nat → ℝ) (tag : List Nat → Nat) :
    Symmetric transpose P elems (meshOp .IP ref g K pen tag) where
  zero := rfl
  add := fun _ _ => rfl
  vol := fun e _ => volume_symmetric _ _ _ _ _
  diag := by
    intro f e a _ _ _ _ _
    unfold meshOp
    simp only
    rw [skel2_transpose]
  off := by
    intro f e a he ha hne hf hfa
    unfold meshOp
    simp only
    rw [skel2_transpose]
    have := skel2_flip .IP ref (if Method.IP = .BR2 then ((dim + 1 : ℕ) : ℝ) else pen f) (g.normal f e) ![K e, K a]
      ![g.jInvFacet f e, g.jInvFacet f a] ![g.localNo e f, g.localNo a f] ![g.absDetJ e, g.absDetJ a] 0 1
    simp only [vec2_flip] at this
    rw [hg f e a he ha hne hf hfa]
    exact this.symm
  bnd := by
    intro f e b _ _ _ hb
    unfold meshOp at hb
    simp only at hb
    split at hb
    · simp at hb
    · obtain rfl := Option.some.inj hb
      have : (fun _ : Fin 2 => epsilon) = fun _ => (-1 : ℝ) := rfl
      rw [this]
      exact surface_transpose _ _ _ _ _ _ _ (liftIp_sym _ _ _) 0 0

/-- **C71 (Poisson)**: with the interior penalty method the global matrix is symmetric. -/
theorem C71_poisson_symmetric (hd : IsDistributed P dim elems num fnum tag views)
    (ref : Ref dim Nbf Nbm Nq nq) (g : Geometry dim Nq nq) (hg : g.Opposite P elems) (K : List Nat → Fin Nbm → ℝ)
    (pen : List Nat → ℝ) (o : Nat → Op dim Nbf Nbm Nq nq) (ho : ∀ r, r < P → Samples (views r) (o r) .IP ref g K pen) :
    ∃ blocks : Nat → List (Nat × Nat × (Fin Nbf → Fin Nbf → ℝ)),
      (∀ r, r < P → assemble (views r) (o r).localOp = some (blocks r)) ∧
      ∀ r r' e e', r < P → r' < P → e ∈ elems r → e' ∈ elems r' → ∀ k l,
        entry (views r) (blocks r) e e' k l = entry (views r') (blocks r') e' e l k := by
  obtain ⟨blocks, h1, h2⟩ := entry_transpose hd (fun r => (o r).localOp) (meshOp .IP ref g K pen tag)
    (fun r hr => agrees hd r hr (o r) .IP ref g hg K pen (ho r hr)) transpose (symmetric_IP hd.mesh ref g hg K pen tag)
  refine ⟨blocks, h1, ?_⟩
  intro r r' e e' hr hr' he he' k l
  rw [h2 r r' e e' hr hr' he he']; rfl

/-- **C72 (Poisson)**: the global matrix does not depend on how the mesh is distributed, nor on the local numbering. -/
theorem C72_poisson_distribution {P' : Nat} {elems' : Nat → List (List Nat)} {num' fnum' : List Nat → Nat} {views' : Nat → View}
    (hd : IsDistributed P dim elems num fnum tag views) (hd' : IsDistributed P' dim elems' num' fnum' tag views')
    (hsame : ∀ e, InElems P elems e ↔ InElems P' elems' e)
    (m : Method) (ref : Ref dim Nbf Nbm Nq nq) (g : Geometry dim Nq nq) (hg : g.Opposite P elems) (K : List Nat → Fin Nbm → ℝ)
    (pen : List Nat → ℝ) (o o' : Nat → Op dim Nbf Nbm Nq nq) (ho : ∀ r, r < P → Samples (views r) (o r) m ref g K pen)
    (ho' : ∀ r, r < P' → Samples (views' r) (o' r) m ref g K pen) (r r' : Nat) (hr : r < P) (hr' : r' < P') :
    ∃ blocks blocks', assemble (views r) (o r).localOp = some blocks ∧ assemble (views' r') (o' r').localOp = some blocks' ∧
      ∀ e e', e ∈ elems r → e ∈ elems' r' → entry (views r) blocks e e' = entry (views' r') blocks' e e' := by
  have hg' : g.Opposite P' elems' := fun f e e' h h' => hg f e e' ((hsame e).2 h) ((hsame e').2 h')
  exact entry_distribution hd hd' hsame (fun r => (o r).localOp) (fun r => (o' r).localOp) (meshOp m ref g K pen tag)
    (fun r hr => agrees hd r hr (o r) m ref g hg K pen (ho r hr))
    (fun r hr => agrees hd' r hr (o' r) m ref g hg' K pen (ho' r hr)) r r' hr hr'

/-! ## The hypotheses can be met -/

theorem numbers_of_view (env : Ghosts.Env) (elems : Nat → List Ghosts.Elem) (hm : Mesh env.P env.D elems) (r : Nat)
    (lf : LocalFaces.LocalFaces Ghosts.Facet Nat) (v : View) (h : localView env elems r lf = some v)
    (hin : ∀ e ∈ v.elems, InElems env.P elems e) (g : Geometry env.D Nq nq)
    (hg : ∀ e f, g.localNo e f = (Ghosts.facets env.D e).idxOf f) : g.Numbers v := by
  intro u e ds l i f he hds hl hf
  have hord := C33_facet_order env elems r lf v h u e ds he hds
  have hl' : (Ghosts.facets env.D e)[l]? = some f := by
    have := congrArg (fun L => L[l]?) hord
    simp only [List.getElem?_map, hl, Option.map_some, hf] at this
    cases hx : (Ghosts.facets env.D e)[l]? with
    | none => rw [hx] at this; simp at this
    | some x => rw [hx] at this; simp at this; rw [← this]
  obtain ⟨s, hs, hes⟩ := hin e (List.mem_of_getElem? he)
  have hnd := (Ghosts.facets_spec env.D hm.dim e (hm.size s hs e hes) (hm.sorted s hs e hes)).1
  rw [hg]
  refine get_inj hnd ?_ hl'
  rw [List.getElem?_eq_getElem (List.idxOf_lt_length_of_mem (List.mem_of_getElem? hl')), List.getElem_idxOf]

theorem samples_exist (v : View) (m : Method) (ref : Ref dim Nbf Nbm Nq nq) (g : Geometry dim Nq nq) (hn : g.Numbers v)
    (K : List Nat → Fin Nbm → ℝ) (pen : List Nat → ℝ) : ∃ o, Samples v o m ref g K pen := by
  refine ⟨⟨ref, m, fun u => g.absDetJ (v.elems.getD u []), fun u => g.jInv (v.elems.getD u []), fun u => K (v.elems.getD u []),
    fun i s => match facetInfo v i with
      | some info => g.jInvFacet (v.facets.getD i []) (v.elems.getD (upOf info s) [])
      | none => fun _ _ _ => 0,
    fun i => match facetInfo v i with
      | some info => g.normal (v.facets.getD i []) (v.elems.getD info.up0 [])
      | none => fun _ _ => 0,
    fun i => pen (v.facets.getD i [])⟩, ⟨rfl, rfl, hn, ?_, ?_, ?_, ?_, ?_, ?_⟩⟩
  · intro u e he; simp only; rw [List.getD_eq_getElem?_getD, he]; rfl
  · intro u e he; simp only; rw [List.getD_eq_getElem?_getD, he]; rfl
  · intro u e he; simp only; rw [List.getD_eq_getElem?_getD, he]; rfl
  · intro i info f s e h1 h2 h3; simp only; rw [h1]; simp only; rw [List.getD_eq_getElem?_getD, h2, List.getD_eq_getElem?_getD, h3]; rfl
  · intro i info f e h1 h2 h3; simp only; rw [h1]; simp only; rw [List.getD_eq_getElem?_getD, h2, List.getD_eq_getElem?_getD, h3]; rfl
  · intro i f h1 h2; simp only; rw [List.getD_eq_getElem?_getD, h1]; rfl

/-- Normals of the facets of a strip of triangles: they point to the side of the opposite vertex. -/
noncomputable def exGeometry : Geometry 2 Nq nq :=
  ⟨fun e _ => 1 + e.sum, fun e i j _ => if i = j then 1 + e.sum else 0, fun f e i j _ => f.sum + e.sum + i.val + 2 * j.val,
   fun f e i _ => (2 * e.sum - 3 * f.sum : ℤ) * (i.val + 1 : ℝ), fun e f => (Ghosts.facets 2 e).idxOf f⟩

theorem exOpposite : (exGeometry (Nq := Nq) (nq := nq)).Opposite 3 Ghosts.exElems := by
  have hall : ∀ s, s < 3 → ∀ a ∈ Ghosts.exElems s, a ∈ Ghosts.exAll := by decide
  have hv : ∀ s, s < 3 → ∀ a ∈ Ghosts.exElems s, a.length = 3 ∧ a.Pairwise (· < ·) := by decide
  have h0 : ∀ a ∈ Ghosts.exAll, ∀ b ∈ Ghosts.exAll, ∀ f ∈ Ghosts.facets 2 a, a ≠ b → IsFacet b f →
      (2 * b.sum - 3 * f.sum : ℤ) = - (2 * a.sum - 3 * f.sum : ℤ) := by decide +kernel
  rintro f e e' ⟨s, hs, he⟩ ⟨s', hs', he'⟩ hne hf hf'
  have := h0 e (hall s hs e he) e' (hall s' hs' e' he') f ((Ghosts.facets_spec 2 (by decide) e (hv s hs e he).1 (hv s hs e he).2).2 f |>.2 hf) hne hf'
  funext i q
  simp only [exGeometry]
  rw [this]; push_cast; ring

/-- The strip on three ranks with any geometry that numbers facets as the code does. -/
theorem example_samples_of (g : Geometry 2 Nq nq) (hl : ∀ e f, g.localNo e f = (Ghosts.facets 2 e).idxOf f) (m : Method) (ref : Ref 2 Nbf Nbm Nq nq) (K : List Nat → Fin Nbm → ℝ) (pen : List Nat → ℝ) :
    ∃ (num fnum : List Nat → Nat) (views : Nat → View) (o : Nat → Op 2 Nbf Nbm Nq nq), IsDistributed 3 2 Ghosts.exElems num fnum exTag views ∧
      ∀ r, r < 3 → Samples (views r) (o r) m ref g K pen := by
  obtain ⟨num, fnum, views, h, h'⟩ := C33_local_meshes Ghosts.exEnv Ghosts.exElems Ghosts.exMesh Ghosts.exOk (by decide)
    (fun _ f => exTag f)
    (fun r => (sortedBy_exists Ghosts.exEnv.P Ghosts.exEnv.plex2rank (facetLists Ghosts.exEnv Ghosts.exElems)
      (fun s => (Ghosts.exElems s).length) none (some (fun _ f => exTag f)) r).choose)
    (fun r _ => (sortedBy_exists Ghosts.exEnv.P Ghosts.exEnv.plex2rank (facetLists Ghosts.exEnv Ghosts.exElems)
      (fun s => (Ghosts.exElems s).length) none (some (fun _ f => exTag f)) r).choose_spec)
  have hs : ∀ r, ∃ o : Op 2 Nbf Nbm Nq nq, r < 3 → Samples (views r) o m ref g K pen := by
    intro r
    by_cases hr : r < 3
    · obtain ⟨lf, _, hlf⟩ := h' r hr
      have hn : g.Numbers (views r) :=
        numbers_of_view Ghosts.exEnv Ghosts.exElems Ghosts.exMesh r lf (views r) hlf
          (fun e he => ((h.view r hr).exactly e).1 he |>.1) g hl
      obtain ⟨o, ho⟩ := samples_exist (views r) m ref g hn K pen
      exact ⟨o, fun _ => ho⟩
    · exact ⟨⟨ref, m, fun _ _ => 0, fun _ _ _ _ => 0, fun _ _ => 0, fun _ _ _ _ _ => 0, fun _ _ _ => 0, fun _ => 0⟩, fun h => absurd h hr⟩
  choose o ho using hs
  exact ⟨num, fnum, views, o, h, ho⟩

/-- The strip on three ranks: everything C71 and C72 assume about the mesh, the geometry and the operators. -/
theorem example_samples (m : Method) (ref : Ref 2 Nbf Nbm Nq nq) (K : List Nat → Fin Nbm → ℝ) (pen : List Nat → ℝ) :
    ∃ (num fnum : List Nat → Nat) (views : Nat → View) (o : Nat → Op 2 Nbf Nbm Nq nq), IsDistributed 3 2 Ghosts.exElems num fnum exTag views ∧
      ∀ r, r < 3 → Samples (views r) (o r) m ref exGeometry K pen :=
  example_samples_of exGeometry (fun _ _ => rfl) m ref K pen

end Tandem.Poisson
