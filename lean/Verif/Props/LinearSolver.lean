import Verif.Spec.LinearSolver
import Verif.Props.RefElement
import Verif.Props.MGConfig
import Verif.Spec.DGTopo
/-! # Property C91: the multigrid hierarchy of the linear solver -/
namespace Tandem.LinearSolver
open Finset Spec

/-! ## Sums over blocks -/

theorem sum_blocks (n m : ℕ) (F : ℕ → ℝ) : ∑ i ∈ range (n * m), F i = ∑ g ∈ range n, ∑ c ∈ range m, F (g * m + c) := by
  induction n with
  | zero => simp
  | succ n ih => rw [Nat.succ_mul, sum_range_add, ih, sum_range_succ]

theorem form_congr (N : ℕ) (A : Mat) (x y x' y' : ℕ → ℝ) (hx : ∀ i < N, x i = x' i) (hy : ∀ i < N, y i = y' i) :
    form N A x y = form N A x' y' := by
  unfold form
  refine sum_congr rfl fun i hi => sum_congr rfl fun j hj => ?_
  rw [hx i (mem_range.1 hi), hy j (mem_range.1 hj)]

/-- Application of a matrix. -/
noncomputable def mulVec (N : ℕ) (A : Mat) (x : ℕ → ℝ) (i : ℕ) : ℝ := ∑ j ∈ range N, A i j * x j

theorem form_ptap (N M : ℕ) (A I : Mat) (x y : ℕ → ℝ) :
    form M (matMatMult N (matTranspose I) (matMatMult N A I)) x y = form N A (mulVec M I x) (mulVec M I y) := by
  unfold form matMatMult matTranspose mulVec
  have e1 : ∀ i j, x i * (∑ k ∈ range N, I k i * ∑ k' ∈ range N, A k k' * I k' j) * y j =
      ∑ k ∈ range N, ∑ k' ∈ range N, (I k i * x i) * A k k' * (I k' j * y j) := by
    intro i j
    rw [mul_sum, sum_mul]
    refine sum_congr rfl fun k _ => ?_
    rw [mul_sum, mul_sum, sum_mul]
    exact sum_congr rfl fun k' _ => by ring
  have e2 : ∀ k k', (∑ i ∈ range M, I k i * x i) * A k k' * (∑ j ∈ range M, I k' j * y j) =
      ∑ i ∈ range M, ∑ j ∈ range M, (I k i * x i) * A k k' * (I k' j * y j) := by
    intro k k'
    rw [sum_mul, sum_mul_sum]
  simp only [e1, e2]
  calc _ = ∑ i ∈ range M, ∑ k ∈ range N, ∑ k' ∈ range N, ∑ j ∈ range M, (I k i * x i) * A k k' * (I k' j * y j) := by
        refine sum_congr rfl fun i _ => ?_
        rw [sum_comm]
        refine sum_congr rfl fun k _ => ?_
        rw [sum_comm]
    _ = _ := by
        rw [sum_comm]
        refine sum_congr rfl fun k _ => ?_
        rw [sum_comm]

/-! ## The interpolation matrix -/

variable {X : Type}

/-- The element matrices `lop` turn coefficients in the basis of a lower degree into coefficients of the same function. -/
def Transfers (Q : ℕ) (nb : ℕ → ℕ) (b : ℕ → ℕ → X → ℝ) (lop : ℕ → ℕ → Mat) : Prop :=
  ∀ to_ from_, from_ < to_ → ∀ u : ℕ → ℝ, ∀ p < Q, ∀ ξ,
    ∑ k ∈ range (nb to_), (∑ col ∈ range (nb from_ * Q), lop to_ from_ (k + p * nb to_) col * u col) * b to_ k ξ =
      ∑ l ∈ range (nb from_), u (l + p * nb from_) * b from_ l ξ

/-- The functions of the basis of each degree are linearly independent. -/
def Independent (nb : ℕ → ℕ) (b : ℕ → ℕ → X → ℝ) : Prop :=
  ∀ d, ∀ c : ℕ → ℝ, (∀ ξ, ∑ l ∈ range (nb d), c l * b d l ξ = 0) → ∀ l < nb d, c l = 0

theorem list_sum_single (gids : List ℕ) (n : ℕ) (hp : gids.Perm (List.range n)) (F : ℕ → ℝ) (g : ℕ) (hg : g < n)
    (h0 : ∀ g', g' ≠ g → F g' = 0) : (gids.map F).sum = F g := by
  rw [(hp.map F).sum_eq]
  have e : ((List.range n).map F).sum = ∑ i ∈ range n, F i := by
    simp [Finset.sum, Finset.range, Multiset.range]
  rw [e]
  exact sum_eq_single g (fun b _ hb => h0 b hb) (fun h => absurd (mem_range.2 hg) h)

theorem block_index (m g c : ℕ) (hc : c < m) : (g * m + c) / m = g ∧ (g * m + c) % m = c := by
  have hm : 0 < m := by omega
  constructor
  · rw [mul_comm, Nat.mul_add_div hm, Nat.div_eq_of_lt hc, add_zero]
  · rw [mul_comm, Nat.mul_add_mod, Nat.mod_eq_of_lt hc]

/-- An entry of the assembled interpolation. -/
theorem assemble_entry (gids : List ℕ) (n : ℕ) (hp : gids.Perm (List.range n)) (bs : ℕ → ℕ) (lop : ℕ → ℕ → Mat) (to_ from_ : ℕ) (I : Mat)
    (hI : assembleInterpl gids bs lop to_ from_ = some I) (g i g' j : ℕ) (hg : g < n) (hi : i < bs to_) (hj : j < bs from_) :
    I (g * bs to_ + i) (g' * bs from_ + j) = if g' = g then lop to_ from_ i j else 0 := by
  unfold assembleInterpl at hI
  split_ifs at hI
  obtain rfl := Option.some.inj hI
  obtain ⟨r1, r2⟩ := block_index (bs to_) g i hi
  obtain ⟨c1, c2⟩ := block_index (bs from_) g' j hj
  simp only [r1, r2, c1, c2]
  rw [list_sum_single gids n hp _ g hg]
  · simp
  · intro g'' hne
    rw [if_neg]; rintro ⟨h, _⟩; exact hne h.symm

theorem mulVec_entry (gids : List ℕ) (n : ℕ) (hp : gids.Perm (List.range n)) (bs : ℕ → ℕ) (lop : ℕ → ℕ → Mat) (to_ from_ : ℕ) (I : Mat)
    (hI : assembleInterpl gids bs lop to_ from_ = some I) (x : ℕ → ℝ) (g i : ℕ) (hg : g < n) (hi : i < bs to_) :
    mulVec (n * bs from_) I x (g * bs to_ + i) = ∑ j ∈ range (bs from_), lop to_ from_ i j * x (g * bs from_ + j) := by
  unfold mulVec
  rw [sum_blocks, sum_eq_single g]
  · refine sum_congr rfl fun j hj => ?_
    rw [assemble_entry gids n hp bs lop to_ from_ I hI g i g j hg hi (mem_range.1 hj), if_pos rfl]
  · intro g' _ hne
    refine sum_eq_zero fun j hj => ?_
    rw [assemble_entry gids n hp bs lop to_ from_ I hI g i g' j hg hi (mem_range.1 hj), if_neg hne, zero_mul]
  · intro h; exact absurd (mem_range.2 hg) h

theorem quantity_lt {k nb p Q : ℕ} (hk : k < nb) (hp : p < Q) : k + p * nb < nb * Q := by
  have := Nat.mul_le_mul_left nb (show p + 1 ≤ Q from hp)
  rw [Nat.mul_add, mul_one, mul_comm nb p] at this
  omega

/-- The assembled interpolation keeps the functions. -/
theorem mulVec_represents (Q : ℕ) (nb : ℕ → ℕ) (b : ℕ → ℕ → X → ℝ) (lop : ℕ → ℕ → Mat) (ht : Transfers Q nb b lop) (gids : List ℕ) (n : ℕ)
    (hp : gids.Perm (List.range n)) (to_ from_ : ℕ) (I : Mat) (hI : assembleInterpl gids (fun d => nb d * Q) lop to_ from_ = some I)
    (f : ℕ → ℕ → X → ℝ) (x : ℕ → ℝ) (hx : Represents n Q (nb from_) (b from_) f x) :
    Represents n Q (nb to_) (b to_) f (mulVec (n * (nb from_ * Q)) I x) := by
  have hlt : from_ < to_ := by
    unfold assembleInterpl at hI
    split_ifs at hI with h
    omega
  intro g hg p hp' ξ
  rw [hx g hg p hp' ξ]
  rw [← ht to_ from_ hlt (fun c => x (g * (nb from_ * Q) + c)) p hp' ξ]
  refine sum_congr rfl fun k hk => ?_
  rw [mulVec_entry gids n hp (fun d => nb d * Q) lop to_ from_ I hI x g _ hg (quantity_lt (mem_range.1 hk) hp')]

theorem represents_unique (n Q : ℕ) (nb : ℕ → ℕ) (b : ℕ → ℕ → X → ℝ) (hb : Independent nb b) (d : ℕ) (f : ℕ → ℕ → X → ℝ) (x y : ℕ → ℝ)
    (hx : Represents n Q (nb d) (b d) f x) (hy : Represents n Q (nb d) (b d) f y) : ∀ i < n * (nb d * Q), x i = y i := by
  intro i hi
  have hpos : 0 < nb d * Q := Nat.pos_of_ne_zero fun h => by rw [h] at hi; simp at hi
  have hnb : 0 < nb d := Nat.pos_of_mul_pos_right hpos
  set g := i / (nb d * Q) with hg
  set c := i % (nb d * Q) with hc
  have hgn : g < n := Nat.div_lt_of_lt_mul (by rw [mul_comm]; exact hi)
  have hcl : c < nb d * Q := Nat.mod_lt _ hpos
  set p := c / nb d with hp
  set l := c % nb d with hl
  have hpQ : p < Q := Nat.div_lt_of_lt_mul hcl
  have hll : l < nb d := Nat.mod_lt _ hnb
  have ei : i = g * (nb d * Q) + (l + p * nb d) := by
    have h1 := Nat.div_add_mod i (nb d * Q)
    have h2 := Nat.div_add_mod c (nb d)
    rw [mul_comm (nb d) (c / nb d)] at h2
    rw [mul_comm (nb d * Q)] at h1
    rw [hg, hl, hp]; omega
  have := hb d (fun l => x (g * (nb d * Q) + (l + p * nb d)) - y (g * (nb d * Q) + (l + p * nb d))) (fun ξ => by
    simp only [sub_mul, sum_sub_distrib]
    rw [← hx g hgn p hpQ ξ, ← hy g hgn p hpQ ξ, sub_self]) l hll
  rw [← ei] at this
  exact sub_eq_zero.1 this

/-! ## The hierarchy -/

/-- The matrix `A` of degree `d` is the matrix `A'` of degree `m` applied to the functions of degree `d`. -/
def Galerkin (n Q : ℕ) (nb : ℕ → ℕ) (b : ℕ → ℕ → X → ℝ) (m d : ℕ) (A' A : Mat) : Prop :=
  ∀ (f h : ℕ → ℕ → X → ℝ) (x y x' y' : ℕ → ℝ), Represents n Q (nb d) (b d) f x → Represents n Q (nb d) (b d) h y →
    Represents n Q (nb m) (b m) f x' → Represents n Q (nb m) (b m) h y' →
    form (n * (nb d * Q)) A x y = form (n * (nb m * Q)) A' x' y'

theorem galerkin_step (Q : ℕ) (nb : ℕ → ℕ) (b : ℕ → ℕ → X → ℝ) (lop : ℕ → ℕ → Mat) (ht : Transfers Q nb b lop) (gids : List ℕ) (n : ℕ)
    (hp : gids.Perm (List.range n)) (m to_ from_ : ℕ) (I A' A : Mat) (hI : assembleInterpl gids (fun d => nb d * Q) lop to_ from_ = some I)
    (h : Galerkin n Q nb b m to_ A' A) : Galerkin n Q nb b m from_ A'
      (matMatMult (n * (nb to_ * Q)) (matTranspose I) (matMatMult (n * (nb to_ * Q)) A I)) := by
  intro f h' x y x' y' hx hy hx' hy'
  rw [form_ptap]
  exact h f h' _ _ x' y' (mulVec_represents Q nb b lop ht gids n hp to_ from_ I hI f x hx)
    (mulVec_represents Q nb b lop ht gids n hp to_ from_ I hI h' y hy) hx' hy'

/-- Interpolation to level `k`: coefficients become the coefficients of the same functions. -/
def Interpolates (n Q : ℕ) (nb : ℕ → ℕ) (b : ℕ → ℕ → X → ℝ) (to_ from_ : ℕ) (I : Mat) : Prop :=
  ∀ f x, Represents n Q (nb from_) (b from_) f x →
    Represents n Q (nb to_) (b to_) f (fun i => ∑ j ∈ range (n * (nb from_ * Q)), I i j * x j)

theorem levelLoop_spec (Q : ℕ) (nb : ℕ → ℕ) (b : ℕ → ℕ → X → ℝ) (lop : ℕ → ℕ → Mat) (ht : Transfers Q nb b lop) (gids : List ℕ) (n : ℕ)
    (hp : gids.Perm (List.range n)) (deg : List ℕ) (hdeg : deg.Pairwise (· < ·)) (m : ℕ) (A' : Mat) :
    ∀ (l : ℕ) (_ : l < deg.length) (A : Mat) (st : MG), Galerkin n Q nb b m (deg.getD l 0) A' A →
    ∃ mg, levelLoop n gids (fun d => nb d * Q) lop deg l A st = some mg ∧
      (∀ k, l ≤ k → mg.operators k = st.operators k) ∧
      (∀ k < l, ∃ B, mg.operators k = some (B, B) ∧ Galerkin n Q nb b m (deg.getD k 0) A' B) ∧
      (∀ k, l < k → mg.interpolation k = st.interpolation k) ∧
      (∀ k < l, ∃ I, mg.interpolation (k + 1) = some I ∧ Interpolates n Q nb b (deg.getD (k + 1) 0) (deg.getD k 0) I) ∧
      mg.interpolation 0 = st.interpolation 0 ∧
      mg.cleanup.map some = st.cleanup.map some ++ ((List.range l).reverse.map fun k => (mg.operators k).map Prod.fst) := by
  intro l
  induction l with
  | zero =>
    intro _ A st _
    exact ⟨st, rfl, fun _ _ => rfl, fun _ h => absurd h (by omega), fun _ _ => rfl, fun _ h => absurd h (by omega), rfl, by simp⟩
  | succ l ih =>
    intro hl A st hA
    have hlt : deg.getD l 0 < deg.getD (l + 1) 0 := by
      rw [List.getD_eq_getElem _ _ (by omega), List.getD_eq_getElem _ _ hl]
      exact List.pairwise_iff_getElem.1 hdeg l (l + 1) (by omega) hl (by omega)
    obtain ⟨I, hI⟩ : ∃ I, assembleInterpl gids (fun d => nb d * Q) lop (deg.getD (l + 1) 0) (deg.getD l 0) = some I := by
      unfold assembleInterpl
      rw [if_neg (by omega)]
      exact ⟨_, rfl⟩
    have hB := galerkin_step Q nb b lop ht gids n hp m _ _ I A' A hI hA
    obtain ⟨mg, h1, h2, h3, h4, h5, h6, h7⟩ := ih (by omega) _ ⟨fun k => if k = l then some
      (matMatMult (n * (nb (deg.getD (l + 1) 0) * Q)) (matTranspose I) (matMatMult (n * (nb (deg.getD (l + 1) 0) * Q)) A I),
       matMatMult (n * (nb (deg.getD (l + 1) 0) * Q)) (matTranspose I) (matMatMult (n * (nb (deg.getD (l + 1) 0) * Q)) A I)) else st.operators k,
         fun k => if k = l + 1 then some I else st.interpolation k,
         st.cleanup ++ [matMatMult (n * (nb (deg.getD (l + 1) 0) * Q)) (matTranspose I) (matMatMult (n * (nb (deg.getD (l + 1) 0) * Q)) A I)]⟩ hB
    refine ⟨mg, ?_, ?_, ?_, ?_, ?_, ?_, ?_⟩
    · unfold levelLoop
      rw [hI]
      exact h1
    · intro k hk
      rw [h2 k (by omega)]
      simp only
      rw [if_neg (by omega)]
    · intro k hk
      by_cases hkl : k = l
      · subst hkl
        refine ⟨_, (h2 k le_rfl).trans (if_pos rfl), hB⟩
      · exact h3 k (by omega)
    · intro k hk
      rw [h4 k (by omega)]
      simp only
      rw [if_neg (by omega)]
    · intro k hk
      by_cases hkl : k = l
      · subst hkl
        exact ⟨I, (h4 (k + 1) (by omega)).trans (if_pos rfl), fun f x hx => mulVec_represents Q nb b lop ht gids n hp _ _ I hI f x hx⟩
      · exact h5 k (by omega)
    · rw [h6]; simp only; rw [if_neg (by omega)]
    · rw [h7, List.range_succ, List.reverse_append]
      simp only [List.map_append, List.map_cons, List.map_nil, List.reverse_singleton, List.append_assoc, List.singleton_append,
        List.cons_append, List.nil_append]
      rw [h2 l le_rfl]
      simp

theorem exists_fine (Q : ℕ) (nb : ℕ → ℕ) (b : ℕ → ℕ → X → ℝ) (lop : ℕ → ℕ → Mat) (ht : Transfers Q nb b lop) (n d m : ℕ) (h : d ≤ m) (x : ℕ → ℝ) :
    ∃ f x', Represents n Q (nb d) (b d) f x ∧ Represents n Q (nb m) (b m) f x' := by
  set f : ℕ → ℕ → X → ℝ := fun g p ξ => ∑ l ∈ range (nb d), x (g * (nb d * Q) + (l + p * nb d)) * b d l ξ with hf
  have hx : Represents n Q (nb d) (b d) f x := fun g _ p _ ξ => rfl
  rcases h.eq_or_lt with h | h
  · subst h; exact ⟨f, x, hx, hx⟩
  · have hI : assembleInterpl (List.range n) (fun d => nb d * Q) lop m d = some _ := if_neg (by omega)
    exact ⟨f, _, hx, mulVec_represents Q nb b lop ht (List.range n) n (List.Perm.refl _) m d _ hI f x hx⟩

/-- **C91 (hierarchy)**: with strictly increasing degrees, `setup_mg` succeeds on every number of elements and ranks; the smoother
of the finest level gets the matrix-free operator (if there is one) and the assembled matrix; the smoother of every coarser
level gets a matrix whose bilinear form is that of the assembled matrix on the functions of the degree of the level; the
interpolation to every level keeps the functions; exactly the coarse matrices are kept for destruction, each once. -/
theorem C91_hierarchy (Q : ℕ) (nb : ℕ → ℕ) (b : ℕ → ℕ → X → ℝ) (lop : ℕ → ℕ → Mat) (ht : Transfers Q nb b lop) (hb : Independent nb b)
    (gids : List ℕ) (n : ℕ) (hp : gids.Perm (List.range n)) (deg : List ℕ) (hne : deg ≠ []) (hdeg : deg.Pairwise (· < ·))
    (shell : Option Mat) (P : Mat) (m : ℕ) (hm : deg.getLast? = some m) :
    ∃ mg, setupMG n gids (fun d => nb d * Q) lop shell P deg = some mg ∧
      mg.operators (deg.length - 1) = some (shell.getD P, P) ∧
      (∀ k d, k + 1 < deg.length → deg[k]? = some d → ∃ A, mg.operators k = some (A, A) ∧
        ∀ (f h : ℕ → ℕ → X → ℝ) (x y x' y' : ℕ → ℝ), Represents n Q (nb d) (b d) f x → Represents n Q (nb d) (b d) h y →
          Represents n Q (nb m) (b m) f x' → Represents n Q (nb m) (b m) h y' →
          form (n * (nb d * Q)) A x y = form (n * (nb m * Q)) P x' y') ∧
      (∀ k d d', deg[k]? = some d → deg[k + 1]? = some d' → ∃ I, mg.interpolation (k + 1) = some I ∧
        ∀ f x, Represents n Q (nb d) (b d) f x →
          Represents n Q (nb d') (b d') f (fun i => ∑ j ∈ range (n * (nb d * Q)), I i j * x j)) ∧
      (∀ k, deg.length ≤ k → mg.operators k = none ∧ mg.interpolation k = none) ∧ mg.interpolation 0 = none ∧
      mg.cleanup.map some = (List.range (deg.length - 1)).reverse.map fun k => (mg.operators k).map Prod.fst := by
  have hl : 0 < deg.length := List.length_pos_iff.2 hne
  have hm' : deg.getD (deg.length - 1) 0 = m := by
    rw [List.getLast?_eq_getElem?] at hm
    rw [List.getD_eq_getElem?_getD, hm]; rfl
  have hbase : Galerkin n Q nb b m (deg.getD (deg.length - 1) 0) P P := by
    rw [hm']
    intro f h x y x' y' hx hy hx' hy'
    exact form_congr _ _ _ _ _ _ (represents_unique n Q nb b hb m f x x' hx hx') (represents_unique n Q nb b hb m h y y' hy hy')
  obtain ⟨mg, h1, h2, h3, h4, h5, h6, h7⟩ := levelLoop_spec Q nb b lop ht gids n hp deg hdeg m P (deg.length - 1) (by omega) P
    ⟨fun k => if k = deg.length - 1 then some (shell.getD P, P) else none, fun _ => none, []⟩ hbase
  refine ⟨mg, ?_, ?_, ?_, ?_, ?_, h6, h7⟩
  · unfold setupMG
    rw [if_neg (by omega)]
    exact h1
  · rw [h2 _ le_rfl]; simp
  · intro k d hk hd
    obtain ⟨A, a1, a2⟩ := h3 k (by omega)
    have : deg.getD k 0 = d := by rw [List.getD_eq_getElem?_getD, hd]; rfl
    rw [this] at a2
    exact ⟨A, a1, a2⟩
  · intro k d d' hd hd'
    obtain ⟨hk, _⟩ := List.getElem?_eq_some_iff.1 hd'
    obtain ⟨I, i1, i2⟩ := h5 k (by omega)
    have e1 : deg.getD k 0 = d := by rw [List.getD_eq_getElem?_getD, hd]; rfl
    have e2 : deg.getD (k + 1) 0 = d' := by rw [List.getD_eq_getElem?_getD, hd']; rfl
    rw [e1, e2] at i2
    exact ⟨I, i1, i2⟩
  · intro k hk
    rw [h2 k (by omega), h4 k (by omega)]
    exact ⟨if_neg (by omega), rfl⟩

theorem form_single (N : ℕ) (A : Mat) (i j : ℕ) (hi : i < N) (hj : j < N) :
    form N A (fun k => if k = i then 1 else 0) (fun k => if k = j then 1 else 0) = A i j := by
  unfold form
  rw [sum_eq_single i, sum_eq_single j]
  · simp
  · intro k _ hk; simp [hk]
  · intro h; exact absurd (mem_range.2 hj) h
  · intro k _ hk; simp [hk]
  · intro h; exact absurd (mem_range.2 hi) h

theorem form_symm (N : ℕ) (A : Mat) (h : ∀ i < N, ∀ j < N, A i j = A j i) (x y : ℕ → ℝ) : form N A x y = form N A y x := by
  unfold form
  rw [sum_comm]
  refine sum_congr rfl fun j hj => sum_congr rfl fun i hi => ?_
  rw [h i (mem_range.1 hi) j (mem_range.1 hj)]; ring

theorem spd_of_galerkin (Q : ℕ) (nb : ℕ → ℕ) (b : ℕ → ℕ → X → ℝ) (lop : ℕ → ℕ → Mat) (ht : Transfers Q nb b lop) (hb : Independent nb b)
    (n m d : ℕ) (hd : d ≤ m) (A' A : Mat) (h : Galerkin n Q nb b m d A' A) (hs : IsSPD (n * (nb m * Q)) A') : IsSPD (n * (nb d * Q)) A := by
  constructor
  · intro i hi j hj
    rw [← form_single _ A i j hi hj, ← form_single _ A j i hj hi]
    obtain ⟨f, x', f1, f2⟩ := exists_fine Q nb b lop ht n d m hd (fun k => if k = i then 1 else 0)
    obtain ⟨f', y', g1, g2⟩ := exists_fine Q nb b lop ht n d m hd (fun k => if k = j then 1 else 0)
    rw [h f f' _ _ x' y' f1 g1 f2 g2, h f' f _ _ y' x' g1 f1 g2 f2, form_symm _ _ hs.1]
  · rintro x ⟨i, hi, hxi⟩
    obtain ⟨f, x', f1, f2⟩ := exists_fine Q nb b lop ht n d m hd x
    rw [h f f x x x' x' f1 f1 f2 f2]
    refine hs.2 x' ?_
    by_contra hcon
    push Not at hcon
    have hz : Represents n Q (nb d) (b d) f (fun _ => 0) := by
      intro g hg p hp ξ
      rw [f2 g hg p hp ξ]
      simp only [zero_mul, sum_const_zero]
      refine sum_eq_zero fun l hl => ?_
      have hlt := quantity_lt (mem_range.1 hl) hp
      have : g * (nb m * Q) + (l + p * nb m) < n * (nb m * Q) := by
        calc _ < g * (nb m * Q) + nb m * Q := by omega
          _ = (g + 1) * (nb m * Q) := by ring
          _ ≤ _ := Nat.mul_le_mul_right _ hg
      rw [hcon _ this, zero_mul]
    exact hxi (represents_unique n Q nb b hb d f x _ f1 hz i hi)

/-- **C91 (coarse matrices)**: if the assembled matrix is symmetric and positive definite, so is the matrix of every level. -/
theorem C91_spd (Q : ℕ) (nb : ℕ → ℕ) (b : ℕ → ℕ → X → ℝ) (lop : ℕ → ℕ → Mat) (ht : Transfers Q nb b lop) (hb : Independent nb b)
    (gids : List ℕ) (n : ℕ) (hp : gids.Perm (List.range n)) (deg : List ℕ) (hdeg : deg.Pairwise (· < ·))
    (shell : Option Mat) (P : Mat) (m : ℕ) (hm : deg.getLast? = some m) (hP : IsSPD (n * (nb m * Q)) P) (mg : MG)
    (hmg : setupMG n gids (fun d => nb d * Q) lop shell P deg = some mg) (k d : ℕ) (hd : deg[k]? = some d) (A B : Mat)
    (hA : mg.operators k = some (A, B)) : IsSPD (n * (nb d * Q)) B ∧ (k + 1 < deg.length → A = B) := by
  have hne : deg ≠ [] := by rintro rfl; simp at hd
  obtain ⟨mg', h1, h2, h3, _⟩ := C91_hierarchy Q nb b lop ht hb gids n hp deg hne hdeg shell P m hm
  obtain rfl := Option.some.inj (hmg.symm.trans h1)
  obtain ⟨hk, hdk⟩ := List.getElem?_eq_some_iff.1 hd
  by_cases hl : k + 1 < deg.length
  · obtain ⟨A', a1, a2⟩ := h3 k d hl hd
    rw [hA] at a1
    obtain ⟨rfl, rfl⟩ := Prod.mk.inj (Option.some.inj a1)
    have hdm : d ≤ m := by
      rw [List.getLast?_eq_getElem?] at hm
      obtain ⟨_, e⟩ := List.getElem?_eq_some_iff.1 hm
      rw [← hdk, ← e]
      exact (List.pairwise_iff_getElem.1 hdeg k (deg.length - 1) (by omega) (by omega) (by omega)).le
    exact ⟨spd_of_galerkin Q nb b lop ht hb n m d hdm P _ a2 hP, fun _ => rfl⟩
  · have hk' : k = deg.length - 1 := by omega
    rw [hk', h2] at hA
    obtain ⟨_, rfl⟩ := Prod.mk.inj (Option.some.inj hA)
    have : d = m := by
      rw [List.getLast?_eq_getElem?, ← hk', hd] at hm
      exact Option.some.inj hm
    subst this
    exact ⟨hP, fun h => absurd h hl⟩

/-! ## The two local operators -/

open RefElement in
theorem transfers_modal (D Q : ℕ) (hD : 0 < D) : Transfers Q (nbf D) (fun d l => modalFunction D d l) (fun t f => modalInterpolation D t f Q) := by
  intro to_ from_ hlt u p hp ξ
  have := C83_modal D to_ from_ Q hD hlt.le u ⟨p, hp⟩ ξ
  rw [← Fin.sum_univ_eq_sum_range (fun k => (∑ col ∈ range (nbf D from_ * Q), modalInterpolation D to_ from_ Q (k + p * nbf D to_) col * u col) *
    modalFunction D to_ k ξ), ← Fin.sum_univ_eq_sum_range (fun l => u (l + p * nbf D from_) * modalFunction D from_ l ξ)]
  exact this

open RefElement in
theorem independent_modal (D : ℕ) (hD : D = 1 ∨ D = 2 ∨ D = 3) : Independent (nbf D) (fun d l => modalFunction D d l) := by
  intro d c h l hl
  obtain ⟨c', _, h2⟩ := (C78_modal_basis D d hD).2 (fun _ => 0) (isPoly_const D d 0)
  have e1 := h2 (fun i => c i) (fun x => by
    rw [← h x]; exact (Fin.sum_univ_eq_sum_range (fun l => c l * modalFunction D d l x) _).symm)
  have e2 := h2 (fun _ => 0) (fun x => by simp)
  have := congrFun (e1.trans e2.symm) ⟨l, hl⟩
  simpa using this

/-- Sets of nodes for which the nodal basis of every degree exists. -/
def GoodNodes (D : ℕ) (nodes : ℕ → List (Fin D → ℝ)) : Prop :=
  ∀ d, (nodes d).length = RefElement.nbf D d ∧ IsUnit (RefElement.vandermonde d (nodes d)).det

open RefElement in
theorem transfers_nodal (D Q : ℕ) (hD : D = 1 ∨ D = 2 ∨ D = 3) (nodes : ℕ → List (Fin D → ℝ)) (hn : GoodNodes D nodes) :
    Transfers Q (nbf D) (fun d l => nodalFunction d (nodes d) l) (fun t f => nodalInterpolation t f (nodes t) (nodes f) Q) := by
  intro to_ from_ hlt u p hp ξ
  obtain ⟨t1, t2⟩ := hn to_
  obtain ⟨f1, f2⟩ := hn from_
  set f : Fin Q → (Fin D → ℝ) → ℝ := fun p x => ∑ l : Fin (nbf D from_), u (l + p * nbf D from_) * nodalFunction from_ (nodes from_) l x with hf
  have hpoly : ∀ p, Spec.IsPoly D from_ (f p) := fun p => RefElement.isPoly_sum D from_ _ _ fun l _ =>
    RefElement.isPoly_const_mul D from_ _ _ (C78_lagrange D from_ (by omega) (nodes from_) f1 f2 l).1
  have hval : ∀ (p : Fin Q) (l : Fin (nbf D from_)), u (l.val + p.val * nbf D from_) = f p ((nodes from_)[l.val]'(by omega)) := by
    intro p l
    rw [hf]
    beta_reduce
    rw [sum_eq_single l]
    · rw [(C78_lagrange D from_ (by omega) (nodes from_) f1 f2 l).2 l, if_pos rfl, mul_one]
    · intro l' _ hne
      rw [(C78_lagrange D from_ (by omega) (nodes from_) f1 f2 l').2 l, if_neg hne, mul_zero]
    · intro h; exact absurd (mem_univ l) h
  rw [← Fin.sum_univ_eq_sum_range (fun k => (∑ col ∈ range (nbf D from_ * Q), nodalInterpolation to_ from_ (nodes to_) (nodes from_) Q (k + p * nbf D to_) col * u col) *
    nodalFunction to_ (nodes to_) k ξ), ← Fin.sum_univ_eq_sum_range (fun l => u (l + p * nbf D from_) * nodalFunction from_ (nodes from_) l ξ)]
  have hpt := RefElement.isPoly_mono D from_ to_ hlt.le _ (hpoly ⟨p, hp⟩)
  have := C78_reproduces D to_ hD (nodes to_) t1 t2 (f ⟨p, hp⟩) hpt ξ
  refine Eq.trans (sum_congr rfl fun k _ => ?_) this
  rw [← C83_nodal D to_ from_ Q hD hlt.le (nodes to_) (nodes from_) t1 f1 f2 f hpoly u hval ⟨p, hp⟩ k]

open RefElement in
theorem independent_nodal (D : ℕ) (hD : D = 1 ∨ D = 2 ∨ D = 3) (nodes : ℕ → List (Fin D → ℝ)) (hn : GoodNodes D nodes) :
    Independent (nbf D) (fun d l => nodalFunction d (nodes d) l) := by
  intro d c h l hl
  obtain ⟨t1, t2⟩ := hn d
  have := h ((nodes d)[l]'(by omega))
  rw [← Fin.sum_univ_eq_sum_range (fun l' => c l' * nodalFunction d (nodes d) l' ((nodes d)[l]'(by omega))), sum_eq_single ⟨l, hl⟩] at this
  · rw [(C78_lagrange D d (by omega) (nodes d) t1 t2 ⟨l, hl⟩).2 ⟨l, hl⟩, if_pos rfl, mul_one] at this
    exact this
  · intro l' _ hne
    rw [(C78_lagrange D d (by omega) (nodes d) t1 t2 l').2 ⟨l, hl⟩, if_neg hne, mul_zero]
  · intro h; exact absurd (mem_univ _) h

/-! ## The solver of the two applications -/

/-- **C91 (construction)**: for every strategy, coarse level, positive degree, number of elements and ranks, the constructor
succeeds; the outer solver gets the matrix-free operator if asked for, and always the assembled matrix for the
preconditioner.  With multigrid there are between two and `maxDegree + 1` levels; the form of the matrix of each level is that of the
assembled matrix on the functions of a degree that grows strictly with the level and ends at `maxDegree`. -/
theorem C91_construct (Q : ℕ) (nb : ℕ → ℕ) (b : ℕ → ℕ → X → ℝ) (lop : ℕ → ℕ → Mat) (ht : Transfers Q nb b lop) (hb : Independent nb b)
    (gids : List ℕ) (n : ℕ) (hp : gids.Perm (List.range n)) (s : MGConfig.Strategy) (hs : s ≠ .unknown) (coarse m : ℕ) (hm : 0 < m)
    (matrixFree pcIsMG : Bool) (shell P : Mat) :
    ∃ mg, construct n gids (fun d => nb d * Q) lop s coarse m matrixFree pcIsMG shell P = some ((if matrixFree then shell else P, P), mg) ∧
      (pcIsMG = false → mg = none) ∧
      (pcIsMG = true → ∃ (deg : List ℕ) (h : MG), mg = some h ∧ deg.Pairwise (· < ·) ∧ deg.getLast? = some m ∧ 2 ≤ deg.length ∧ deg.length ≤ m + 1 ∧
        (∀ k, (h.operators k).isSome ↔ k < deg.length) ∧
        h.operators (deg.length - 1) = some (if matrixFree then shell else P, P) ∧
        ∀ k d A B, deg[k]? = some d → h.operators k = some (A, B) →
          (∀ (f f' : ℕ → ℕ → X → ℝ) (x y x' y' : ℕ → ℝ), Represents n Q (nb d) (b d) f x → Represents n Q (nb d) (b d) f' y →
            Represents n Q (nb m) (b m) f x' → Represents n Q (nb m) (b m) f' y' →
            form (n * (nb d * Q)) B x y = form (n * (nb m * Q)) P x' y') ∧
          (IsSPD (n * (nb m * Q)) P → IsSPD (n * (nb d * Q)) B)) := by
  cases pcIsMG with
  | false => exact ⟨none, by cases matrixFree <;> rfl, fun _ => rfl, fun h => absurd h (by simp)⟩
  | true =>
    obtain ⟨c1, c2, c3, c4, c5⟩ := MGConfig.C46_levels s hs coarse m hm
    set deg := MGConfig.levels s coarse m with hdeg
    have hne : deg ≠ [] := by intro h; rw [h] at c5; simp at c5
    obtain ⟨mg, h1, h2, h3, h4, h5, h6, h7⟩ := C91_hierarchy Q nb b lop ht hb gids n hp deg hne c1 (if matrixFree then some shell else none) P m c3
    have hspd := fun hP k d hd A B hA => (C91_spd Q nb b lop ht hb gids n hp deg c1 (if matrixFree then some shell else none) P m c3 hP mg h1 k d hd A B hA).1
    refine ⟨some mg, ?_, fun h => absurd h (by simp), fun _ => ⟨deg, mg, rfl, c1, c3, c5, by omega, ?_, ?_, ?_⟩⟩
    · unfold construct
      rw [if_pos rfl, ← hdeg, h1]
      cases matrixFree <;> rfl
    · intro k
      constructor
      · intro h
        by_contra hk
        rw [(h5 k (by omega)).1] at h
        exact absurd h (by simp)
      · intro hk
        by_cases hk' : k + 1 < deg.length
        · obtain ⟨A, hA, _⟩ := h3 k _ hk' (List.getElem?_eq_getElem (by omega))
          rw [hA]; rfl
        · have : k = deg.length - 1 := by omega
          rw [this, h2]; rfl
    · rw [h2]; cases matrixFree <;> rfl
    · intro k d A B hd hA
      refine ⟨?_, fun hP => hspd hP k d hd A B hA⟩
      obtain ⟨hk, hdk⟩ := List.getElem?_eq_some_iff.1 hd
      by_cases hk' : k + 1 < deg.length
      · obtain ⟨A', a1, a2⟩ := h3 k d hk' hd
        rw [hA] at a1
        obtain ⟨rfl, rfl⟩ := Prod.mk.inj (Option.some.inj a1)
        exact a2
      · have hkl : k = deg.length - 1 := by omega
        rw [hkl, h2] at hA
        obtain ⟨_, rfl⟩ := Prod.mk.inj (Option.some.inj hA)
        have : d = m := by
          rw [List.getLast?_eq_getElem?, ← hkl, hd] at c3
          exact Option.some.inj c3
        subst this
        intro f h x y x' y' hx hy hx' hy'
        exact form_congr _ _ _ _ _ _ (represents_unique n Q nb b hb d f x x' hx hx') (represents_unique n Q nb b hb d h y y' hy hy')

/-- **C91 (Poisson)**: `C91_construct` applies to the modal interpolation of the Poisson operator, in dimension 1, 2, 3. -/
theorem C91_poisson (D Q : ℕ) (hD : D = 1 ∨ D = 2 ∨ D = 3) :
    Transfers Q (RefElement.nbf D) (fun d l => RefElement.modalFunction D d l) (fun t f => RefElement.modalInterpolation D t f Q) ∧
    Independent (RefElement.nbf D) (fun d l => RefElement.modalFunction D d l) :=
  ⟨transfers_modal D Q (by omega), independent_modal D hD⟩

/-- **C91 (elasticity)**: `C91_construct` applies to the nodal interpolation of the elasticity operator, for all sets of nodes with
invertible Vandermonde matrices. -/
theorem C91_elasticity (D Q : ℕ) (hD : D = 1 ∨ D = 2 ∨ D = 3) (nodes : ℕ → List (Fin D → ℝ)) (hn : GoodNodes D nodes) :
    Transfers Q (RefElement.nbf D) (fun d l => RefElement.nodalFunction d (nodes d) l)
      (fun t f => RefElement.nodalInterpolation t f (nodes t) (nodes f) Q) ∧
    Independent (RefElement.nbf D) (fun d l => RefElement.nodalFunction d (nodes d) l) :=
  ⟨transfers_nodal D Q hD nodes hn, independent_nodal D hD nodes hn⟩

/-- **C91, negative**: for degree 0 the two-level strategy asks for the interpolation from degree 0 to degree 0, and the
constructor throws. -/
theorem C91_degree_zero (n : ℕ) (gids : List ℕ) (bs : ℕ → ℕ) (lop : ℕ → ℕ → Mat) (coarse : ℕ) (matrixFree : Bool) (shell P : Mat) :
    construct n gids bs lop .twoLevel coarse 0 matrixFree true shell P = none := by
  unfold construct
  rw [MGConfig.C46_degree_zero]
  rfl

/-- **C91 (numbering)**: on every distributed mesh the global numbers of the own elements of all ranks are `0, 1, ..., n - 1`, so the
hypothesis on the numbers in the theorems above holds, and each rank owns the numbers `first .. last - 1` of `C91_preallocation`. -/
theorem C91_numbering (P D : ℕ) (elems : ℕ → List (List ℕ)) (num fnum tag : List ℕ → ℕ) (views : ℕ → DGTopo.View)
    (hd : IsDistributed P D elems num fnum tag views) :
    allGids P (fun r => (views r).numLocal) (fun r i => (views r).gid.getD i 0) = List.range (elemOffset elems P) ∧
    ∀ r < P, ∀ i < (views r).numLocal, elemOffset elems r ≤ (views r).gid.getD i 0 ∧ (views r).gid.getD i 0 < elemOffset elems (r + 1) := by
  have hgid : ∀ r < P, ∀ i < (elems r).length, (views r).gid.getD i 0 = elemOffset elems r + i := by
    intro r hr i hi
    have h := (hd.view r hr).ownGids
    have h2 := congrArg (fun l => l[i]?) h
    simp only [List.getElem?_take, if_pos hi, List.getElem?_map, List.getElem?_range hi, Option.map_some] at h2
    rw [List.getD_eq_getElem?_getD, h2]; rfl
  have hoff : ∀ r, elemOffset elems (r + 1) = elemOffset elems r + (elems r).length := by
    intro r; unfold elemOffset
    simp [List.range_succ]
  constructor
  · have key : ∀ Q, Q ≤ P → allGids Q (fun r => (views r).numLocal) (fun r i => (views r).gid.getD i 0) = List.range (elemOffset elems Q) := by
      intro Q
      induction Q with
      | zero => intro _; simp [allGids, elemOffset]
      | succ Q ih =>
        intro hQ
        have := ih (by omega)
        unfold allGids at this ⊢
        rw [List.range_succ, List.flatMap_append, this, hoff, List.range_add]
        congr 1
        simp only [List.flatMap_cons, List.flatMap_nil, List.append_nil]
        rw [(hd.view Q (by omega)).numLocal]
        refine List.map_congr_left fun i hi => ?_
        exact hgid Q (by omega) i (List.mem_range.1 hi)
    exact key P le_rfl
  · intro r hr i hi
    rw [(hd.view r hr).numLocal] at hi
    rw [hgid r hr i hi, hoff]
    omega

/-! ## Preallocation -/

/-- **C91 (preallocation)**: a row of the interpolation matrix has entries only in the `columnBlockSize` columns of its own element;
so with contiguous numbering of the elements of each rank, the preallocation is enough and no entry is in the columns of another
rank. -/
theorem C91_preallocation (gids : List ℕ) (bs : ℕ → ℕ) (lop : ℕ → ℕ → Mat) (to_ from_ : ℕ) (I : Mat) (ht : 0 < bs to_) (hf : 0 < bs from_)
    (hI : assembleInterpl gids bs lop to_ from_ = some I) (first last row : ℕ) (h1 : first * bs to_ ≤ row) (h2 : row < last * bs to_) :
    (∀ col, I row col ≠ 0 → first * bs from_ ≤ col ∧ col < last * bs from_) ∧
    {col | I row col ≠ 0}.ncard ≤ (preallocation (bs from_)).1 ∧
    {col | I row col ≠ 0 ∧ ¬ (first * bs from_ ≤ col ∧ col < last * bs from_)}.ncard = (preallocation (bs from_)).2 := by
  unfold assembleInterpl at hI
  split_ifs at hI
  obtain rfl := Option.some.inj hI
  have key : ∀ col, (gids.map fun g => if row / bs to_ = g ∧ col / bs from_ = g then lop to_ from_ (row % bs to_) (col % bs from_) else 0).sum ≠ 0 →
      col / bs from_ = row / bs to_ := by
    intro col h
    by_contra hne
    apply h
    refine List.sum_eq_zero fun v hv => ?_
    obtain ⟨g, _, rfl⟩ := List.mem_map.1 hv
    rw [if_neg]
    rintro ⟨a, b⟩
    exact hne (b.trans a.symm)
  have e1 : first ≤ row / bs to_ := (Nat.le_div_iff_mul_le ht).2 h1
  have e2 : row / bs to_ < last := (Nat.div_lt_iff_lt_mul ht).2 h2
  have hown : ∀ col, (gids.map fun g => if row / bs to_ = g ∧ col / bs from_ = g then lop to_ from_ (row % bs to_) (col % bs from_) else 0).sum ≠ 0 →
      first * bs from_ ≤ col ∧ col < last * bs from_ := by
    intro col h
    have := key col h
    rw [← this] at e1 e2
    exact ⟨(Nat.le_div_iff_mul_le hf).1 e1, (Nat.div_lt_iff_lt_mul hf).1 e2⟩
  refine ⟨hown, ?_, ?_⟩
  · have hsub : {col | (gids.map fun g => if row / bs to_ = g ∧ col / bs from_ = g then lop to_ from_ (row % bs to_) (col % bs from_) else 0).sum ≠ 0} ⊆
        ((Finset.range (bs from_)).image fun c => row / bs to_ * bs from_ + c : Finset ℕ) := by
      intro col h
      have := key col h
      simp only [coe_image, coe_range, Set.mem_image, Set.mem_Iio]
      refine ⟨col % bs from_, Nat.mod_lt _ hf, ?_⟩
      rw [← this, mul_comm]
      exact Nat.div_add_mod _ _
    refine (Set.ncard_le_ncard hsub (Finset.finite_toSet _)).trans ?_
    rw [Set.ncard_coe_finset]
    exact card_image_le.trans (by simp [preallocation])
  · have : {col | (gids.map fun g => if row / bs to_ = g ∧ col / bs from_ = g then lop to_ from_ (row % bs to_) (col % bs from_) else 0).sum ≠ 0 ∧
        ¬ (first * bs from_ ≤ col ∧ col < last * bs from_)} = ∅ := by
      ext col
      simp only [Set.mem_setOf_eq, Set.mem_empty_iff_false, iff_false, not_and, not_not]
      exact fun h hc => hc (hown col h).1 (hown col h).2
    rw [this]; simp [preallocation]

/-! ## Warm-up -/

/-- The path of a call. -/
def Call.path : Call → List ℕ
  | .kspSetUp p | .kspSetUpOnBlocks p | .pcSetUp p | .pcSetUpOnBlocks p => p

/-- The two calls for a part of the tree. -/
def callsAt (b : Bool) (path : List ℕ) : List Call :=
  if b then [.kspSetUp path, .kspSetUpOnBlocks path] else [.pcSetUp path, .pcSetUpOnBlocks path]

mutual
theorem mem_sub : ∀ (pc : PC) (path : List ℕ) (c : Call), c ∈ warmupSubPcs pc path ↔ ∃ s b q, PartOf pc s b q ∧ c ∈ callsAt b (path ++ s)
  | .composite subs, path, c => by
    rw [warmupSubPcs, mem_comp subs path 0 c]
    constructor
    · rintro ⟨k, pc, hk, h⟩
      rw [Nat.zero_add] at h
      rcases h with h | ⟨s, b, q, h, hc⟩
      · exact ⟨[k], false, pc, .composite hk, h⟩
      · exact ⟨k :: s, b, q, .inComposite hk h, hc⟩
    · rintro ⟨s, b, q, h, hc⟩
      cases h with
      | composite hk => exact ⟨_, _, hk, Or.inl (by rw [Nat.zero_add]; exact hc)⟩
      | inComposite hk h => exact ⟨_, _, hk, Or.inr ⟨_, _, _, h, by rw [Nat.zero_add]; exact hc⟩⟩
  | .mg subs, path, c => by
    rw [warmupSubPcs, mem_mg subs path 0 c]
    constructor
    · rintro ⟨k, pc, hk, h⟩
      rw [Nat.zero_add] at h
      rcases h with h | ⟨s, b, q, h, hc⟩
      · exact ⟨[k], true, pc, .mg hk, h⟩
      · exact ⟨k :: s, b, q, .inMG hk h, hc⟩
    · rintro ⟨s, b, q, h, hc⟩
      cases h with
      | mg hk => exact ⟨_, _, hk, Or.inl (by rw [Nat.zero_add]; exact hc)⟩
      | inMG hk h => exact ⟨_, _, hk, Or.inr ⟨_, _, _, h, by rw [Nat.zero_add]; exact hc⟩⟩
  | .other, path, c => by
    rw [warmupSubPcs]
    constructor
    · intro h; simp at h
    · rintro ⟨s, b, q, h, _⟩; cases h
theorem mem_comp : ∀ (subs : List PC) (path : List ℕ) (k0 : ℕ) (c : Call), c ∈ warmupComposite subs path k0 ↔
    ∃ k pc, subs[k]? = some pc ∧ (c ∈ callsAt false (path ++ [k0 + k]) ∨ ∃ s b q, PartOf pc s b q ∧ c ∈ callsAt b (path ++ (k0 + k) :: s))
  | [], path, k0, c => by simp [warmupComposite]
  | sub :: subs, path, k0, c => by
    have e : ∀ s, path ++ [k0] ++ s = path ++ k0 :: s := by simp
    have e2 : ∀ k, k0 + 1 + k = k0 + (k + 1) := by intro k; omega
    rw [warmupComposite, List.cons_append, List.cons_append, List.mem_cons, List.mem_cons, List.mem_append, mem_sub sub (path ++ [k0]) c, mem_comp subs path (k0 + 1) c]
    simp only [e, e2]
    constructor
    · rintro (h | h | h | ⟨k, pc, hk, h⟩)
      · exact ⟨0, sub, rfl, Or.inl (by simp [callsAt, h])⟩
      · exact ⟨0, sub, rfl, Or.inl (by simp [callsAt, h])⟩
      · exact ⟨0, sub, rfl, Or.inr h⟩
      · exact ⟨k + 1, pc, hk, h⟩
    · rintro ⟨k, pc, hk, h⟩
      cases k with
      | zero =>
        obtain rfl := Option.some.inj hk
        rcases h with h | h
        · simp only [callsAt, add_zero, Bool.false_eq_true, if_false, List.mem_cons, List.not_mem_nil, or_false] at h
          rcases h with h | h
          · exact Or.inl h
          · exact Or.inr (Or.inl h)
        · exact Or.inr (Or.inr (Or.inl h))
      | succ k => exact Or.inr (Or.inr (Or.inr ⟨k, pc, hk, h⟩))
theorem mem_mg : ∀ (subs : List PC) (path : List ℕ) (k0 : ℕ) (c : Call), c ∈ warmupMG subs path k0 ↔
    ∃ k pc, subs[k]? = some pc ∧ (c ∈ callsAt true (path ++ [k0 + k]) ∨ ∃ s b q, PartOf pc s b q ∧ c ∈ callsAt b (path ++ (k0 + k) :: s))
  | [], path, k0, c => by simp [warmupMG]
  | sub :: subs, path, k0, c => by
    have e : ∀ s, path ++ [k0] ++ s = path ++ k0 :: s := by simp
    have e2 : ∀ k, k0 + 1 + k = k0 + (k + 1) := by intro k; omega
    rw [warmupMG, List.cons_append, List.cons_append, List.mem_cons, List.mem_cons, List.mem_append, mem_sub sub (path ++ [k0]) c, mem_mg subs path (k0 + 1) c]
    simp only [e, e2]
    constructor
    · rintro (h | h | h | ⟨k, pc, hk, h⟩)
      · exact ⟨0, sub, rfl, Or.inl (by simp [callsAt, h])⟩
      · exact ⟨0, sub, rfl, Or.inl (by simp [callsAt, h])⟩
      · exact ⟨0, sub, rfl, Or.inr h⟩
      · exact ⟨k + 1, pc, hk, h⟩
    · rintro ⟨k, pc, hk, h⟩
      cases k with
      | zero =>
        obtain rfl := Option.some.inj hk
        rcases h with h | h
        · simp only [callsAt, add_zero, if_true, List.mem_cons, List.not_mem_nil, or_false] at h
          rcases h with h | h
          · exact Or.inl h
          · exact Or.inr (Or.inl h)
        · exact Or.inr (Or.inr (Or.inl h))
      | succ k => exact Or.inr (Or.inr (Or.inr ⟨k, pc, hk, h⟩))
end

/-- Order of two calls: for a smaller path first (a solver before its parts, parts in increasing order), and for the same path the set-up
before the set-up of the blocks. -/
def Before (a b : Call) : Prop :=
  a.path < b.path ∨ ∃ p, (a = .kspSetUp p ∧ b = .kspSetUpOnBlocks p) ∨ (a = .pcSetUp p ∧ b = .pcSetUpOnBlocks p)

theorem path_callsAt {b : Bool} {p : List ℕ} {c : Call} (h : c ∈ callsAt b p) : c.path = p := by
  cases b <;> simp [callsAt] at h <;> rcases h with rfl | rfl <;> rfl

theorem lt_append (p : List ℕ) (k : ℕ) (s : List ℕ) : p < p ++ k :: s := by
  induction p with
  | nil => exact List.nil_lt_cons k s
  | cons a p ih => rw [List.cons_append, List.cons_lt_cons_iff]; exact Or.inr ⟨rfl, ih⟩

theorem append_lt (p : List ℕ) {k k' : ℕ} (h : k < k') (s s' : List ℕ) : p ++ k :: s < p ++ k' :: s' := by
  induction p with
  | nil => rw [List.nil_append, List.nil_append, List.cons_lt_cons_iff]; exact Or.inl h
  | cons a p ih => rw [List.cons_append, List.cons_append, List.cons_lt_cons_iff]; exact Or.inr ⟨rfl, ih⟩

theorem path_sub {pc : PC} {path : List ℕ} {c : Call} (h : c ∈ warmupSubPcs pc path) : ∃ k s, c.path = path ++ k :: s := by
  obtain ⟨s, b, q, hp, hc⟩ := (mem_sub pc path c).1 h
  rw [path_callsAt hc]
  cases hp with
  | composite _ => exact ⟨_, [], rfl⟩
  | mg _ => exact ⟨_, [], rfl⟩
  | inComposite _ _ => exact ⟨_, _, rfl⟩
  | inMG _ _ => exact ⟨_, _, rfl⟩

theorem path_comp {subs : List PC} {path : List ℕ} {k0 : ℕ} {c : Call} (h : c ∈ warmupComposite subs path k0) : ∃ k s, k0 ≤ k ∧ c.path = path ++ k :: s := by
  obtain ⟨k, pc, _, h | ⟨s, b, q, _, h⟩⟩ := (mem_comp subs path k0 c).1 h
  · exact ⟨k0 + k, [], by omega, path_callsAt h⟩
  · exact ⟨k0 + k, s, by omega, path_callsAt h⟩

theorem path_mg {subs : List PC} {path : List ℕ} {k0 : ℕ} {c : Call} (h : c ∈ warmupMG subs path k0) : ∃ k s, k0 ≤ k ∧ c.path = path ++ k :: s := by
  obtain ⟨k, pc, _, h | ⟨s, b, q, _, h⟩⟩ := (mem_mg subs path k0 c).1 h
  · exact ⟨k0 + k, [], by omega, path_callsAt h⟩
  · exact ⟨k0 + k, s, by omega, path_callsAt h⟩

mutual
theorem order_sub : ∀ (pc : PC) (path : List ℕ), (warmupSubPcs pc path).Pairwise Before
  | .composite subs, path => by rw [warmupSubPcs]; exact order_comp subs path 0
  | .mg subs, path => by rw [warmupSubPcs]; exact order_mg subs path 0
  | .other, path => by rw [warmupSubPcs]; exact List.Pairwise.nil
theorem order_comp : ∀ (subs : List PC) (path : List ℕ) (k0 : ℕ), (warmupComposite subs path k0).Pairwise Before
  | [], path, k0 => by rw [warmupComposite]; exact List.Pairwise.nil
  | sub :: subs, path, k0 => by
    have hlt : ∀ c ∈ warmupSubPcs sub (path ++ [k0]) ++ warmupComposite subs path (k0 + 1), path ++ [k0] < c.path := by
      intro c hc
      rcases List.mem_append.1 hc with hc | hc
      · obtain ⟨k, s, e⟩ := path_sub hc
        rw [e]; exact lt_append _ _ _
      · obtain ⟨k, s, hk, e⟩ := path_comp hc
        rw [e]; exact append_lt path (by omega) [] s
    rw [warmupComposite, List.cons_append, List.cons_append, List.pairwise_cons, List.pairwise_cons, List.pairwise_append]
    refine ⟨?_, fun c hc => Or.inl (hlt c hc), order_sub sub _, order_comp subs path (k0 + 1), ?_⟩
    · intro c hc
      rcases List.mem_cons.1 hc with rfl | hc
      · exact Or.inr ⟨_, Or.inr ⟨rfl, rfl⟩⟩
      · exact Or.inl (hlt c hc)
    · intro a ha c hc
      obtain ⟨k, s, e⟩ := path_sub ha
      obtain ⟨k', s', hk, e'⟩ := path_comp hc
      refine Or.inl ?_
      rw [e, e', List.append_assoc]
      exact append_lt path (by omega) _ _
theorem order_mg : ∀ (subs : List PC) (path : List ℕ) (k0 : ℕ), (warmupMG subs path k0).Pairwise Before
  | [], path, k0 => by rw [warmupMG]; exact List.Pairwise.nil
  | sub :: subs, path, k0 => by
    have hlt : ∀ c ∈ warmupSubPcs sub (path ++ [k0]) ++ warmupMG subs path (k0 + 1), path ++ [k0] < c.path := by
      intro c hc
      rcases List.mem_append.1 hc with hc | hc
      · obtain ⟨k, s, e⟩ := path_sub hc
        rw [e]; exact lt_append _ _ _
      · obtain ⟨k, s, hk, e⟩ := path_mg hc
        rw [e]; exact append_lt path (by omega) [] s
    rw [warmupMG, List.cons_append, List.cons_append, List.pairwise_cons, List.pairwise_cons, List.pairwise_append]
    refine ⟨?_, fun c hc => Or.inl (hlt c hc), order_sub sub _, order_mg subs path (k0 + 1), ?_⟩
    · intro c hc
      rcases List.mem_cons.1 hc with rfl | hc
      · exact Or.inr ⟨_, Or.inl ⟨rfl, rfl⟩⟩
      · exact Or.inl (hlt c hc)
    · intro a ha c hc
      obtain ⟨k, s, e⟩ := path_sub ha
      obtain ⟨k', s', hk, e'⟩ := path_mg hc
      refine Or.inl ?_
      rw [e, e', List.append_assoc]
      exact append_lt path (by omega) _ _
end

/-- **C91 (warm-up)**: for every tree of preconditioners, `warmup` sets up the outer solver, every smoother of every multigrid
and every part of every composite, at any depth, each exactly once with its blocks, and nothing else; each solver before its parts. -/
theorem C91_warmup (pc : PC) :
    (∀ path, (Call.kspSetUp path ∈ warmup pc ↔ path = [] ∨ ∃ q, PartOf pc path true q) ∧
      (Call.kspSetUpOnBlocks path ∈ warmup pc ↔ path = [] ∨ ∃ q, PartOf pc path true q) ∧
      (Call.pcSetUp path ∈ warmup pc ↔ ∃ q, PartOf pc path false q) ∧
      (Call.pcSetUpOnBlocks path ∈ warmup pc ↔ ∃ q, PartOf pc path false q)) ∧
    (warmup pc).Pairwise Before ∧ (warmup pc).Nodup := by
  have hord : (warmup pc).Pairwise Before := by
    unfold warmup
    have hlt : ∀ c ∈ warmupSubPcs pc [], [] < c.path := by
      intro c hc
      obtain ⟨k, s, e⟩ := path_sub hc
      rw [e]; exact lt_append _ _ _
    rw [List.pairwise_cons, List.pairwise_cons]
    refine ⟨?_, fun c hc => Or.inl (hlt c hc), order_sub pc []⟩
    intro c hc
    rcases List.mem_cons.1 hc with rfl | hc
    · exact Or.inr ⟨_, Or.inl ⟨rfl, rfl⟩⟩
    · exact Or.inl (hlt c hc)
  refine ⟨fun path => ?_, hord, ?_⟩
  · have hmem : ∀ c, c ∈ warmup pc ↔ c ∈ callsAt true [] ∨ ∃ s b q, PartOf pc s b q ∧ c ∈ callsAt b s := by
      intro c
      unfold warmup
      rw [List.mem_cons, List.mem_cons, mem_sub pc [] c]
      simp only [List.nil_append, callsAt, if_true, List.mem_cons, List.not_mem_nil, or_false, or_assoc]
    simp only [hmem]
    simp [callsAt]
  · refine List.Pairwise.imp ?_ hord
    rintro a b (h | ⟨p, ⟨rfl, rfl⟩ | ⟨rfl, rfl⟩⟩) hab
    · subst hab; exact lt_irrefl _ h
    · cases hab
    · cases hab

/-! ## The hypotheses can be met -/

/-- Three elements on two ranks, two quantities on triangles, degree 3 with all levels, matrix-free: the constructor succeeds. -/
example : ∃ mg, construct 3 (allGids 2 (fun r => 2 - r) (fun r i => 2 * r + i)) (fun d => RefElement.nbf 2 d * 2)
    (fun t f => RefElement.modalInterpolation 2 t f 2) .full 1 3 true true (fun i j => if i = j then 2 else 0) (fun i j => if i = j then 1 else 0) = some mg := by
  obtain ⟨h1, h2⟩ := C91_poisson 2 2 (by simp)
  obtain ⟨mg, h, _⟩ := C91_construct 2 _ _ _ h1 h2 (allGids 2 (fun r => 2 - r) (fun r i => 2 * r + i)) 3 (List.Perm.refl _) .full (by decide) 1 3 (by norm_num) true true
    (fun i j => if i = j then 2 else 0) (fun i j => if i = j then 1 else 0)
  exact ⟨_, h⟩

/-- Nodes with invertible Vandermonde matrices on the line, degree 0 included. -/
example : GoodNodes 1 (fun d => (List.range (d + 1)).map fun (i : ℕ) (_ : Fin 1) => (i : ℝ)) := fun d => by
  refine ⟨by simp [RefElement.nbf], RefElement.C78_line_nodes d _ (by simp) ?_⟩
  refine (List.nodup_map_iff_inj_on List.nodup_range).2 fun i _ j _ h => ?_
  have := congrFun h 0
  exact_mod_cast this

/-- The identity is symmetric and positive definite. -/
example (N : ℕ) : IsSPD N (fun i j => if i = j then 1 else 0) := by
  refine ⟨fun i _ j _ => by simp [eq_comm], ?_⟩
  rintro x ⟨i, hi, hx⟩
  have : form N (fun i j => if i = j then 1 else 0) x x = ∑ i ∈ range N, x i * x i := by
    unfold form
    refine sum_congr rfl fun i hi => ?_
    simp [mem_range.1 hi]
  rw [this]
  exact sum_pos' (fun j _ => mul_self_nonneg _) ⟨i, mem_range.2 hi, mul_self_pos.2 hx⟩

end Tandem.LinearSolver
