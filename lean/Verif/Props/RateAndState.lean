import Verif.Model.RateAndState
/-! # Property C64: the friction operator on blocks -/
namespace Tandem.RateAndState

variable {R X : Type}

theorem pos_mod {nbf node q : Nat} (h : node < nbf) : pos nbf node q % nbf = node := by
  unfold pos; rw [Nat.add_mul_mod_self_right, Nat.mod_eq_of_lt h]

theorem pos_inj {nbf node node' q q' : Nat} (h : node < nbf) (h' : node' < nbf) (he : pos nbf node q = pos nbf node' q') :
    node = node' ∧ q = q' := by
  have h1 : node = node' := by rw [← pos_mod (q := q) h, ← pos_mod (q := q') h', he]
  subst h1
  unfold pos at he
  have : q * nbf = q' * nbf := by omega
  exact ⟨rfl, Nat.eq_of_mul_eq_mul_right (by omega) this⟩

theorem writeVec_spec {nbf node : Nat} (h : node < nbf) (m : Nat → R) (q0 : Nat) (vs : List R) :
    (∀ j, j % nbf ≠ node → writeVec m nbf node q0 vs j = m j) ∧
    (∀ q, writeVec m nbf node q0 vs (pos nbf node q) = if q0 ≤ q then (vs[q - q0]?).getD (m (pos nbf node q)) else m (pos nbf node q)) := by
  induction vs generalizing m q0 with
  | nil => simp [writeVec]
  | cons v vs ih =>
    obtain ⟨h1, h2⟩ := ih (write m (pos nbf node q0) v) (q0 + 1)
    constructor
    · intro j hj
      rw [writeVec, h1 j hj, write, if_neg]
      intro he; rw [he, pos_mod h] at hj; exact hj rfl
    · intro q
      rw [writeVec, h2 q]
      unfold write
      by_cases hq : q0 = q
      · subst hq; rw [if_neg (by omega)]; simp
      · rw [if_neg (fun he => hq (pos_inj h h he).2.symm)]
        by_cases hle : q0 ≤ q
        · rw [if_pos (by omega), if_pos hle, show q - q0 = (q - (q0 + 1)) + 1 by omega]; simp
        · rw [if_neg (by omega), if_neg hle]

/-- A step that touches and reads only the entries of its node. -/
structure Local (nbf : Nat) (step : (Nat → R) → Nat → (Nat → R)) : Prop where
  writes : ∀ m node j, node < nbf → j % nbf ≠ node → step m node j = m j
  reads : ∀ m m' node, node < nbf → (∀ j, j % nbf = node → m j = m' j) → ∀ j, j % nbf = node → step m node j = step m' node j

theorem fold_nodes {nbf : Nat} {step : (Nat → R) → Nat → (Nat → R)} (hs : Local nbf step) (m : Nat → R) (n : Nat) (hn : n ≤ nbf) :
    ∀ j, (List.range n).foldl step m j = if j % nbf < n then step m (j % nbf) j else m j := by
  induction n with
  | zero => intro j; simp
  | succ n ih =>
    intro j
    rw [List.range_succ, List.foldl_append, List.foldl_cons, List.foldl_nil]
    by_cases hj : j % nbf = n
    · rw [if_pos (by omega), hj]
      refine hs.reads _ _ n (by omega) (fun j' hj' => ?_) j hj
      rw [ih (by omega) j', if_neg (by omega)]
    · rw [hs.writes _ n j (by omega) hj, ih (by omega) j]
      by_cases hlt : j % nbf < n
      · rw [if_pos hlt, if_pos (by omega)]
      · rw [if_neg hlt, if_neg (by omega)]

theorem foldl_fst {A B : Type} (f : A → Nat → A) (g : B → Nat → B) (l : List Nat) (a : A) (b : B) (F : A × B → Nat → A × B)
    (hF : ∀ p n, F p n = (f p.1 n, g p.2 n)) : l.foldl F (a, b) = (l.foldl f a, l.foldl g b) := by
  induction l generalizing a b with
  | nil => rfl
  | cons n l ih => rw [List.foldl_cons, hF, ih]; rfl

/-- `V` is the largest of the values `v`, or `zero` if none is larger; comparisons with NaN are false. -/
def IsLargest (lt : R → R → Bool) (zero V : R) (n : Nat) (v : Nat → R) : Prop :=
  (V = zero ∨ ∃ i, i < n ∧ V = v i) ∧ lt V zero = false ∧ ∀ i, i < n → lt V (v i) = false

theorem largest (ar : Arith R) (hirr : ∀ a, ar.lt a a = false) (htr : ∀ a b c, ar.lt a b = true → ar.lt b c = true → ar.lt a c = true)
    (v : Nat → R) (n : Nat) : IsLargest ar.lt ar.zero ((List.range n).foldl (fun a i => maxR ar a (v i)) ar.zero) n v := by
  induction n with
  | zero => exact ⟨Or.inl rfl, hirr _, fun i hi => absurd hi (Nat.not_lt_zero _)⟩
  | succ n ih =>
    obtain ⟨h1, h2, h3⟩ := ih
    rw [List.range_succ, List.foldl_append, List.foldl_cons, List.foldl_nil]
    generalize (List.range n).foldl (fun a i => maxR ar a (v i)) ar.zero = V at *
    unfold maxR
    split
    · rename_i hlt
      have key : ∀ x, ar.lt V x = false → ar.lt (v n) x = false := by
        intro x hx
        cases hc : ar.lt (v n) x with
        | false => rfl
        | true => rw [htr _ _ _ hlt hc] at hx; cases hx
      refine ⟨Or.inr ⟨n, Nat.lt_succ_self n, rfl⟩, key _ h2, ?_⟩
      intro i hi
      rcases Nat.lt_succ_iff_lt_or_eq.1 hi with h | h
      · exact key _ (h3 i h)
      · rw [h]; exact hirr _
    · rename_i hlt
      refine ⟨?_, h2, ?_⟩
      · rcases h1 with h | ⟨i, hi, h⟩
        · exact Or.inl h
        · exact Or.inr ⟨i, by omega, h⟩
      · intro i hi
        rcases Nat.lt_succ_iff_lt_or_eq.1 hi with h | h
        · exact h3 i h
        · rw [h]; simpa using hlt

/-- `e` is the largest of the error numbers. -/
def IsWorst (e n : Nat) (err : Nat → Nat) : Prop := (∀ i, i < n → err i ≤ e) ∧ (e = 0 ∨ ∃ i, i < n ∧ e = err i)

theorem worst (err : Nat → Nat) (n : Nat) : IsWorst ((List.range n).foldl (fun a i => if a < err i then err i else a) 0) n err := by
  induction n with
  | zero => exact ⟨fun i hi => absurd hi (Nat.not_lt_zero _), Or.inl rfl⟩
  | succ n ih =>
    obtain ⟨h1, h2⟩ := ih
    rw [List.range_succ, List.foldl_append, List.foldl_cons, List.foldl_nil]
    generalize (List.range n).foldl (fun a i => if a < err i then err i else a) 0 = e at *
    split
    · rename_i hlt
      refine ⟨fun i hi => ?_, Or.inr ⟨n, Nat.lt_succ_self n, rfl⟩⟩
      rcases Nat.lt_succ_iff_lt_or_eq.1 hi with h | h
      · have := h1 i h; omega
      · rw [h]; exact Nat.le_refl _
    · rename_i hlt
      refine ⟨fun i hi => ?_, ?_⟩
      · rcases Nat.lt_succ_iff_lt_or_eq.1 hi with h | h
        · exact h1 i h
        · rw [h]; omega
      · rcases h2 with h | ⟨i, hi, h⟩
        · exact Or.inl h
        · exact Or.inr ⟨i, by omega, h⟩

/-- Comparison of `double`: no number is smaller than itself, and the order is transitive. -/
structure IsOrder (lt : R → R → Bool) : Prop where
  irrefl : ∀ a, lt a a = false
  trans : ∀ a b c, lt a b = true → lt b c = true → lt a c = true

/-- The laws return vectors with one entry per tangential direction. -/
structure Sized (o : Op R X) : Prop where
  slip : ∀ i f sn tau psi x, (o.law.slip_rate i f sn tau psi x).1.length = o.T
  start : ∀ i, (o.law.S_init i).length = o.T
  tau : ∀ i tau V, V.length = o.T → (o.law.tau_hat i tau V).length = o.T

/-- The normal stress the law is to see: component 0 of the traction and the perturbation at the node. -/
def sigma (o : Op R X) (time : R) (f : Nat) (traction : Nat → Nat → R) (node : Nat) : R :=
  match o.delta_sn with
  | some d => o.ar.add (traction node 0) (d (o.coords f node) time)
  | none => traction node 0

/-- The shear stress the law is to see: components 1 to `T` of the traction and the perturbation at the node. -/
def shear (o : Op R X) (time : R) (f : Nat) (traction : Nat → Nat → R) (node : Nat) : List R :=
  match o.delta_tau with
  | some d => List.zipWith o.ar.add ((List.range o.T).map (fun t => traction node (t + 1))) (d (o.coords f node) time)
  | none => (List.range o.T).map (fun t => traction node (t + 1))

/-- What the law answers at a node for state variable `psi`. -/
def answer (o : Op R X) (time : R) (f : Nat) (traction : Nat → Nat → R) (psi : R) (node : Nat) : List R × Nat :=
  o.law.slip_rate (f * o.nbf + node) f (sigma o time f traction node) (shear o time f traction node) psi (o.coords f node)

/-- A block as a matrix with `nbf` rows. -/
def asMatrix (nbf : Nat) (m : Nat → R) : Nat → Nat → R := fun node q => m (node + q * nbf)

theorem snAt_eq (o : Op R X) (time : R) (f : Nat) (tr : Nat → R) (node : Nat) : snAt o time f tr node = sigma o time f (asMatrix o.nbf tr) node := rfl

theorem tauAt_eq (o : Op R X) (time : R) (f : Nat) (tr : Nat → R) (node : Nat) : tauAt o time f tr node = shear o time f (asMatrix o.nbf tr) node := by
  unfold tauAt shear vadd; rfl

theorem take_of_length {l : List R} {n : Nat} (h : l.length = n) : l.take n = l := by rw [← h, List.take_length]

theorem write_other {nbf node : Nat} (h : node < nbf) (m : Nat → R) (q : Nat) (v : R) (j : Nat) (hj : j % nbf ≠ node) :
    write m (pos nbf node q) v j = m j := by
  unfold write; rw [if_neg]; intro he; rw [he, pos_mod h] at hj; exact hj rfl

theorem write_pos {nbf node : Nat} (h : node < nbf) (m : Nat → R) (q : Nat) (v : R) (q' : Nat) :
    write m (pos nbf node q) v (pos nbf node q') = if q' = q then v else m (pos nbf node q') := by
  unfold write
  by_cases hq : q' = q
  · subst hq; rw [if_pos rfl, if_pos rfl]
  · rw [if_neg hq, if_neg (fun he => hq (pos_inj h h he).2)]

theorem pos_of_mod {nbf node j : Nat} (hj : j % nbf = node) : j = pos nbf node (j / nbf) := by
  unfold pos; have := Nat.mod_add_div j nbf; rw [hj, Nat.mul_comm] at this; omega

theorem local_write {nbf : Nat} (q : Nat) (v : Nat → R) : Local nbf (fun m node => write m (pos nbf node q) (v node)) where
  writes := fun m node j h hj => write_other h m q _ j hj
  reads := by
    intro m m' node h hm j hj
    rw [pos_of_mod hj, write_pos h, write_pos h, hm _ (pos_mod h)]

theorem local_writeVec {nbf : Nat} (q : Nat) (v : Nat → List R) : Local nbf (fun m node => writeVec m nbf node q (v node)) where
  writes := fun m node j h hj => (writeVec_spec h m q (v node)).1 j hj
  reads := by
    intro m m' node h hm j hj
    rw [pos_of_mod hj, (writeVec_spec h m q (v node)).2, (writeVec_spec h m' q (v node)).2, hm _ (pos_mod h)]

theorem local_comp {nbf : Nat} {s t : (Nat → R) → Nat → (Nat → R)} (hs : Local nbf s) (ht : Local nbf t) :
    Local nbf (fun m node => t (s m node) node) where
  writes := fun m node j h hj => by rw [ht.writes _ node j h hj, hs.writes _ node j h hj]
  reads := by
    intro m m' node h hm j hj
    exact ht.reads _ _ node h (fun j' hj' => hs.reads _ _ node h hm j' hj') j hj

theorem fold_pos {nbf : Nat} {step : (Nat → R) → Nat → (Nat → R)} (hs : Local nbf step) (m : Nat → R) (node q : Nat) (h : node < nbf) :
    (List.range nbf).foldl step m (pos nbf node q) = step m node (pos nbf node q) := by
  rw [fold_nodes hs m nbf (Nat.le_refl _), pos_mod h, if_pos h]

/-- **C64 (initial slip)**: the block gets the initial slip of its nodes; nothing else changes. -/
theorem C64_pre_init (o : Op R X) (hs : Sized o) (f : Nat) (state : Nat → R) (node : Nat) (h : node < o.nbf) (q : Nat) :
    asMatrix o.nbf (preInit o f state) node q = if q < o.T then ((o.law.S_init (f * o.nbf + node))[q]?).getD (asMatrix o.nbf state node q) else asMatrix o.nbf state node q := by
  have hl : Local o.nbf (fun (s : Nat → R) node => writeVec s o.nbf node 0 ((o.law.S_init (f * o.nbf + node)).take o.T)) := local_writeVec 0 _
  change preInit o f state (pos o.nbf node q) = _
  unfold preInit
  rw [fold_pos hl _ node q h, (writeVec_spec h _ _ _).2, take_of_length (hs.start _), if_pos (Nat.zero_le _), Nat.sub_zero]
  split
  · rfl
  · rw [List.getElem?_eq_none (by rw [hs.start]; omega)]; rfl

theorem init_parts (o : Op R X) (time : R) (f : Nat) (tr state : Nat → R) :
    init o time f tr state =
      ((List.range o.nbf).foldl (fun m node => write m (pos o.nbf node o.T)
          (o.law.psi_init (f * o.nbf + node) (sigma o time f (asMatrix o.nbf tr) node) (shear o time f (asMatrix o.nbf tr) node))) state,
        (List.range o.nbf).foldl (fun a node => maxR o.ar a (o.ar.norm (answer o time f (asMatrix o.nbf tr)
          (o.law.psi_init (f * o.nbf + node) (sigma o time f (asMatrix o.nbf tr) node) (shear o time f (asMatrix o.nbf tr) node)) node).1)) o.ar.zero,
        (List.range o.nbf).foldl (fun a node => if a < (answer o time f (asMatrix o.nbf tr)
          (o.law.psi_init (f * o.nbf + node) (sigma o time f (asMatrix o.nbf tr) node) (shear o time f (asMatrix o.nbf tr) node)) node).2 then
          (answer o time f (asMatrix o.nbf tr)
          (o.law.psi_init (f * o.nbf + node) (sigma o time f (asMatrix o.nbf tr) node) (shear o time f (asMatrix o.nbf tr) node)) node).2 else a) 0) := by
  unfold init
  rw [foldl_fst (A := Nat → R) (B := R × Nat)
    (fun m node => write m (pos o.nbf node o.T)
      (o.law.psi_init (f * o.nbf + node) (sigma o time f (asMatrix o.nbf tr) node) (shear o time f (asMatrix o.nbf tr) node)))
    (fun p node => (maxR o.ar p.1 (o.ar.norm (answer o time f (asMatrix o.nbf tr)
      (o.law.psi_init (f * o.nbf + node) (sigma o time f (asMatrix o.nbf tr) node) (shear o time f (asMatrix o.nbf tr) node)) node).1),
      if p.2 < (answer o time f (asMatrix o.nbf tr)
      (o.law.psi_init (f * o.nbf + node) (sigma o time f (asMatrix o.nbf tr) node) (shear o time f (asMatrix o.nbf tr) node)) node).2 then
      (answer o time f (asMatrix o.nbf tr)
      (o.law.psi_init (f * o.nbf + node) (sigma o time f (asMatrix o.nbf tr) node) (shear o time f (asMatrix o.nbf tr) node)) node).2 else p.2))]
  · congr 1
    exact foldl_fst _ _ _ _ _ _ (fun _ _ => rfl)
  · intro p n; simp only [snAt_eq, tauAt_eq]; rfl

/-- **C64 (initial state)**: the state variable of every node is initialised from the stress of that node and nothing else changes;
the returned slip rate is the largest of the nodes, the error the worst of the nodes. -/
theorem C64_init (o : Op R X) (ho : IsOrder o.ar.lt) (time : R) (f : Nat) (tr state : Nat → R) :
    let psi := fun node => o.law.psi_init (f * o.nbf + node) (sigma o time f (asMatrix o.nbf tr) node) (shear o time f (asMatrix o.nbf tr) node)
    (∀ node q, node < o.nbf → asMatrix o.nbf (init o time f tr state).1 node q = if q = o.T then psi node else asMatrix o.nbf state node q) ∧
    IsLargest o.ar.lt o.ar.zero (init o time f tr state).2.1 o.nbf (fun node => o.ar.norm (answer o time f (asMatrix o.nbf tr) (psi node) node).1) ∧
    IsWorst (init o time f tr state).2.2 o.nbf (fun node => (answer o time f (asMatrix o.nbf tr) (psi node) node).2) := by
  intro psi
  rw [init_parts]
  refine ⟨?_, largest o.ar ho.irrefl ho.trans _ _, worst _ _⟩
  intro node q h
  change (List.range o.nbf).foldl _ state (pos o.nbf node q) = _
  rw [fold_pos (local_write o.T psi) _ node q h, write_pos h]
  rfl

theorem rhsLoop_parts (o : Op R X) (time : R) (f : Nat) (tr state result : Nat → R) :
    rhsLoop o time f tr state result =
      ((List.range o.nbf).foldl (fun m node => write (writeVec m o.nbf node 0 ((answer o time f (asMatrix o.nbf tr) (asMatrix o.nbf state node o.T) node).1.take o.T))
          (pos o.nbf node o.T) (o.law.state_rhs (f * o.nbf + node) (o.ar.norm (answer o time f (asMatrix o.nbf tr) (asMatrix o.nbf state node o.T) node).1) (asMatrix o.nbf state node o.T))) result,
        (List.range o.nbf).foldl (fun a node => maxR o.ar a (o.ar.norm (answer o time f (asMatrix o.nbf tr) (asMatrix o.nbf state node o.T) node).1)) o.ar.zero,
        (List.range o.nbf).foldl (fun a node => if a < (answer o time f (asMatrix o.nbf tr) (asMatrix o.nbf state node o.T) node).2 then
          (answer o time f (asMatrix o.nbf tr) (asMatrix o.nbf state node o.T) node).2 else a) 0) := by
  unfold rhsLoop
  rw [foldl_fst (A := Nat → R) (B := R × Nat)
    (fun m node => write (writeVec m o.nbf node 0 ((answer o time f (asMatrix o.nbf tr) (asMatrix o.nbf state node o.T) node).1.take o.T))
      (pos o.nbf node o.T) (o.law.state_rhs (f * o.nbf + node) (o.ar.norm (answer o time f (asMatrix o.nbf tr) (asMatrix o.nbf state node o.T) node).1) (asMatrix o.nbf state node o.T)))
    (fun p node => (maxR o.ar p.1 (o.ar.norm (answer o time f (asMatrix o.nbf tr) (asMatrix o.nbf state node o.T) node).1),
      if p.2 < (answer o time f (asMatrix o.nbf tr) (asMatrix o.nbf state node o.T) node).2 then
      (answer o time f (asMatrix o.nbf tr) (asMatrix o.nbf state node o.T) node).2 else p.2))]
  · congr 1
    exact foldl_fst _ _ _ _ _ _ (fun _ _ => rfl)
  · intro p n; simp only [snAt_eq, tauAt_eq]; rfl

/-- **C64 (right-hand side)**: every node of the block gets its own slip rate in the components of the slip and its own state rate,
plus the source, in the component of the state variable, computed from the stress and the state of that node alone; nothing behind
the block changes; the returned slip rate is the largest of the nodes, the error the worst of the nodes. -/
theorem C64_rhs (o : Op R X) (hs : Sized o) (ho : IsOrder o.ar.lt) (time : R) (f : Nat) (tr state result : Nat → R) :
    let ans := fun node => answer o time f (asMatrix o.nbf tr) (asMatrix o.nbf state node o.T) node
    let rate := fun node => o.law.state_rhs (f * o.nbf + node) (o.ar.norm (ans node).1) (asMatrix o.nbf state node o.T)
    let out := rhs o time f tr state result
    (∀ node q, node < o.nbf → q < o.T → some (asMatrix o.nbf out.1 node q) = (ans node).1[q]?) ∧
    (∀ node, node < o.nbf → asMatrix o.nbf out.1 node o.T = match o.source with
      | some src => o.ar.add (rate node) (src (o.coords f node) time)
      | none => rate node) ∧
    (∀ node q, node < o.nbf → o.T < q → asMatrix o.nbf out.1 node q = asMatrix o.nbf result node q) ∧
    IsLargest o.ar.lt o.ar.zero out.2.1 o.nbf (fun node => o.ar.norm (ans node).1) ∧
    IsWorst out.2.2 o.nbf (fun node => (ans node).2) := by
  intro ans rate out
  have hl : Local o.nbf (fun (m : Nat → R) node => write (writeVec m o.nbf node 0 ((ans node).1.take o.T)) (pos o.nbf node o.T) (rate node)) :=
    local_comp (local_writeVec 0 (fun node => (ans node).1.take o.T)) (local_write o.T rate)
  have hloop : ∀ node q, node < o.nbf → (rhsLoop o time f tr state result).1 (pos o.nbf node q) =
      if q = o.T then rate node else ((ans node).1[q]?).getD (result (pos o.nbf node q)) := by
    intro node q h
    rw [rhsLoop_parts]
    simp only
    rw [fold_pos hl _ node q h, write_pos h, (writeVec_spec h _ _ _).2, take_of_length (show (ans node).1.length = o.T from hs.slip _ _ _ _ _ _), if_pos (Nat.zero_le _), Nat.sub_zero]
  have hlen : ∀ node, (ans node).1.length = o.T := fun node => hs.slip _ _ _ _ _ _
  have hsrc : ∀ src : X → R → R, Local o.nbf (fun (m : Nat → R) node =>
      write m (pos o.nbf node o.T) (o.ar.add (m (pos o.nbf node o.T)) (src (o.coords f node) time))) := by
    intro src
    refine ⟨fun m node j h hj => write_other h m _ _ j hj, ?_⟩
    intro m m' node h hm j hj
    rw [pos_of_mod hj, write_pos h, write_pos h, hm _ (pos_mod h), hm _ (pos_mod h)]
  have hout : ∀ node q, node < o.nbf → out.1 (pos o.nbf node q) = if q = o.T then (match o.source with
      | some src => o.ar.add (rate node) (src (o.coords f node) time)
      | none => rate node) else ((ans node).1[q]?).getD (result (pos o.nbf node q)) := by
    intro node q h
    simp only [out]
    unfold rhs
    simp only
    cases hsrc' : o.source with
    | some src =>
      change (List.range o.nbf).foldl (fun (m : Nat → R) node =>
        write m (pos o.nbf node o.T) (o.ar.add (m (pos o.nbf node o.T)) (src (o.coords f node) time))) (rhsLoop o time f tr state result).1 (pos o.nbf node q) = _
      rw [fold_pos (hsrc src) _ node q h, write_pos h, hloop node o.T h, if_pos rfl, hloop node q h]
      split <;> rfl
    | none => exact hloop node q h
  have h2 : out.2 = (rhsLoop o time f tr state result).2 := by
    simp only [out]; unfold rhs; simp only; split <;> rfl
  refine ⟨?_, ?_, ?_, ?_, ?_⟩
  · intro node q h hq
    change some (out.1 (pos o.nbf node q)) = _
    rw [hout node q h, if_neg (by omega), List.getElem?_eq_getElem (by rw [hlen]; exact hq)]; rfl
  · intro node h
    change out.1 (pos o.nbf node o.T) = _
    rw [hout node o.T h, if_pos rfl]
  · intro node q h hq
    change out.1 (pos o.nbf node q) = _
    rw [hout node q h, if_neg (by omega), List.getElem?_eq_none (by rw [hlen]; omega)]; rfl
  · rw [h2, rhsLoop_parts]; exact largest o.ar ho.irrefl ho.trans _ _
  · rw [h2, rhsLoop_parts]; exact worst _ _

/-- What the columns of the output hold at a node. -/
def column (o : Op R X) (time : R) (f : Nat) (traction state : Nat → Nat → R) (node : Nat) : List R :=
  let V := (answer o time f traction (state node o.T) node).1
  [state node o.T] ++ (List.range o.T).map (fun t => state node t) ++
    o.law.tau_hat (f * o.nbf + node) (shear o time f traction node) V ++ V ++
    [o.law.sn_hat (f * o.nbf + node) (sigma o time f traction node)]

theorem column_get (T : Nat) (a z : R) (s t v : List R) (hs : s.length = T) (ht : t.length = T) (hv : v.length = T) (q : Nat) :
    (([a] ++ s ++ t ++ v ++ [z] : List R))[q]? = if q = 0 then some a else if q < 1 + T then s[q - 1]? else if q < 1 + 2 * T then t[q - (1 + T)]?
      else if q < 1 + 3 * T then v[q - (1 + 2 * T)]? else if q = 1 + 3 * T then some z else none := by
  by_cases h0 : q = 0
  · subst h0; simp
  rw [if_neg h0]
  by_cases h1 : q < 1 + T
  · rw [if_pos h1, List.getElem?_append_left (by simp; omega), List.getElem?_append_left (by simp; omega),
      List.getElem?_append_left (by simp; omega), List.getElem?_append_right (by simp; omega)]; simp
  rw [if_neg h1]
  by_cases h2 : q < 1 + 2 * T
  · rw [if_pos h2, List.getElem?_append_left (by simp; omega), List.getElem?_append_left (by simp; omega),
      List.getElem?_append_right (by simp; omega)]; congr 1; simp; omega
  rw [if_neg h2]
  by_cases h3 : q < 1 + 3 * T
  · rw [if_pos h3, List.getElem?_append_left (by simp; omega), List.getElem?_append_right (by simp; omega)]; congr 1; simp; omega
  rw [if_neg h3, List.getElem?_append_right (by simp; omega)]
  have hl : (([a] ++ s ++ t ++ v : List R)).length = 1 + 3 * T := by simp; omega
  rw [hl]
  by_cases h4 : q = 1 + 3 * T
  · rw [if_pos h4, h4, Nat.sub_self]; rfl
  · rw [if_neg h4, List.getElem?_eq_none (by simp; omega)]

/-- **C64 (output)**: the output block has, at every node, the state variable, the slip, the shear stress, the slip rate and the normal
stress of that node in the columns whose names say so; nothing else is written. -/
theorem C64_output (o : Op R X) (hs : Sized o) (time : R) (f : Nat) (tr state result : Nat → R) (node q : Nat) (h : node < o.nbf) :
    asMatrix o.nbf (stateOut o time f tr state result) node q =
      ((column o time f (asMatrix o.nbf tr) (asMatrix o.nbf state) node)[q]?).getD (asMatrix o.nbf result node q) := by
  let V := fun node => (answer o time f (asMatrix o.nbf tr) (asMatrix o.nbf state node o.T) node).1
  let TH := fun node => o.law.tau_hat (f * o.nbf + node) (shear o time f (asMatrix o.nbf tr) node) (V node)
  have hV : ∀ node, (V node).length = o.T := fun node => hs.slip _ _ _ _ _ _
  have hTH : ∀ node, (TH node).length = o.T := fun node => hs.tau _ _ _ (hV node)
  have e : stateOut o time f tr state result = (List.range o.nbf).foldl (fun m node =>
      write (writeVec (writeVec (writeVec (write m (pos o.nbf node 0) (asMatrix o.nbf state node o.T)) o.nbf node 1
        ((List.range o.T).map (fun t => asMatrix o.nbf state node t))) o.nbf node (1 + o.T) ((TH node).take o.T)) o.nbf node (1 + 2 * o.T) ((V node).take o.T))
        (pos o.nbf node (1 + 3 * o.T)) (o.law.sn_hat (f * o.nbf + node) (sigma o time f (asMatrix o.nbf tr) node))) result := by
    unfold stateOut
    simp only [snAt_eq, tauAt_eq]
    rfl
  have hl := local_comp (local_comp (local_comp (local_comp (local_write (nbf := o.nbf) 0 (fun node => asMatrix o.nbf state node o.T))
    (local_writeVec 1 (fun node => (List.range o.T).map (fun t => asMatrix o.nbf state node t))))
    (local_writeVec (1 + o.T) (fun node => (TH node).take o.T))) (local_writeVec (1 + 2 * o.T) (fun node => (V node).take o.T)))
    (local_write (1 + 3 * o.T) (fun node => o.law.sn_hat (f * o.nbf + node) (sigma o time f (asMatrix o.nbf tr) node)))
  change stateOut o time f tr state result (pos o.nbf node q) = _
  rw [e, fold_pos hl _ node q h, write_pos h, (writeVec_spec h _ _ _).2, (writeVec_spec h _ _ _).2, (writeVec_spec h _ _ _).2, write_pos h,
    take_of_length (hV node), take_of_length (hTH node)]
  change _ = (([asMatrix o.nbf state node o.T] ++ (List.range o.T).map (fun t => asMatrix o.nbf state node t) ++ TH node ++ V node ++
    [o.law.sn_hat (f * o.nbf + node) (sigma o time f (asMatrix o.nbf tr) node)])[q]?).getD (result (pos o.nbf node q))
  rw [column_get o.T _ _ _ _ _ (by simp) (hTH node) (hV node)]
  have hmap : ((List.range o.T).map (fun t => asMatrix o.nbf state node t)).length = o.T := by simp
  have n1 : ∀ i, o.T ≤ i → ((List.range o.T).map (fun t => asMatrix o.nbf state node t))[i]? = none := fun i hi => List.getElem?_eq_none (by omega)
  have n2 : ∀ i, o.T ≤ i → (TH node)[i]? = none := fun i hi => List.getElem?_eq_none (by rw [hTH]; omega)
  have n3 : ∀ i, o.T ≤ i → (V node)[i]? = none := fun i hi => List.getElem?_eq_none (by rw [hV]; omega)
  by_cases h0 : q = 0
  · subst h0
    simp only [if_true, if_false, show ¬ 0 = 1 + 3 * o.T by omega, show ¬ 1 + 2 * o.T ≤ 0 by omega, show ¬ 1 + o.T ≤ 0 by omega, show ¬ 1 ≤ 0 by omega, Option.getD_some]
  by_cases h1 : q < 1 + o.T
  · simp only [h0, h1, if_true, if_false, show 1 ≤ q by omega, show ¬ 1 + o.T ≤ q by omega, show ¬ 1 + 2 * o.T ≤ q by omega, show ¬ q = 1 + 3 * o.T by omega]
  by_cases h2 : q < 1 + 2 * o.T
  · simp only [h0, h1, h2, if_true, if_false, show 1 ≤ q by omega, show 1 + o.T ≤ q by omega, show ¬ 1 + 2 * o.T ≤ q by omega, show ¬ q = 1 + 3 * o.T by omega,
      n1 (q - 1) (by omega), Option.getD_none]
  by_cases h3 : q < 1 + 3 * o.T
  · simp only [h0, h1, h2, h3, if_true, if_false, show 1 ≤ q by omega, show 1 + o.T ≤ q by omega, show 1 + 2 * o.T ≤ q by omega, show ¬ q = 1 + 3 * o.T by omega,
      n1 (q - 1) (by omega), n2 (q - (1 + o.T)) (by omega), Option.getD_none]
  by_cases h4 : q = 1 + 3 * o.T
  · simp only [h0, h1, h2, h3, h4, if_true, if_false, Option.getD_some, show ¬ 1 + 3 * o.T = 0 by omega, show ¬ 1 + 3 * o.T < 1 + o.T by omega,
      show ¬ 1 + 3 * o.T < 1 + 2 * o.T by omega, show ¬ 1 + 3 * o.T < 1 + 3 * o.T by omega]
  · simp only [h0, h1, h2, h3, h4, if_true, if_false, show 1 ≤ q by omega, show 1 + o.T ≤ q by omega, show 1 + 2 * o.T ≤ q by omega,
      n1 (q - 1) (by omega), n2 (q - (1 + o.T)) (by omega), n3 (q - (1 + 2 * o.T)) (by omega), Option.getD_none]

/-- **C64 (column names)**: the names stand at the columns of what they name. -/
theorem C64_names (T t : Nat) (h : t < T) :
    (stateNames T).length = 2 + 3 * T ∧ (stateNames T)[0]? = some "state" ∧ (stateNames T)[1 + t]? = some s!"slip{t}" ∧
    (stateNames T)[1 + T + t]? = some s!"traction{t}" ∧ (stateNames T)[1 + 2 * T + t]? = some s!"slip-rate{t}" ∧
    (stateNames T)[1 + 3 * T]? = some "normal-stress" := by
  have hg := column_get T "state" "normal-stress" ((List.range T).map (fun t => s!"slip{t}")) ((List.range T).map (fun t => s!"traction{t}"))
    ((List.range T).map (fun t => s!"slip-rate{t}")) (by simp) (by simp) (by simp)
  refine ⟨by unfold stateNames; simp; omega, ?_, ?_, ?_, ?_, ?_⟩
  · unfold stateNames; rw [hg]; simp
  · unfold stateNames; rw [hg, if_neg (by omega), if_pos (by omega)]; simp [h]
  · unfold stateNames; rw [hg, if_neg (by omega), if_neg (by omega), if_pos (by omega)]; simp [h]
  · unfold stateNames; rw [hg, if_neg (by omega), if_neg (by omega), if_neg (by omega), if_pos (by omega)]; simp [h]
  · unfold stateNames; rw [hg, if_neg (by omega), if_neg (by omega), if_neg (by omega), if_neg (by omega), if_pos rfl]

/-- An operator on integers that meets the hypotheses of C64. -/
def exOp : Op Int Nat :=
  ⟨⟨0, fun a b => a + b, fun a b => decide (a < b), fun l => l.foldl (fun a x => a + x.natAbs) 0⟩,
   ⟨fun i sn tau => i + sn + tau.sum, fun i _ sn tau psi _ => ([sn + tau.getD 0 0, psi - i], i % 3), fun i V psi => i + V - psi,
     fun i => [i, 2 * i], fun _ tau V => List.zipWith (· + ·) ([tau.getD 0 0, tau.getD 1 0]) V, fun _ sn => - sn⟩,
   3, 2, fun f n => 10 * f + n, some (fun x t => x * t), some (fun x t => [x, t]), none⟩

example : Sized exOp ∧ IsOrder exOp.ar.lt := by
  refine ⟨⟨fun _ _ _ _ _ _ => rfl, fun _ => rfl, fun i tau V h => ?_⟩, ⟨fun a => ?_, fun a b c h1 h2 => ?_⟩⟩
  · simp only [exOp, List.length_zipWith] at h ⊢; rw [h]; rfl
  · simp [exOp]
  · simp [exOp] at h1 h2 ⊢; omega

end Tandem.RateAndState
