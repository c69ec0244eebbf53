import Verif.Model.FaultOutput
import Verif.Props.RateAndState
import Verif.Props.Error
import Verif.Props.VTU
import Verif.Props.DGTopoMesh
import Mathlib.Data.List.FinRange
/-! # Properties C94 and C95: the fault operator and its output -/
namespace Tandem.FaultOutput
open RefElement Error DGTopo

/-! ## C95 -/
section Loops
open RateAndState (Op Sized IsOrder asMatrix answer sigma shear)

variable {R X : Type}

/-- Entry `(node, q)` of face `f` in a vector with `c` components per node. -/
def entry (nbf c : ℕ) (v : ℕ → R) (f node q : ℕ) : R := v (f * (nbf * c) + (node + q * nbf))

theorem putBlock_in (bs : ℕ) (v : ℕ → R) (f : ℕ) (b : ℕ → R) (i : ℕ) (hi : i < bs) :
    putBlock bs v f b (f * bs + i) = b i := by
  unfold putBlock
  rw [if_pos ⟨Nat.le_add_right _ _, by rw [Nat.add_mul]; omega⟩]
  congr 1; omega

theorem putBlock_out (bs : ℕ) (v : ℕ → R) (f : ℕ) (b : ℕ → R) (j : ℕ) (hj : j < f * bs ∨ (f + 1) * bs ≤ j) :
    putBlock bs v f b j = v j := by
  unfold putBlock
  rw [if_neg (by omega)]

/-- After the loop over the faces, every block is the result for the block it had before. -/
theorem fold_faces {B : Type} (bs : ℕ) (G : ℕ → (ℕ → R) → (ℕ → R)) (acc2 : B → ℕ → (ℕ → R) → B) (v : ℕ → R) (b0 : B) (num : ℕ) :
    let r := (List.range num).foldl (fun (acc : (ℕ → R) × B) f =>
      (putBlock bs acc.1 f (G f (block bs acc.1 f)), acc2 acc.2 f (block bs acc.1 f))) (v, b0)
    (∀ f i, f < num → i < bs → r.1 (f * bs + i) = G f (block bs v f) i) ∧
    (∀ j, num * bs ≤ j → r.1 j = v j) ∧
    r.2 = (List.range num).foldl (fun b f => acc2 b f (block bs v f)) b0 := by
  induction num with
  | zero => exact ⟨fun f i h => absurd h (Nat.not_lt_zero _), fun j _ => rfl, rfl⟩
  | succ n ih =>
    intro r
    obtain ⟨h1, h2, h3⟩ := ih
    set p := (List.range n).foldl (fun (acc : (ℕ → R) × B) f =>
      (putBlock bs acc.1 f (G f (block bs acc.1 f)), acc2 acc.2 f (block bs acc.1 f))) (v, b0) with hp
    have hb : block bs p.1 n = block bs v n := funext fun i => h2 _ (Nat.le_add_right _ _)
    have hr : r = (putBlock bs p.1 n (G n (block bs v n)), acc2 p.2 n (block bs v n)) := by
      simp only [r, List.range_succ, List.foldl_append, List.foldl_cons, List.foldl_nil, ← hp, hb]
    rw [hr]
    refine ⟨fun f i hf hi => ?_, fun j hj => ?_, ?_⟩
    · by_cases hfn : f = n
      · subst hfn; exact putBlock_in bs _ _ _ i hi
      · have hle : (f + 1) * bs ≤ n * bs := Nat.mul_le_mul_right _ (by omega)
        rw [Nat.add_mul] at hle
        exact (putBlock_out bs p.1 n (G n (block bs v n)) (f * bs + i) (Or.inl (by omega))).trans (h1 f i (by omega) hi)
    · exact (putBlock_out bs p.1 n (G n (block bs v n)) j (Or.inr hj)).trans
        (h2 j (le_trans (Nat.mul_le_mul_right _ (by omega)) hj))
    · rw [List.range_succ, List.foldl_append, List.foldl_cons, List.foldl_nil, ← h3]

/-- `V` is the largest of the values of all nodes of all faces, or `zero` if none is larger;
comparisons with NaN are false. -/
def LargestOnFault (lt : R → R → Bool) (zero V : R) (num nbf : ℕ) (v : ℕ → ℕ → R) : Prop :=
  (V = zero ∨ ∃ f node, f < num ∧ node < nbf ∧ V = v f node) ∧ lt V zero = false ∧
    ∀ f node, f < num → node < nbf → lt V (v f node) = false

/-- Comparison of `double`: as `IsOrder`, and a number that is not smaller than `zero` (so not NaN) lies on one
side of any two ordered numbers. -/
structure IsNumberOrder (lt : R → R → Bool) (zero : R) : Prop extends IsOrder lt where
  weak : ∀ a b c, lt a c = true → (b = zero ∨ lt zero b = true) → lt a b = true ∨ lt b c = true

theorem maxR_number (ar : RateAndState.Arith R) (ho : IsOrder ar.lt) (v : ℕ → R) (n : ℕ) :
    (List.range n).foldl (fun a i => RateAndState.maxR ar a (v i)) ar.zero = ar.zero ∨
      ar.lt ar.zero ((List.range n).foldl (fun a i => RateAndState.maxR ar a (v i)) ar.zero) = true := by
  induction n with
  | zero => exact Or.inl rfl
  | succ n ih =>
    rw [List.range_succ, List.foldl_append, List.foldl_cons, List.foldl_nil]
    generalize (List.range n).foldl (fun a i => RateAndState.maxR ar a (v i)) ar.zero = V at *
    unfold RateAndState.maxR
    split
    · rename_i hlt
      rcases ih with h | h
      · rw [h] at hlt; exact Or.inr hlt
      · exact Or.inr (ho.trans _ _ _ h hlt)
    · exact ih

theorem largest_faces (ar : RateAndState.Arith R) (ho : IsNumberOrder ar.lt ar.zero) (num nbf : ℕ) (v : ℕ → ℕ → R) :
    LargestOnFault ar.lt ar.zero ((List.range num).foldl (fun a f => RateAndState.maxR ar a
      ((List.range nbf).foldl (fun a i => RateAndState.maxR ar a (v f i)) ar.zero)) ar.zero) num nbf v := by
  have hm := fun f => RateAndState.largest ar ho.irrefl ho.trans (v f) nbf
  have hn := fun f => maxR_number ar ho.toIsOrder (v f) nbf
  set m : ℕ → R := fun f => (List.range nbf).foldl (fun a i => RateAndState.maxR ar a (v f i)) ar.zero with hmdef
  obtain ⟨h1, h2, h3⟩ := RateAndState.largest ar ho.irrefl ho.trans m num
  refine ⟨?_, h2, fun f node hf hk => ?_⟩
  · rcases h1 with h | ⟨f, hf, h⟩
    · exact Or.inl h
    · rcases (hm f).1 with h' | ⟨k, hk, h'⟩
      · exact Or.inl (h.trans h')
      · exact Or.inr ⟨f, k, hf, hk, h.trans h'⟩
  · rw [← Bool.not_eq_true]
    intro hlt
    rcases ho.weak _ (m f) _ hlt (hn f) with h | h
    · exact Bool.false_ne_true ((h3 f hf).symm.trans h)
    · exact Bool.false_ne_true (((hm f).2.2 node hk).symm.trans h)

theorem fold_flag (e : ℕ → ℕ) (n : ℕ) :
    (List.range n).foldl (fun ok f => if e f = 2 then false else ok) true = false ↔ ∃ f, f < n ∧ e f = 2 := by
  induction n with
  | zero => simp
  | succ n ih =>
    rw [List.range_succ, List.foldl_append, List.foldl_cons, List.foldl_nil]
    by_cases h : e n = 2
    · rw [if_pos h]; exact ⟨fun _ => ⟨n, by omega, h⟩, fun _ => rfl⟩
    · rw [if_neg h, ih]
      exact ⟨fun ⟨f, hf, he⟩ => ⟨f, by omega, he⟩, fun ⟨f, hf, he⟩ => ⟨f, by
        rcases Nat.lt_succ_iff_lt_or_eq.1 hf with h' | h'
        · exact h'
        · exact absurd (h' ▸ he) h, he⟩⟩

theorem worst_two (e nbf : ℕ) (err : ℕ → ℕ) (hw : RateAndState.IsWorst e nbf err) (h2 : ∀ i, i < nbf → err i ≤ 2) :
    e = 2 ↔ ∃ i, i < nbf ∧ err i = 2 := by
  constructor
  · rintro rfl
    rcases hw.2 with h | ⟨i, hi, h⟩
    · omega
    · exact ⟨i, hi, h.symm⟩
  · rintro ⟨i, hi, h⟩
    have := hw.1 i hi
    rcases hw.2 with h' | ⟨k, hk, h'⟩
    · omega
    · have := h2 k hk; omega

theorem slot_lt {nbf c node q : ℕ} (hn : node < nbf) (hq : q < c) : node + q * nbf < nbf * c := by
  have : (q + 1) * nbf ≤ c * nbf := Nat.mul_le_mul_right _ hq
  rw [Nat.add_mul] at this
  rw [Nat.mul_comm nbf c]; omega

/-- The stresses, the start value of the state variable and the law's answer at node `node` of face `f`, from the
traction vector. -/
def startPsi (o : Op R X) (time : R) (tr : ℕ → R) (f node : ℕ) : R :=
  o.law.psi_init (f * o.nbf + node) (sigma o time f (entry o.nbf (o.T + 1) tr f) node)
    (shear o time f (entry o.nbf (o.T + 1) tr f) node)

/-- What the law answers at node `node` of face `f` for the state variable `psi`: slip rate and error number. -/
def nodeAnswer (o : Op R X) (time : R) (tr : ℕ → R) (f : ℕ) (psi : R) (node : ℕ) : List R × ℕ :=
  answer o time f (entry o.nbf (o.T + 1) tr f) psi node

/-- C95 (initial slip): every node of every local face gets the law's initial slip for that node; the state
variable and everything else in the vector is left as it was. -/
theorem C95_pre_init (o : Op R X) (hs : Sized o) (num : ℕ) (st : ℕ → R) :
    (∀ f node q, f < num → node < o.nbf → q < o.T →
      some (entry o.nbf (o.T + 1) (preInit o num st) f node q) = (o.law.S_init (f * o.nbf + node))[q]?) ∧
    (∀ f node, f < num → node < o.nbf →
      entry o.nbf (o.T + 1) (preInit o num st) f node o.T = entry o.nbf (o.T + 1) st f node o.T) ∧
    (∀ j, num * (o.nbf * (o.T + 1)) ≤ j → preInit o num st j = st j) := by
  obtain ⟨h1, h2, _⟩ := fold_faces (B := Unit) (blockSize o) (fun f b => RateAndState.preInit o f b) (fun b _ _ => b) st () num
  have hp : preInit o num st = ((List.range num).foldl (fun (acc : (ℕ → R) × Unit) f =>
      (putBlock (blockSize o) acc.1 f (RateAndState.preInit o f (block (blockSize o) acc.1 f)), acc.2)) (st, ())).1 := by
    rw [RateAndState.foldl_fst (fun s f => putBlock (blockSize o) s f (RateAndState.preInit o f (block (blockSize o) s f)))
      (fun b _ => b) _ _ _ _ (fun p n => rfl)]
    rfl
  rw [hp]
  refine ⟨fun f node q hf hn hq => ?_, fun f node hf hn => ?_, h2⟩
  · have a := h1 f (node + q * o.nbf) hf (slot_lt hn (by omega))
    have b := RateAndState.C64_pre_init o hs f (block (blockSize o) st f) node hn q
    rw [if_pos hq] at b
    rw [entry, show o.nbf * (o.T + 1) = blockSize o from rfl, a]
    refine (congrArg some b).trans ?_
    have hl := hs.start (f * o.nbf + node)
    rw [List.getElem?_eq_getElem (by omega)]; rfl
  · have a := h1 f (node + o.T * o.nbf) hf (slot_lt hn (by omega))
    have b := RateAndState.C64_pre_init o hs f (block (blockSize o) st f) node hn o.T
    rw [if_neg (by omega)] at b
    rw [entry, show o.nbf * (o.T + 1) = blockSize o from rfl, a]
    exact b

theorem initLoop_parts (o : Op R X) (num : ℕ) (time : R) (tr st : ℕ → R) :
    let r := fun f => RateAndState.init o time f (block (tractionBlockSize o) tr f) (block (blockSize o) st f)
    let out := initLoop o num time tr st
    (∀ f i, f < num → i < blockSize o → out.1 (f * blockSize o + i) = (r f).1 i) ∧
    (∀ j, num * blockSize o ≤ j → out.1 j = st j) ∧
    out.2.1 = (List.range num).foldl (fun a f => RateAndState.maxR o.ar a (r f).2.1) o.ar.zero ∧
    (out.2.2 = false ↔ ∃ f, f < num ∧ (r f).2.2 = 2) := by
  intro r out
  obtain ⟨h1, h2, h3⟩ := fold_faces (B := R × Bool) (blockSize o)
    (fun f b => (RateAndState.init o time f (block (tractionBlockSize o) tr f) b).1)
    (fun acc f b => (RateAndState.maxR o.ar acc.1 (RateAndState.init o time f (block (tractionBlockSize o) tr f) b).2.1,
      if (RateAndState.init o time f (block (tractionBlockSize o) tr f) b).2.2 = 2 then false else acc.2)) st (o.ar.zero, true) num
  refine ⟨h1, h2, ?_, ?_⟩
  · have := congrArg Prod.fst h3
    rw [RateAndState.foldl_fst (fun a f => RateAndState.maxR o.ar a (r f).2.1) (fun ok f => if (r f).2.2 = 2 then false else ok)
      _ _ _ _ (fun p n => rfl)] at this
    exact this
  · have := congrArg Prod.snd h3
    rw [RateAndState.foldl_fst (fun a f => RateAndState.maxR o.ar a (r f).2.1) (fun ok f => if (r f).2.2 = 2 then false else ok)
      _ _ _ _ (fun p n => rfl)] at this
    rw [← fold_flag]
    exact Eq.congr_left this

/-- C95 (initial state): on all local faces the state variable of every node is the law's start value for the
stresses at that node, the slip and everything outside of the local faces is left as it was, `VMax` is the
largest initial slip rate of the fault, and the program ends exactly if the slip rate solver fails at some
node. -/
theorem C95_init (o : Op R X) (ho : IsNumberOrder o.ar.lt o.ar.zero) (num : ℕ) (time : R) (tr st : ℕ → R)
    (hE : ∀ f node, f < num → node < o.nbf → (nodeAnswer o time tr f (startPsi o time tr f node) node).2 ≤ 2) :
    (init o num time tr st = none ↔
      ∃ f node, f < num ∧ node < o.nbf ∧ (nodeAnswer o time tr f (startPsi o time tr f node) node).2 = 2) ∧
    ∀ out V, init o num time tr st = some (out, V) →
      (∀ f node, f < num → node < o.nbf → entry o.nbf (o.T + 1) out f node o.T = startPsi o time tr f node) ∧
      (∀ f node q, f < num → node < o.nbf → q < o.T →
        entry o.nbf (o.T + 1) out f node q = entry o.nbf (o.T + 1) st f node q) ∧
      (∀ j, num * (o.nbf * (o.T + 1)) ≤ j → out j = st j) ∧
      LargestOnFault o.ar.lt o.ar.zero V num o.nbf
        (fun f node => o.ar.norm (nodeAnswer o time tr f (startPsi o time tr f node) node).1) := by
  obtain ⟨h1, h2, h3, h4⟩ := initLoop_parts o num time tr st
  have hface := fun f => RateAndState.C64_init o ho.toIsOrder time f (block (tractionBlockSize o) tr f) (block (blockSize o) st f)
  have hnone : init o num time tr st = none ↔ (initLoop o num time tr st).2.2 = false := by
    unfold init; simp only; split <;> simp_all
  refine ⟨?_, fun out V hout => ?_⟩
  · rw [hnone, h4]
    constructor
    · rintro ⟨f, hf, h⟩
      obtain ⟨i, hi, he⟩ := (worst_two _ _ _ (hface f).2.2 (fun i hi => hE f i hf hi)).1 h
      exact ⟨f, i, hf, hi, he⟩
    · rintro ⟨f, i, hf, hi, he⟩
      exact ⟨f, hf, (worst_two _ _ _ (hface f).2.2 (fun i hi => hE f i hf hi)).2 ⟨i, hi, he⟩⟩
  · have ho' : out = (initLoop o num time tr st).1 ∧ V = (initLoop o num time tr st).2.1 := by
      unfold init at hout; simp only at hout
      split at hout
      · cases hout
      · simp only [Option.some.injEq, Prod.mk.injEq] at hout; exact ⟨hout.1.symm, hout.2.symm⟩
    obtain ⟨rfl, rfl⟩ := ho'
    refine ⟨fun f node hf hn => ?_, fun f node q hf hn hq => ?_, h2, ?_⟩
    · have a := h1 f (node + o.T * o.nbf) hf (slot_lt hn (by omega))
      have b := (hface f).1 node o.T hn
      rw [if_pos rfl] at b
      exact a.trans b
    · have a := h1 f (node + q * o.nbf) hf (slot_lt hn (by omega))
      have b := (hface f).1 node q hn
      rw [if_neg (by omega)] at b
      exact a.trans b
    · rw [h3]
      have := largest_faces o.ar ho num o.nbf
        (fun f node => o.ar.norm (nodeAnswer o time tr f (startPsi o time tr f node) node).1)
      have e : ∀ f, (RateAndState.init o time f (block (tractionBlockSize o) tr f) (block (blockSize o) st f)).2.1 =
          (List.range o.nbf).foldl (fun a node => RateAndState.maxR o.ar a
            (o.ar.norm (nodeAnswer o time tr f (startPsi o time tr f node) node).1)) o.ar.zero := by
        intro f; rw [RateAndState.init_parts]; rfl
      simpa only [e] using this

theorem rhsLoop_parts (o : Op R X) (num : ℕ) (time : R) (tr st res : ℕ → R) :
    let r := fun f => RateAndState.rhs o time f (block (tractionBlockSize o) tr f) (block (blockSize o) st f)
      (block (blockSize o) res f)
    let out := rhsLoop o num time tr st res
    (∀ f i, f < num → i < blockSize o → out.1 (f * blockSize o + i) = (r f).1 i) ∧
    (∀ j, num * blockSize o ≤ j → out.1 j = res j) ∧
    out.2.1 = (List.range num).foldl (fun a f => RateAndState.maxR o.ar a (r f).2.1) o.ar.zero ∧
    (out.2.2 = false ↔ ∃ f, f < num ∧ (r f).2.2 = 2) := by
  intro r out
  obtain ⟨h1, h2, h3⟩ := fold_faces (B := R × Bool) (blockSize o)
    (fun f b => (RateAndState.rhs o time f (block (tractionBlockSize o) tr f) (block (blockSize o) st f) b).1)
    (fun acc f b => (RateAndState.maxR o.ar acc.1
        (RateAndState.rhs o time f (block (tractionBlockSize o) tr f) (block (blockSize o) st f) b).2.1,
      if (RateAndState.rhs o time f (block (tractionBlockSize o) tr f) (block (blockSize o) st f) b).2.2 = 2 then false
      else acc.2)) res (o.ar.zero, true) num
  refine ⟨h1, h2, ?_, ?_⟩
  · have := congrArg Prod.fst h3
    rw [RateAndState.foldl_fst (fun a f => RateAndState.maxR o.ar a (r f).2.1) (fun ok f => if (r f).2.2 = 2 then false else ok)
      _ _ _ _ (fun p n => rfl)] at this
    exact this
  · have := congrArg Prod.snd h3
    rw [RateAndState.foldl_fst (fun a f => RateAndState.maxR o.ar a (r f).2.1) (fun ok f => if (r f).2.2 = 2 then false else ok)
      _ _ _ _ (fun p n => rfl)] at this
    rw [← fold_flag]
    exact Eq.congr_left this

/-- C95 (right-hand side): on all local faces every node gets the slip rate and the state rate the law gives
for the stresses and the state variable at that node (plus the source at its position); everything outside of the
local faces is left as it was, `VMax` is the largest slip rate of the fault, and the program ends exactly if
the slip rate solver fails at some node. -/
theorem C95_rhs (o : Op R X) (hs : Sized o) (ho : IsNumberOrder o.ar.lt o.ar.zero) (num : ℕ) (time : R)
    (tr st res : ℕ → R)
    (hE : ∀ f node, f < num → node < o.nbf →
      (nodeAnswer o time tr f (entry o.nbf (o.T + 1) st f node o.T) node).2 ≤ 2) :
    let ans := fun f node => nodeAnswer o time tr f (entry o.nbf (o.T + 1) st f node o.T) node
    let rate := fun f node => o.law.state_rhs (f * o.nbf + node) (o.ar.norm (ans f node).1)
      (entry o.nbf (o.T + 1) st f node o.T)
    (rhs o num time tr st res = none ↔ ∃ f node, f < num ∧ node < o.nbf ∧ (ans f node).2 = 2) ∧
    ∀ out V, rhs o num time tr st res = some (out, V) →
      (∀ f node q, f < num → node < o.nbf → q < o.T →
        some (entry o.nbf (o.T + 1) out f node q) = (ans f node).1[q]?) ∧
      (∀ f node, f < num → node < o.nbf → entry o.nbf (o.T + 1) out f node o.T = match o.source with
        | some src => o.ar.add (rate f node) (src (o.coords f node) time)
        | none => rate f node) ∧
      (∀ j, num * (o.nbf * (o.T + 1)) ≤ j → out j = res j) ∧
      LargestOnFault o.ar.lt o.ar.zero V num o.nbf (fun f node => o.ar.norm (ans f node).1) := by
  intro ans rate
  obtain ⟨h1, h2, h3, h4⟩ := rhsLoop_parts o num time tr st res
  have hface := fun f => RateAndState.C64_rhs o hs ho.toIsOrder time f (block (tractionBlockSize o) tr f)
    (block (blockSize o) st f) (block (blockSize o) res f)
  have hnone : rhs o num time tr st res = none ↔ (rhsLoop o num time tr st res).2.2 = false := by
    unfold rhs; simp only; split <;> simp_all
  refine ⟨?_, fun out V hout => ?_⟩
  · rw [hnone, h4]
    constructor
    · rintro ⟨f, hf, h⟩
      obtain ⟨i, hi, he⟩ := (worst_two _ _ _ (hface f).2.2.2.2 (fun i hi => hE f i hf hi)).1 h
      exact ⟨f, i, hf, hi, he⟩
    · rintro ⟨f, i, hf, hi, he⟩
      exact ⟨f, hf, (worst_two _ _ _ (hface f).2.2.2.2 (fun i hi => hE f i hf hi)).2 ⟨i, hi, he⟩⟩
  · have ho' : out = (rhsLoop o num time tr st res).1 ∧ V = (rhsLoop o num time tr st res).2.1 := by
      unfold rhs at hout; simp only at hout
      split at hout
      · cases hout
      · simp only [Option.some.injEq, Prod.mk.injEq] at hout; exact ⟨hout.1.symm, hout.2.symm⟩
    obtain ⟨rfl, rfl⟩ := ho'
    refine ⟨fun f node q hf hn hq => ?_, fun f node hf hn => ?_, h2, ?_⟩
    · have a := h1 f (node + q * o.nbf) hf (slot_lt hn (by omega))
      exact (congrArg some a).trans ((hface f).1 node q hn hq)
    · have a := h1 f (node + o.T * o.nbf) hf (slot_lt hn (by omega))
      exact a.trans ((hface f).2.1 node hn)
    · rw [h3]
      have := largest_faces o.ar ho num o.nbf (fun f node => o.ar.norm (ans f node).1)
      have e : ∀ f, (RateAndState.rhs o time f (block (tractionBlockSize o) tr f) (block (blockSize o) st f)
          (block (blockSize o) res f)).2.1 =
          (List.range o.nbf).foldl (fun a node => RateAndState.maxR o.ar a (o.ar.norm (ans f node).1)) o.ar.zero := by
        intro f
        unfold RateAndState.rhs
        cases o.source <;> simp only [RateAndState.rhsLoop_parts] <;> rfl
      simpa only [e] using this

end Loops

/-! ## C94 -/
section Output
open RateAndState (Op Sized asMatrix)
variable {D : ℕ} {X : Type}

theorem facetE_get (g : Geo (D + 1)) (points : List (Fin D → ℝ)) (l : ℕ) :
    (geoE g points)[l]? = (if h : l < D + 2 then some (geoBasis g (points.map (Curvilinear.facetParam ⟨l, h⟩))) else none) := by
  unfold geoE
  rw [List.getElem?_map]
  split
  · rename_i h
    rw [List.getElem?_eq_getElem (by simpa using h)]
    simp
  · rename_i h
    rw [List.getElem?_eq_none (by simpa using h)]
    rfl

theorem facetInfo_spec (v : View) (f : ℕ) (info : FacetInfo) (h : facetInfo v f = some info) :
    v.up[f]?.bind (·[0]?) = some info.up0 ∧ v.down[info.up0]?.bind (·[info.localNo0]?) = some f ∧
    ∃ dws, v.down[info.up0]? = some dws ∧ dws.idxOf f = info.localNo0 := by
  unfold facetInfo at h
  simp only [Option.bind_eq_bind, Option.bind_eq_some_iff] at h
  obtain ⟨elNos, h1, bc, h2, e0, h3, g0, h4, g1, h5, dws0, h6, dws1, h7, h8⟩ := h
  split at h8
  · rename_i hc
    simp only [Option.some.injEq] at h8
    subst h8
    refine ⟨by simp [h1, h3], ?_, dws0, h6, rfl⟩
    simp only [h6, Option.bind_some]
    rw [List.getElem?_eq_getElem hc.2.1, List.getElem_idxOf]
  · cases h8

/-- The chart of a fault face: the element map of the first element at the facet, restricted to the place
of the facet in the element. -/
structure Chart (v : View) (bm : BMap) (g : Geo (D + 1)) (b : ℕ) (G : (Fin D → ℝ) → Fin (D + 1) → ℝ) : Prop where
  ex : ∃ (fctNo e l : ℕ) (hl : l < D + 2) (F : (Fin (D + 1) → ℝ) → Fin (D + 1) → ℝ) (DF : _),
    bm.fctNos[b]? = some fctNo ∧ v.up[fctNo]?.bind (·[0]?) = some e ∧ v.down[e]?.bind (·[l]?) = some fctNo ∧
    Spec.ElementMap (D + 1) g.degree g.nodes (g.verts e) F DF ∧ ∀ χ, G χ = F (Curvilinear.facetParam ⟨l, hl⟩ χ)

theorem columns_eq (dim n : ℕ) (x : ℕ → Fin dim → ℝ) : columns dim n x =
    (List.range (n * dim)).map fun j => (fun i d => if h : d < dim then x i ⟨d, h⟩ else 0) (j / dim) (j % dim) := rfl

theorem mapM_length {α β : Type} (f : α → Option β) : ∀ (l : List α) (ys : List β), l.mapM f = some ys → ys.length = l.length
  | [], ys, h => by simp at h; subst h; rfl
  | b :: l, ys, h => by
    rw [List.mapM_cons] at h
    simp only [Option.bind_eq_bind, Option.bind_eq_some_iff, Option.pure_def, Option.some.injEq] at h
    obtain ⟨y, _, ys', h', rfl⟩ := h
    rw [List.length_cons, List.length_cons, mapM_length f l ys' h']

/-- C94 (positions): the fault operator and the fault output file use the same parametrisation of every
fault face: the node coordinates the friction law sees are the images of the reference nodes, the points in the
file are the images of the points of the output, with zero for the missing third coordinate. -/
theorem C94_fault_points (hD : D = 1 ∨ D = 2) (v : View) (bm : BMap) (g : Geo (D + 1))
    (hg : g.nodes.length = nbf (D + 1) g.degree) (hgU : Spec.Unisolvent (D + 1) g.degree g.nodes)
    (refNodes : List (Fin D → ℝ)) (fault : List (List (Fin (D + 1) → ℝ)))
    (hfault : faultStorage v bm g refNodes refNodes.length = some fault) (points : List (Fin D → ℝ)) :
    ∃ file, faultPoints v bm g points = some file ∧ file.length = bm.localSize * points.length * 3 ∧
      fault.length = bm.localSize ∧
      ∀ b, b < bm.localSize → ∃ G, Chart v bm g b G ∧
        (∃ row, fault[b]? = some row ∧ row = refNodes.map G) ∧
        ∀ i (hi : i < points.length) d, d < 3 → file[(b * points.length + i) * 3 + d]? =
          some (if h : d < D + 1 then G points[i] ⟨d, h⟩ else 0) := by
  have hflen : fault.length = bm.localSize := by
    have := mapM_length _ _ _ hfault; simpa using this
  -- every face has an info
  have hface : ∀ b, b < bm.localSize → ∃ fctNo info row, bm.fctNos[b]? = some fctNo ∧ facetInfo v fctNo = some info ∧
      prepare g refNodes refNodes.length info = some row ∧ fault[b]? = some row := by
    intro b hb
    obtain ⟨row, h1, h2⟩ := mapM_get _ _ _ hfault b b (List.getElem?_range hb)
    simp only [Option.bind_eq_bind, Option.bind_eq_some_iff] at h2
    obtain ⟨fctNo, h3, info, h4, h5⟩ := h2
    exact ⟨fctNo, info, row, h3, h4, h5, h1⟩
  haveI : Inhabited FacetInfo := ⟨⟨0, 0, 0, 0, 0, 0, false, false, 0⟩⟩
  choose! fctNo info row hf hi hp hr using hface
  have hle : bm.localSize ≤ bm.fctNos.length := by
    rcases Nat.eq_zero_or_pos bm.localSize with h | h
    · omega
    · have := hf (bm.localSize - 1) (by omega)
      have := (List.getElem?_eq_some_iff.1 this).1
      omega
  have hloc : bm.localFctNos = (List.range bm.localSize).map fctNo := by
    unfold BMap.localFctNos
    apply List.ext_getElem?
    intro i
    by_cases h : i < bm.localSize
    · rw [List.getElem?_take_of_lt h, hf i h, List.getElem?_map, List.getElem?_range h]; rfl
    · rw [List.getElem?_eq_none (by simp; omega), List.getElem?_eq_none (by simp; omega)]
  have hbnds : bnds v bm.localFctNos = some ((List.range bm.localSize).map fun b => ((info b).up0, (info b).localNo0)) := by
    unfold bnds
    rw [hloc, List.mapM_map]
    refine Error.mapM_some _ _ _ fun b hb => ?_
    have hb' := List.mem_range.1 hb
    obtain ⟨a1, _, dws, a3, a4⟩ := facetInfo_spec v _ _ (hi b hb')
    simp only [Option.bind_eq_some_iff] at a1
    obtain ⟨elNos, a1, a2⟩ := a1
    simp only [Function.comp, a1, a2, a3, a4, Option.bind_eq_bind, Option.bind_some]
  have hl : ∀ b, b < bm.localSize → (info b).localNo0 < D + 2 := by
    intro b hb
    have := hp b hb
    unfold prepare at this
    rw [facetE_get] at this
    by_contra hc
    rw [dif_neg hc] at this
    cases this
  have hmap : ∀ b (hb : b < bm.localSize), adapterMap g points ((List.range bm.localSize).map fun b => ((info b).up0, (info b).localNo0)) b =
      some (geoMap g (info b).up0 (geoBasis g (points.map (Curvilinear.facetParam ⟨(info b).localNo0, hl b hb⟩)))) := by
    intro b hb
    unfold adapterMap
    rw [List.getElem?_map, List.getElem?_range hb]
    have := facetE_get g points (info b).localNo0
    rw [dif_pos (hl b hb)] at this
    simp only [Option.map_some, Option.bind_eq_bind, Option.bind_some]
    rw [show (adapterE g points)[(info b).localNo0]? = _ from this]
    rfl
  let maps : ℕ → ℕ → Fin (D + 1) → ℝ := fun b => if hb : b < bm.localSize then
    geoMap g (info b).up0 (geoBasis g (points.map (Curvilinear.facetParam ⟨(info b).localNo0, hl b hb⟩))) else fun _ _ => 0
  have hmaps : (List.range bm.localSize).mapM (adapterMap g points ((List.range bm.localSize).map fun b => ((info b).up0, (info b).localNo0))) =
      some ((List.range bm.localSize).map maps) := by
    refine Error.mapM_some _ _ _ fun b hb => ?_
    have hb' := List.mem_range.1 hb
    rw [hmap b hb']
    simp only [maps, dif_pos hb']
  obtain ⟨file, h1, h2, h3⟩ := VTU.C39_widening (0 : ℝ) bm.localSize points.length (D + 1) (by omega)
    (fun e i d => if h : d < D + 1 then (((List.range bm.localSize).map maps).getD e fun _ _ => 0) i ⟨d, h⟩ else 0)
  refine ⟨file, ?_, h2, hflen, fun b hb => ?_⟩
  · unfold faultPoints
    simp only [hbnds, Option.bind_eq_bind, Option.bind_some, List.length_map, List.length_range, hmaps]
    exact h1
  · obtain ⟨F, DF, hF, hFF⟩ := C62_geometry g (by omega) hg hgU (info b).up0
    obtain ⟨a1, a2, _⟩ := facetInfo_spec v _ _ (hi b hb)
    refine ⟨fun χ => F (Curvilinear.facetParam ⟨(info b).localNo0, hl b hb⟩ χ),
      ⟨⟨fctNo b, (info b).up0, (info b).localNo0, hl b hb, F, DF, hf b hb, a1, a2, hF, fun _ => rfl⟩⟩,
      ⟨row b, hr b hb, ?_⟩, fun i hi' d hd => ?_⟩
    · have := hp b hb
      unfold prepare at this
      rw [facetE_get, dif_pos (hl b hb)] at this
      simp only [Option.bind_eq_bind, Option.bind_some, Option.some.injEq] at this
      rw [← this]
      apply List.ext_getElem (by simp)
      intro k hk hk'
      simp only [List.length_map, List.length_range] at hk
      simp only [List.getElem_map, List.getElem_range]
      rw [(hFF _ k (by simpa using hk)).1]
      simp
    · rw [h3 b i d hb hi' hd]
      congr 1
      by_cases hd' : d < D + 1
      · rw [if_pos hd', dif_pos hd', dif_pos hd']
        simp only [List.getD, List.getElem?_map, List.getElem?_range hb, Option.map_some, Option.getD_some, maps, dif_pos hb]
        rw [(hFF (points.map (Curvilinear.facetParam ⟨(info b).localNo0, hl b hb⟩)) i (by simpa using hi')).1]
        simp
      · rw [if_neg hd', dif_neg hd']

theorem flatten_get {α : Type} (n : ℕ) : ∀ (ls : List (List α)), (∀ l ∈ ls, l.length = n) → ∀ b k row, k < n → ls[b]? = some row →
    ls.flatten[b * n + k]? = row[k]?
  | [], _, b, k, row, _, h => by simp at h
  | l :: ls, hl, 0, k, row, hk, h => by
    simp only [List.getElem?_cons_zero, Option.some.injEq] at h
    subst h
    rw [List.flatten_cons, Nat.zero_mul, Nat.zero_add, List.getElem?_append_left (by rw [hl l (by simp)]; exact hk)]
  | l :: ls, hl, b + 1, k, row, hk, h => by
    have := hl l (by simp)
    rw [List.flatten_cons, List.getElem?_append_right (by rw [this, Nat.add_mul]; omega), this,
      show (b + 1) * n + k - n = b * n + k by rw [Nat.add_mul]; omega]
    exact flatten_get n ls (fun l h => hl l (by simp [h])) b k row hk (by simpa using h)

/-- C94 (parameters of the law): the parameters of node `k` of face `b` are the values of the scenario's functions at the
position of that node, and there are no others. -/
theorem C94_law_parameters (hD : D = 1 ∨ D = 2) (v : View) (bm : BMap) (g : Geo (D + 1))
    (hg : g.nodes.length = nbf (D + 1) g.degree) (hgU : Spec.Unisolvent (D + 1) g.degree g.nodes)
    (refNodes : List (Fin D → ℝ)) (fault : List (List (Fin (D + 1) → ℝ)))
    (hfault : faultStorage v bm g refNodes refNodes.length = some fault) {P : Type} (pfun : (Fin (D + 1) → ℝ) → P) :
    (setParams pfun fault).length = bm.localSize * refNodes.length ∧
    ∀ b, b < bm.localSize → ∃ G, Chart v bm g b G ∧ ∀ k (hk : k < refNodes.length),
      (setParams pfun fault)[b * refNodes.length + k]? = some (pfun (G refNodes[k])) := by
  obtain ⟨_, _, _, hlen, h⟩ := C94_fault_points hD v bm g hg hgU refNodes fault hfault []
  have hrows : ∀ l ∈ fault, l.length = refNodes.length := by
    intro l hl
    obtain ⟨b, hb⟩ := List.getElem?_of_mem hl
    have hlt : b < bm.localSize := hlen ▸ (List.getElem?_eq_some_iff.1 hb).1
    obtain ⟨G, _, ⟨row, hr, hrow⟩, _⟩ := h b hlt
    rw [hb, Option.some.injEq] at hr
    rw [hr, hrow, List.length_map]
  have hset : setParams pfun fault = fault.flatten.map pfun := by
    unfold setParams
    simp only
    apply List.ext_getElem?
    intro i
    generalize fault.flatten = l
    have : ∀ (n : ℕ), n ≤ l.length → (List.range n).filterMap (fun index => l[index]?.map pfun) = (l.take n).map pfun := by
      intro n hn
      induction n with
      | zero => simp
      | succ n ih =>
        rw [List.range_succ, List.filterMap_append, ih (by omega), List.take_add_one, List.map_append]
        have : l[n]? = some l[n] := List.getElem?_eq_getElem (by omega)
        simp [this]
    rw [this _ (le_refl _), List.take_length]
  have hflat : fault.flatten.length = bm.localSize * refNodes.length := by
    rw [List.length_flatten, ← hlen]
    rw [List.map_congr_left hrows]
    simp
  refine ⟨by rw [hset, List.length_map, hflat], fun b hb => ?_⟩
  obtain ⟨G, hG, ⟨row, hr, hrow⟩, _⟩ := h b hb
  refine ⟨G, hG, fun k hk => ?_⟩
  rw [hset, List.getElem?_map, flatten_get _ _ hrows b k row hk hr, hrow, List.getElem?_map, List.getElem?_eq_getElem hk]
  rfl

theorem column_length (o : Op ℝ X) (hs : Sized o) (time : ℝ) (f : ℕ) (tr st : ℕ → ℕ → ℝ) (node : ℕ) :
    (RateAndState.column o time f tr st node).length = 2 + 3 * o.T := by
  have hV : ((RateAndState.answer o time f tr (st node o.T) node).1).length = o.T := hs.slip _ _ _ _ _ _
  unfold RateAndState.column
  simp only [List.length_append, List.length_cons, List.length_nil, List.length_map, List.length_range, hs.tau _ _ _ hV, hV]
  omega

theorem stateNames_length (T : ℕ) : (RateAndState.stateNames T).length = 2 + 3 * T := by
  unfold RateAndState.stateNames; simp; omega

/-- The output value `q` at node `k` of face `f` (state variable, slip, shear traction, slip rate, normal stress:
`RateAndState.column`). -/
noncomputable def nodeOutput (o : Op ℝ X) (time : ℝ) (tr st : ℕ → ℝ) (f q k : ℕ) : ℝ :=
  (RateAndState.column o time f (entry o.nbf (o.T + 1) tr f) (entry o.nbf (o.T + 1) st f) k).getD q 0

theorem state_data (o : Op ℝ X) (hs : Sized o) (degree : ℕ) (refNodes : List (Fin D → ℝ)) (time : ℝ) (tr st : ℕ → ℝ)
    (subset : List ℕ) (k q j f : ℕ) (hk : k < o.nbf) (hq : q < 2 + 3 * o.T) (hj : subset[j]? = some f) :
    (state degree refNodes o time tr st subset).data k q j = nodeOutput o time tr st f q k := by
  have h := RateAndState.C64_output o hs time f (block (tractionBlockSize o) tr f) (block (blockSize o) st f) (fun _ => 0) k q hk
  have hf : subset.getD j 0 = f := by rw [List.getD, hj]; rfl
  unfold state
  simp only [hf]
  refine Eq.trans h ?_
  have hl := column_length o hs time f (entry o.nbf (o.T + 1) tr f) (entry o.nbf (o.T + 1) st f) k
  unfold nodeOutput
  rw [List.getD]
  have e : (RateAndState.column o time f (asMatrix o.nbf (block (tractionBlockSize o) tr f))
      (asMatrix o.nbf (block (blockSize o) st f)) k) = RateAndState.column o time f (entry o.nbf (o.T + 1) tr f) (entry o.nbf (o.T + 1) st f) k := rfl
  rw [e, List.getElem?_eq_getElem (by omega)]
  rfl

/-- C94 (values): the fault output of a rank has one array for each of `state`, `slip`, `traction`, `slip-rate`
and `normal-stress`, under that name and in that order; at point `i` of face `b` it has the value of the polynomial
through the node values of that face at that point. -/
theorem C94_fault_values (hD : D = 1 ∨ D = 2) (o : Op ℝ X) (hs : Sized o) (degree : ℕ) (refNodes : List (Fin D → ℝ))
    (hr : refNodes.length = nbf D degree) (hU : Spec.Unisolvent D degree refNodes) (ho : o.nbf = refNodes.length)
    (num : ℕ) (time : ℝ) (tr st : ℕ → ℝ) (points : List (Fin D → ℝ)) :
    let file := pointData points (stateAll degree refNodes o num time tr st)
    file.length = 2 + 3 * o.T ∧
    ∀ q, q < 2 + 3 * o.T → ∃ values, file[q]? = some ((RateAndState.stateNames o.T)[q]?, values) ∧
      values.length = num * points.length ∧
      ∀ b, b < num → ∀ u, Spec.Interpolates D degree refNodes (nodeOutput o time tr st b q) u →
        ∀ i (hi : i < points.length), values[b * points.length + i]? = some (u points[i]) := by
  have hD' : D = 1 ∨ D = 2 ∨ D = 3 := by omega
  intro file
  have hnq : (stateAll degree refNodes o num time tr st).numQuantities = 2 + 3 * o.T := stateNames_length o.T
  refine ⟨by simp only [file, pointData, List.length_map, List.length_range, hnq], fun q hq => ?_⟩
  refine ⟨VTU.pointDataOf num points.length (fun el i => map (stateAll degree refNodes o num time tr st) el
      (evaluationMatrix (stateAll degree refNodes o num time tr st) points) i q), ?_, ?_, fun b hb u hu i hi => ?_⟩
  · simp only [file, pointData]
    rw [List.getElem?_map, List.getElem?_range (by omega)]
    simp only [Option.map_some, Option.some.injEq, Prod.mk.injEq]
    refine ⟨?_, ?_⟩
    · unfold name
      rw [show (stateAll degree refNodes o num time tr st).names = RateAndState.stateNames o.T from rfl, if_neg]
      rw [List.isEmpty_iff]; intro h; have := stateNames_length o.T; rw [h, List.length_nil] at this; omega
    · have : (stateAll degree refNodes o num time tr st).numElements = num := by
        change (List.range num).length = num; simp
      rw [this]
  · exact VTU.pointDataOf_length _ _ _
  · rw [VTU.pointDataOf_get _ _ _ _ hi _ hb, Option.some.injEq]
    refine C62_map (stateAll degree refNodes o num time tr st) hD' hr hU points b i q hi u ⟨hu.1, fun k hk => ?_⟩
    beta_reduce
    rw [show (stateAll degree refNodes o num time tr st).data k q b = nodeOutput o time tr st b q k from
      state_data o hs degree refNodes time tr st _ k q b b (by rw [ho]; exact hk) hq (List.getElem?_range hb)]
    exact hu.2 k hk

/-- C94 (slip and state for the comparison with an exact solution): the finite element function of a list of faces has the slip
components and the state, without names, and on the `j`-th face of the list, whatever its number `f` is, it is the polynomial through
the values which the state vector has for the nodes of face `f`. -/
theorem C94_raw_state (hD : D = 1 ∨ D = 2) (o : Op ℝ X) (degree : ℕ) (refNodes : List (Fin D → ℝ))
    (hr : refNodes.length = nbf D degree) (hU : Spec.Unisolvent D degree refNodes) (st : ℕ → ℝ)
    (subset : List ℕ) (points : List (Fin D → ℝ)) :
    let fn := rawState degree refNodes o st subset
    fn.numElements = subset.length ∧ fn.numQuantities = o.T + 1 ∧
    ∀ j f, subset[j]? = some f → ∀ q, q < o.T + 1 → ∀ u,
      Spec.Interpolates D degree refNodes (fun k => st (f * (o.nbf * (o.T + 1)) + (k + q * o.nbf))) u →
      ∀ i (hi : i < points.length), map fn j (evaluationMatrix fn points) i q = u points[i] := by
  have hD' : D = 1 ∨ D = 2 ∨ D = 3 := by omega
  refine ⟨rfl, rfl, fun j f hj q hq u hu i hi => ?_⟩
  refine C62_map (rawState degree refNodes o st subset) hD' hr hU points j i q hi u ⟨hu.1, fun k hk => ?_⟩
  have hf : subset.getD j 0 = f := by rw [List.getD, hj]; rfl
  refine (hu.2 k hk).trans ?_
  change _ = block (blockSize o) st (subset.getD j 0) (RateAndState.pos o.nbf k q)
  rw [hf]
  rfl

/-- C94 (parameters as output): on the `j`-th face of a list of faces, whatever its number `f` is, the function `q` of the parameter
output is the polynomial through the values of the scenario's parameter `q` at the positions of the nodes of face `f`. -/
theorem C94_parameter_output (hD : D = 1 ∨ D = 2) (v : View) (bm : BMap) (g : Geo (D + 1))
    (hg : g.nodes.length = nbf (D + 1) g.degree) (hgU : Spec.Unisolvent (D + 1) g.degree g.nodes)
    (degree : ℕ) (refNodes : List (Fin D → ℝ)) (hr : refNodes.length = nbf D degree) (hU : Spec.Unisolvent D degree refNodes)
    (fault : List (List (Fin (D + 1) → ℝ))) (hfault : faultStorage v bm g refNodes refNodes.length = some fault)
    {P : Type} (pfun : (Fin (D + 1) → ℝ) → P) (component : P → ℕ → ℝ) (lawParams : ℕ → ℕ → ℝ)
    (hlaw : ∀ index p, (setParams pfun fault)[index]? = some p → ∀ q, lawParams index q = component p q)
    (names : List String) (subset : List ℕ) (points : List (Fin D → ℝ)) :
    let fn := params degree refNodes refNodes.length names lawParams subset
    fn.numElements = subset.length ∧ fn.names = names ∧
    ∀ j f, subset[j]? = some f → f < bm.localSize → ∃ G, Chart v bm g f G ∧ ∀ q u,
      (Spec.IsPoly D degree u ∧ ∀ k (hk : k < refNodes.length), u refNodes[k] = component (pfun (G refNodes[k])) q) →
      ∀ i (hi : i < points.length), map fn j (evaluationMatrix fn points) i q = u points[i] := by
  have hD' : D = 1 ∨ D = 2 ∨ D = 3 := by omega
  refine ⟨rfl, rfl, fun j f hj hf => ?_⟩
  obtain ⟨_, h⟩ := C94_law_parameters hD v bm g hg hgU refNodes fault hfault pfun
  obtain ⟨G, hG, hGk⟩ := h f hf
  refine ⟨G, hG, fun q u hu i hi => ?_⟩
  refine C62_map (params degree refNodes refNodes.length names lawParams subset) hD' hr hU points j i q hi u ⟨hu.1, fun k hk => ?_⟩
  have hf' : subset.getD j 0 = f := by rw [List.getD, hj]; rfl
  change _ = lawParams (subset.getD j 0 * refNodes.length + k) q
  rw [hf', hlaw _ _ (hGk k hk)]
  exact hu.2 k hk

/-- C94 (what is drawn is where it was computed): if an output quantity at the nodes of a face is the value of a
function of the position which is, on that face, a polynomial of the degree of the fault, then every point of the file on
that face has the value of this function at the position of the point. -/
theorem C94_drawn_in_place (hD : D = 1 ∨ D = 2) (v : View) (bm : BMap) (g : Geo (D + 1))
    (hg : g.nodes.length = nbf (D + 1) g.degree) (hgU : Spec.Unisolvent (D + 1) g.degree g.nodes)
    (o : Op ℝ X) (hs : Sized o) (degree : ℕ) (refNodes : List (Fin D → ℝ))
    (hr : refNodes.length = nbf D degree) (hU : Spec.Unisolvent D degree refNodes) (ho : o.nbf = refNodes.length)
    (fault : List (List (Fin (D + 1) → ℝ))) (hfault : faultStorage v bm g refNodes refNodes.length = some fault)
    (time : ℝ) (tr st : ℕ → ℝ) (points : List (Fin D → ℝ)) (file : List ℝ) (hfile : faultPoints v bm g points = some file)
    (q : ℕ) (hq : q < 2 + 3 * o.T) (b : ℕ) (hb : b < bm.localSize) (w : (Fin (D + 1) → ℝ) → ℝ)
    (hw : ∀ k row, fault[b]? = some row → ∀ x, row[k]? = some x → nodeOutput o time tr st b q k = w x)
    (hwp : ∀ G, Chart v bm g b G → Spec.IsPoly D degree (fun χ => w (G χ))) :
    ∃ values, (pointData points (stateAll degree refNodes o bm.localSize time tr st))[q]? =
        some ((RateAndState.stateNames o.T)[q]?, values) ∧
      ∀ i, i < points.length → ∃ x : Fin (D + 1) → ℝ, values[b * points.length + i]? = some (w x) ∧
        ∀ d, d < 3 → file[(b * points.length + i) * 3 + d]? = some (if h : d < D + 1 then x ⟨d, h⟩ else 0) := by
  obtain ⟨_, h1⟩ := C94_fault_values hD o hs degree refNodes hr hU ho bm.localSize time tr st points
  obtain ⟨values, h2, _, h3⟩ := h1 q hq
  obtain ⟨file', h4, _, _, h5⟩ := C94_fault_points hD v bm g hg hgU refNodes fault hfault points
  obtain rfl : file' = file := by rw [hfile, Option.some.injEq] at h4; exact h4.symm
  obtain ⟨G, hG, ⟨row, hrow, hrG⟩, h6⟩ := h5 b hb
  refine ⟨values, h2, fun i hi => ⟨G points[i], ?_, fun d hd => h6 i hi d hd⟩⟩
  refine h3 b hb (fun χ => w (G χ)) ⟨hwp G hG, fun k hk => ?_⟩ i hi
  refine (hw k row hrow _ ?_).symm
  rw [hrG, List.getElem?_map, List.getElem?_eq_getElem hk]
  rfl

/-- C94 (volume output): the points of element `e` in the file are the images of the output points under the map of that
element. -/
theorem C94_domain_points (g : Geo D) (hD : D = 2 ∨ D = 3) (hg : g.nodes.length = nbf D g.degree)
    (hgU : Spec.Unisolvent D g.degree g.nodes) (num : ℕ) (points : List (Fin D → ℝ)) :
    ∃ file, domainPoints g num points = some file ∧ file.length = num * points.length * 3 ∧
      ∀ e, e < num → ∃ F DF, Spec.ElementMap D g.degree g.nodes (g.verts e) F DF ∧
        ∀ i (hi : i < points.length) d, d < 3 → file[(e * points.length + i) * 3 + d]? =
          some (if h : d < D then F points[i] ⟨d, h⟩ else 0) := by
  obtain ⟨file, h1, h2, h3⟩ := VTU.C39_widening (0 : ℝ) num points.length D (by omega)
    (fun e i d => if h : d < D then volumeMap g points 0 e i ⟨d, h⟩ else 0)
  refine ⟨file, h1, h2, fun e he => ?_⟩
  obtain ⟨F, DF, hF, hFF⟩ := C62_geometry g hD hg hgU e
  refine ⟨F, DF, hF, fun i hi d hd => ?_⟩
  rw [h3 e i d he hi hd]
  congr 1
  by_cases hd' : d < D
  · rw [if_pos hd', dif_pos hd', dif_pos hd']
    unfold volumeMap
    rw [Nat.add_zero, (hFF points i hi).1]
  · rw [if_neg hd', dif_neg hd']

/-- C94 (derivatives in the volume output): for every coordinate `d` and every quantity `p` there is an array under the name
`d<quantity>_d<coordinate>`, and it has the derivative of the quantity with respect to that physical coordinate. -/
theorem C94_jacobian (f : FEF D) (g : Geo D) (hD : D = 2 ∨ D = 3) (hlen : f.nodes.length = nbf D f.degree)
    (hV : Spec.Unisolvent D f.degree f.nodes) (hglen : g.nodes.length = nbf D g.degree)
    (hgV : Spec.Unisolvent D g.degree g.nodes) (points : List (Fin D → ℝ)) :
    (jacobianData g points f).length = D * f.numQuantities ∧
    ∀ (d : Fin D) (p : ℕ), p < f.numQuantities →
      ∃ values, (jacobianData g points f)[(d : ℕ) * f.numQuantities + p]? =
          some ((name f p).map fun n => "d" ++ n ++ "_d" ++ toString (d : ℕ), values) ∧
        values.length = f.numElements * points.length ∧
        ∀ e, e < f.numElements → ∀ P : Spec.Piece D,
          Spec.Interpolates D f.degree f.nodes (fun k => f.data k p e) (P.u p) →
          Spec.ElementMap D g.degree g.nodes (g.verts e) P.F P.DF →
          ∀ i (hi : i < points.length), (P.DF points[i]).det ≠ 0 →
            ∀ γ, Spec.PhysicalGradient P p points[i] γ → values[e * points.length + i]? = some (γ d) := by
  have hflat : ∀ (A : ℕ) (h : ℕ → ℕ → Option String × List ℝ) (n : ℕ),
      ((List.range A).flatMap fun d => (List.range n).map (h d)).length = A * n ∧
      ∀ d p, d < A → p < n → ((List.range A).flatMap fun d => (List.range n).map (h d))[d * n + p]? = some (h d p) := by
    intro A h n
    refine ⟨by simp [List.length_flatMap], fun d p hd hp => ?_⟩
    rw [List.flatMap_def, flatten_get n _ (by simp) d p ((List.range n).map (h d)) hp
      (by rw [List.getElem?_map, List.getElem?_range hd]; rfl), List.getElem?_map, List.getElem?_range hp]
    rfl
  refine ⟨(hflat D _ _).1, fun d p hp => ?_⟩
  refine ⟨_, (hflat D _ _).2 d p d.2 hp, VTU.pointDataOf_length _ _ _, fun e he P hu hF i hi hdet γ hγ => ?_⟩
  have h1 : jacIndex D d p % D = d := by
    unfold jacIndex; rw [Nat.add_mul_mod_self_right]; exact Nat.mod_eq_of_lt d.2
  have h2 : jacIndex D d p / D = p := by
    unfold jacIndex; rw [Nat.add_mul_div_right _ _ (by omega), Nat.div_eq_of_lt d.2, Nat.zero_add]
  unfold jacobianArray
  rw [VTU.pointDataOf_get _ _ _ _ hi _ he, dif_pos (by rw [h1]; exact d.2)]
  have h3 : (⟨jacIndex D d p % D, by rw [h1]; exact d.2⟩ : Fin D) = d := Fin.ext h1
  rw [h3, h2, Option.some.injEq]
  exact C62_gradient f g hD hlen hV hglen hgV points e i p hi P hu hF hdet γ hγ d

theorem probeRow_get (pre post : List (FEF D)) (f : FEF D) (p : ProbeMeta D) (q : ℕ) (hq : q < f.numQuantities) :
    (probeRow (pre ++ f :: post) p)[(pre.map (·.numQuantities)).sum + q]? =
      some (map f p.no (evaluationMatrix f [p.chi]) 0 q) := by
  unfold probeRow
  rw [List.flatMap_append, List.flatMap_cons, List.getElem?_append_right (by simp [List.length_flatMap])]
  rw [List.getElem?_append_left (by simp [List.length_flatMap]; omega)]
  simp only [List.length_flatMap, List.length_map, List.length_range, Nat.add_sub_cancel_left]
  rw [List.getElem?_map, List.getElem?_range hq]
  rfl

/-- C94 (fault probes): in every row of the table of a probe, column `q` after the time has the value of quantity `q`
of the face of the probe, at the point of the probe on that face. -/
theorem C94_probe (hD : D = 1 ∨ D = 2) (o : Op ℝ X) (hs : Sized o) (degree : ℕ) (refNodes : List (Fin D → ℝ))
    (hr : refNodes.length = nbf D degree) (hU : Spec.Unisolvent D degree refNodes) (ho : o.nbf = refNodes.length)
    (time : ℝ) (tr st : ℕ → ℝ) (bndNo : ℕ → ℕ) (order : List ℕ) (located : List (ℕ × (Fin D → ℝ)))
    (hn : order.Nodup) (hset : ∀ e, e ∈ order ↔ e ∈ located.map (·.1)) (m fctNo : ℕ) (χ : Fin D → ℝ)
    (hm : located[m]? = some (fctNo, χ)) :
    ∃ p, (probeMetas bndNo order located)[m]? = some p ∧
      let f := state degree refNodes o time tr st (Probes.numberElements bndNo order).1
      (probeRow [f] p).length = 2 + 3 * o.T ∧
      ∀ q, q < 2 + 3 * o.T → ∀ u, Spec.Interpolates D degree refNodes (nodeOutput o time tr st (bndNo fctNo) q) u →
        (probeRow [f] p)[q]? = some (u χ) := by
  have hD' : D = 1 ∨ D = 2 ∨ D = 3 := by omega
  refine ⟨⟨Probes.probeNo bndNo order fctNo, χ⟩, by unfold probeMetas; rw [List.getElem?_map, hm]; rfl, ?_⟩
  intro f
  have hnq : f.numQuantities = 2 + 3 * o.T := stateNames_length o.T
  refine ⟨by simp [probeRow, hnq], fun q hq u hu => ?_⟩
  have := probeRow_get [] [] f ⟨Probes.probeNo bndNo order fctNo, χ⟩ q (by omega)
  simp only [List.nil_append, List.map_nil, List.sum_nil, Nat.zero_add] at this
  rw [this, Option.some.injEq]
  have hel : fctNo ∈ located.map (·.1) := List.mem_map.2 ⟨_, List.mem_of_getElem? hm, rfl⟩
  have hno := Probes.C41_output_number bndNo (located.map (·.1)) order hn hset fctNo hel
  refine C62_map f hD' hr hU [χ] _ 0 q (by simp) u ⟨hu.1, fun k hk => ?_⟩
  beta_reduce
  rw [show f.data k q (Probes.probeNo bndNo order fctNo) = nodeOutput o time tr st (bndNo fctNo) q k from
    state_data o hs degree refNodes time tr st _ k q _ _ (by rw [ho]; exact hk) hq hno]
  exact hu.2 k hk

/-- C94 (HDF5 probes): with one function, the values of the probes are written one probe after the other, each with the
numbers of the table of that probe. -/
theorem C94_hdf5 (f : FEF D) (probes : List (ProbeMeta D)) :
    hdf5Written [f] probes = probes.flatMap (probeRow [f]) := by
  unfold hdf5Written hdf5Values probeRow
  simp only [List.flatMap_cons, List.flatMap_nil, List.append_nil, List.head?_cons, Option.elim_some]
  apply List.take_of_length_le
  simp [List.length_flatMap]

/-- C94 (HDF5 probes, two functions): of the two functions of a volume probe of a fully dynamic run (velocity and
displacement) the HDF5 writer stores the first one only; the table of the other probe writers has both. -/
theorem C94_hdf5_drops_second (f₁ f₂ : FEF D) (probes : List (ProbeMeta D)) :
    hdf5Written [f₁, f₂] probes = probes.flatMap (probeRow [f₁]) ∧
    ∀ p, probeRow [f₁, f₂] p = probeRow [f₁] p ++ probeRow [f₂] p := by
  refine ⟨?_, fun p => by simp [probeRow]⟩
  unfold hdf5Written hdf5Values probeRow
  simp only [List.flatMap_cons, List.flatMap_nil, List.append_nil, List.head?_cons, Option.elim_some]
  apply List.take_left'
  simp [List.length_flatMap]

/-- Two triangles that share facet 0, which is on the fault. -/
def exView : View where
  rank := 0
  elems := [[0, 1, 2], [1, 2, 3]]
  numLocal := 2
  owner := [0, 0]
  gid := [0, 1]
  shared := []
  facets := [[1, 2], [0, 1], [0, 2], [1, 3], [2, 3]]
  numLocalFacets := 5
  facetGid := [0, 1, 2, 3, 4]
  bc := [5, 1, 1, 1, 1]
  up := [[0, 1], [0], [0], [1], [1]]
  down := [[1, 2, 0], [0, 3, 4]]

/-- The boundary map of the fault of `exView`. -/
def exMap : BMap := ⟨[0], [0], 1, [], []⟩

/-- The unit triangle and its mirror image. -/
noncomputable def exGeo : Geo 2 :=
  ⟨1, Equidistant.nodes .VTK 2 1, fun e k => if e = 0 then (Equidistant.nodes .VTK 2 1).getD k 0 else ![1, 1] - (Equidistant.nodes .VTK 2 1).getD k 0⟩

/-- An operator on a fault with two nodes per face. -/
noncomputable def exOpR : Op ℝ (Fin 2 → ℝ) where
  ar := ⟨0, fun a b => a + b, fun a b => decide (a < b), fun l => |l.sum|⟩
  law := ⟨fun i sn tau => i + sn + tau.sum, fun _ _ sn tau psi _ => ([sn + tau.getD 0 0 + psi], 0), fun i V psi => i + V - psi,
    fun i => [i], fun _ tau V => [tau.getD 0 0 + V.getD 0 0], fun _ sn => - sn⟩
  nbf := 2
  T := 1
  coords := fun _ _ => 0
  source := none
  delta_tau := none
  delta_sn := none

example : (∃ fault, faultStorage exView exMap exGeo (Equidistant.nodes .VTK 1 1) (Equidistant.nodes .VTK 1 1).length = some fault) ∧
    exGeo.nodes.length = nbf 2 exGeo.degree ∧ Spec.Unisolvent 2 exGeo.degree exGeo.nodes ∧ Sized exOpR ∧
    (Equidistant.nodes .VTK 1 1).length = nbf 1 1 ∧ Spec.Unisolvent 1 1 (Equidistant.nodes .VTK 1 1) ∧
    exOpR.nbf = (Equidistant.nodes .VTK 1 1).length := by
  have h1 := (Equidistant.C61_lattice .VTK 2 1 (by decide) (by decide)).2.1
  have h2 := (C78_unisolvent 2 1 (by decide) _ h1).1 (C78_equidistant .VTK 2 1 (by decide) (by decide))
  have h3 := (Equidistant.C61_lattice .VTK 1 1 (by decide) (by decide)).2.1
  have h4 := (C78_unisolvent 1 1 (by decide) _ h3).1 (C78_equidistant .VTK 1 1 (by decide) (by decide))
  refine ⟨?_, h1, h2, ⟨fun _ _ _ _ _ _ => rfl, fun _ => rfl, fun i tau V h => rfl⟩, h3, h4, by rw [h3]; rfl⟩
  refine Option.ne_none_iff_exists'.1 ?_
  unfold faultStorage
  rw [show List.range exMap.localSize = [0] from rfl]
  simp [show exMap.fctNo 0 = some 0 from rfl, show facetInfo exView 0 = some ⟨0, 1, 0, 1, 2, 0, true, true, 5⟩ by decide,
    prepare, facetE_get]

end Output

section LoopsExample
open RateAndState

example : Sized exOp ∧ IsNumberOrder exOp.ar.lt exOp.ar.zero ∧
    (∀ f node, f < 1 → node < exOp.nbf → (nodeAnswer exOp 1 (fun i => i) f (entry exOp.nbf (exOp.T + 1) (fun i => 2 * i) f node exOp.T) node).2 ≤ 2) ∧
    rhs exOp 1 1 (fun i => i) (fun i => 2 * i) (fun _ => 0) = none := by
  refine ⟨⟨fun _ _ _ _ _ _ => rfl, fun _ => rfl, fun i tau V h => ?_⟩, ⟨⟨fun a => ?_, fun a b c h1 h2 => ?_⟩, fun a b c h h' => ?_⟩, ?_, ?_⟩
  · simp only [exOp, List.length_zipWith] at h ⊢; rw [h]; rfl
  · simp [exOp]
  · simp [exOp] at h1 h2 ⊢; omega
  · simp [exOp] at h h' ⊢; omega
  · intro f node _ _
    have : (f * 3 + node) % 3 < 3 := Nat.mod_lt _ (by decide)
    exact Nat.lt_succ_iff.1 this
  · decide +kernel

/-- The operator of the example with a law that never fails. -/
def exOkOp : Op Int Nat :=
  { exOp with law := { exOp.law with slip_rate := fun i _ sn tau psi _ => ([sn + tau.getD 0 0, psi - i], 0) } }

example : ((rhs exOkOp 2 1 (fun i => i) (fun i => 2 * i) (fun _ => 0)).map fun r => ((List.range 19).map r.1, r.2)) =
    some ([3, 6, 9, 12, 13, 14, 3, 7, 11, 31, 34, 37, 27, 28, 29, 41, 45, 49, 0], 66) := by decide +kernel

end LoopsExample
end Tandem.FaultOutput
