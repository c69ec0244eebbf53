import Verif.Props.GreenOp
import Verif.Model.DirectTraction
import Mathlib.Algebra.BigOperators.Intervals
import Mathlib.Tactic.Ring
/-! # The product with the Green's operator is the response to the slip (C103, algebraic part) -/
namespace Tandem.GreenOp
open Tandem.Spec.Green

variable {L : Type} [DecidableEq L]

theorem slipVec_block (env : Env ℝ L) (p : ℕ) (slip : L → ℕ → ℝ) {y : ℕ} {b : L} (hy : (env.labels p)[y]? = some b) {e : ℕ} (he : e < env.bc) :
    slipVec env p slip (env.bc * y + e) = slip b e := by
  have key : ∀ (bs : List (L × ℕ)) (v : ℕ → ℝ), (∀ b' y', (b', y') ∈ bs → (env.labels p)[y']? = some b') →
      ((b, y) ∈ bs ∨ v (env.bc * y + e) = slip b e) →
      bs.foldl (fun v b => fun I => if env.bc * b.2 ≤ I ∧ I < env.bc * b.2 + env.bc then slip b.1 (I - env.bc * b.2) else v I) v (env.bc * y + e) = slip b e := by
    intro bs
    induction bs with
    | nil => intro v _ h; simpa using h
    | cons c cs ih =>
      intro v hmem h
      rw [List.foldl_cons]
      refine ih _ (fun b' y' h' => hmem b' y' (List.mem_cons_of_mem _ h')) ?_
      by_cases hc : env.bc * c.2 ≤ env.bc * y + e ∧ env.bc * y + e < env.bc * c.2 + env.bc
      · have hcy : c.2 = y ∧ env.bc * y + e - env.bc * c.2 = e := by
          have := divmod_unique (b := env.bc) (x := c.2) (y := y) (d := env.bc * y + e - env.bc * c.2) (e := e) (by omega) he (by omega)
          exact this
        right
        have hcb : c.1 = b := by
          have := hmem c.1 c.2 (by simp)
          rw [hcy.1, hy] at this
          exact (Option.some.inj this).symm
        rw [if_pos hc, hcy.2, hcb]
      · rcases h with h | h
        · rcases List.mem_cons.1 h with h | h
          · exact absurd (by rw [← h]; simp; omega) hc
          · exact Or.inl h
        · right; rw [if_neg hc, h]
  unfold slipVec
  refine key _ _ (fun b' y' h' => ?_) (Or.inl ?_)
  · exact (mem_blocks env p y' b').1 h'
  · exact (mem_blocks env p y b).2 hy

/-- A response that is linear on the facets of the fault commutes with finite sums. -/
theorem response_sum {ι : Type} (R : (L → ℕ → ℝ) → L → ℕ → ℝ) (a : L) (d : ℕ)
    (hlin : ∀ (c1 c2 : ℝ) (s1 s2 : L → ℕ → ℝ), R (c1 • s1 + c2 • s2) a d = c1 * R s1 a d + c2 * R s2 a d) (t : Finset ι) (c : ι → ℝ) (s : ι → L → ℕ → ℝ) :
    R (∑ i ∈ t, c i • s i) a d = ∑ i ∈ t, c i * R (s i) a d := by
  classical
  induction t using Finset.induction_on with
  | empty =>
    have := hlin 0 0 0 0
    simpa using this
  | insert i t hi ih =>
    rw [Finset.sum_insert hi, Finset.sum_insert hi, ← ih]
    have := hlin (c i) 1 (s i) (∑ j ∈ t, c j • s j)
    simpa using this

/-- **C103 (Green's operator)**: if `G` is the Green's operator (C44) of a slip-to-traction map that is linear and reads the `bc` slip
components of the facets of the fault only, and `tb` is the boundary traction, then `update_traction` yields for every slip and time, at every
component of every facet, the response to the slip plus time times the boundary traction. -/
theorem C103_green_apply {env : Env ℝ L} (p : ℕ) (hn : (env.labels p).Nodup)
    (hlin : ∀ a ∈ env.labels p, ∀ (c1 c2 : ℝ) (s1 s2 : L → ℕ → ℝ) (d : ℕ), env.response (c1 • s1 + c2 • s2) a d = c1 * env.response s1 a d + c2 * env.response s2 a d)
    (hloc : ∀ a ∈ env.labels p, ∀ s1 s2 : L → ℕ → ℝ, (∀ b ∈ env.labels p, ∀ e < env.bc, s1 b e = s2 b e) → ∀ d, env.response s1 a d = env.response s2 a d)
    {G : Mat ℝ} (hG : IsOperator env.response env.br env.bc (env.labels p) G) {tb : ℕ → ℝ} (ht : IsTraction env.boundary env.br (env.labels p) tb)
    (time : ℝ) (slip : L → ℕ → ℝ) (x : ℕ) (a : L) (hx : (env.labels p)[x]? = some a) (d : ℕ) (hd : d < env.br) :
    updateTraction env p G tb time slip (env.br * x + d) = env.response slip a d + time * env.boundary a d := by
  have ha : a ∈ env.labels p := List.mem_of_getElem? hx
  unfold updateTraction
  rw [ht x a hx d hd]
  congr 1
  have hN : env.nGf p = (env.labels p).length * env.bc := by unfold Env.nGf; rw [facets_eq]
  have hsum : matVec (env.nGf p) G (slipVec env p slip) (env.br * x + d) =
      ∑ y ∈ Finset.range (env.labels p).length, ∑ e ∈ Finset.range env.bc, G (env.br * x + d) (env.bc * y + e) * slipVec env p slip (env.bc * y + e) := by
    unfold matVec
    rw [hN]
    induction (env.labels p).length with
    | zero => simp
    | succ n ih =>
      rw [Finset.sum_range_succ, ← ih, Nat.succ_mul, Finset.sum_range_add]
      simp only [mul_comm env.bc n]
  rw [hsum]
  have hfield : ∀ b ∈ env.labels p, ∀ e < env.bc,
      (∑ y ∈ Finset.range (env.labels p).length ×ˢ Finset.range env.bc, slipVec env p slip (env.bc * y.1 + y.2) • (fun b' e' =>
        if (env.labels p)[y.1]? = some b' ∧ e' = y.2 then (1 : ℝ) else 0)) b e = slip b e := by
    intro b hb e he
    obtain ⟨y, hy⟩ := List.mem_iff_getElem?.1 hb
    have hyl : y < (env.labels p).length := (List.getElem?_eq_some_iff.1 hy).1
    simp only [Finset.sum_apply, Pi.smul_apply, smul_eq_mul]
    rw [Finset.sum_eq_single (y, e)]
    · rw [if_pos ⟨hy, rfl⟩, mul_one, slipVec_block env p slip hy he]
    · intro z hz hne
      rw [if_neg, mul_zero]
      rintro ⟨h1, h2⟩
      exact hne (Prod.ext (nodup_inj hn h1 hy) h2.symm)
    · intro h; exact absurd (by simp [hyl, he]) h
  rw [← hloc a ha _ slip hfield d, response_sum env.response a d (fun c1 c2 s1 s2 => hlin a ha c1 c2 s1 s2 d), Finset.sum_product]
  refine Finset.sum_congr rfl fun y hy => Finset.sum_congr rfl fun e he => ?_
  have hy' := Finset.mem_range.1 hy
  have hyb : (env.labels p)[y]? = some ((env.labels p)[y]) := List.getElem?_eq_getElem hy'
  rw [hG x a y _ hx hyb d hd e (Finset.mem_range.1 he), mul_comm]
  congr 2
  funext b' e'
  unfold unitField
  congr 1
  rw [hyb]
  simp [eq_comm]

/-- From superposition to the Green's operator, for any way `Dir` of computing tractions from boundary data and slip. -/
theorem green_of_direct {env : Env ℝ L} (p : ℕ) (hn : (env.labels p).Nodup) {Γ : Type} (Dir : Γ → (L → ℕ → ℝ) → (L → ℕ → ℝ) → Prop)
    (Comb : ℝ → ℝ → Γ → Γ → Γ → Prop)
    (hcomb : ∀ c1 c2 γ γ1 γ2 s s1 s2 T T1 T2, Comb c1 c2 γ γ1 γ2 → (∀ b ∈ env.labels p, ∀ e < env.bc, s b e = c1 * s1 b e + c2 * s2 b e) →
      Dir γ s T → Dir γ1 s1 T1 → Dir γ2 s2 T2 → ∀ a ∈ env.labels p, ∀ d, T a d = c1 * T1 a d + c2 * T2 a d)
    (γ0 γ1 γ : Γ) (time : ℝ) (h0 : ∀ c1 c2, Comb c1 c2 γ0 γ0 γ0) (h1 : Comb 1 time γ γ0 γ1)
    (hresp : ∀ s, Dir γ0 s (env.response s)) (hbnd : Dir γ1 0 env.boundary)
    {G : Mat ℝ} (hG : IsOperator env.response env.br env.bc (env.labels p) G) {tb : ℕ → ℝ} (ht : IsTraction env.boundary env.br (env.labels p) tb)
    (slip T : L → ℕ → ℝ) (hT : Dir γ slip T) (x : ℕ) (a : L) (hx : (env.labels p)[x]? = some a) (d : ℕ) (hd : d < env.br) :
    updateTraction env p G tb time slip (env.br * x + d) = T a d := by
  rw [C103_green_apply p hn ?_ ?_ hG ht time slip x a hx d hd]
  · have := hcomb 1 time γ γ0 γ1 slip slip 0 T _ _ h1 (fun b _ e _ => by simp) hT (hresp slip) hbnd a (List.mem_of_getElem? hx) d
    rw [this]; ring
  · exact fun a ha c1 c2 s1 s2 d => hcomb c1 c2 γ0 γ0 γ0 _ s1 s2 _ _ _ (h0 _ _) (fun b _ e _ => rfl) (hresp _) (hresp _) (hresp _) a ha d
  · intro a ha s1 s2 h d
    have := hcomb 1 0 γ0 γ0 γ0 s1 s2 s2 _ _ _ (h0 _ _) (fun b hb e he => by rw [h b hb e he]; ring) (hresp s1) (hresp s2) (hresp s2) a ha d
    rw [this]; ring

end Tandem.GreenOp
