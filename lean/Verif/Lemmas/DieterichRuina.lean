import Verif.Model.DieterichRuina
import Verif.Spec.Friction
import Verif.Props.Zero
import Mathlib.Topology.Order.IntermediateValue
import Mathlib.Tactic.Ring
import Mathlib.Tactic.Linarith
import Mathlib.Tactic.Positivity
import Mathlib.Tactic.FieldSimp
/-! # Lemmas about the slip-rate solve -/
namespace Tandem.DieterichRuina
open Tandem.Spec

variable {T : Nat}

theorem norm_eq (x : Fin T → ℝ) : norm x = Real.sqrt (∑ i, x i * x i) := by
  unfold norm
  split
  · rename_i h; subst h
    rw [Fin.sum_univ_one, Real.sqrt_mul_self_eq_abs]; rfl
  · rfl

theorem norm_nonneg (x : Fin T → ℝ) : 0 ≤ norm x := by rw [norm_eq]; exact Real.sqrt_nonneg _

theorem norm_smul (c : ℝ) (x : Fin T → ℝ) : norm (fun t => c * x t) = |c| * norm x := by
  rw [norm_eq, norm_eq]
  have : ∑ i, c * x i * (c * x i) = c * c * ∑ i, x i * x i := by
    rw [Finset.mul_sum]; apply Finset.sum_congr rfl; intro i _; ring
  rw [this, Real.sqrt_mul (mul_self_nonneg c), Real.sqrt_mul_self_eq_abs]

/-- Residual of the balance. -/
noncomputable def res (V0 a sn eta tau psi V : ℝ) : ℝ := tau - sn * frictionCoefficient V0 a V psi - eta * V

theorem res_zero_iff {V0 a sn eta tau psi V : ℝ} : res V0 a sn eta tau psi V = 0 ↔ InBalance V0 a sn eta tau psi V := by
  unfold res InBalance; constructor <;> intro h <;> linarith

theorem friction_strictMono {V0 a : ℝ} (h0 : 0 < V0) (ha : 0 < a) (psi : ℝ) : StrictMono (fun V => frictionCoefficient V0 a V psi) := by
  intro x y hxy
  unfold frictionCoefficient
  apply mul_lt_mul_of_pos_left _ ha
  apply Real.arsinh_strictMono
  have : 0 < Real.exp (psi / a) := Real.exp_pos _
  apply mul_lt_mul_of_pos_right _ this
  exact div_lt_div_of_pos_right hxy (by linarith)

theorem res_strictAnti {V0 a sn eta : ℝ} (h : Admissible V0 a sn eta) (tau psi : ℝ) : StrictAnti (res V0 a sn eta tau psi) := by
  intro x y hxy
  unfold res
  have h1 := mul_lt_mul_of_pos_left (friction_strictMono h.V0 h.a psi hxy) h.sn
  have h2 := mul_le_mul_of_nonneg_left hxy.le h.eta
  simp only at h1
  linarith

theorem res_continuous (V0 a sn eta tau psi : ℝ) : Continuous (res V0 a sn eta tau psi) := by
  unfold res frictionCoefficient
  have : Continuous fun V : ℝ => Real.arsinh (V / (2 * V0) * Real.exp (psi / a)) :=
    Real.continuous_arsinh.comp ((continuous_id.div_const _).mul continuous_const)
  exact ((continuous_const.sub (continuous_const.mul (continuous_const.mul this))).sub (continuous_const.mul continuous_id))

theorem friction_zero (V0 a psi : ℝ) : frictionCoefficient V0 a 0 psi = 0 := by
  unfold frictionCoefficient; simp

theorem friction_pos {V0 a V : ℝ} (h0 : 0 < V0) (ha : 0 < a) (hV : 0 < V) (psi : ℝ) : 0 < frictionCoefficient V0 a V psi := by
  have := friction_strictMono h0 ha psi hV
  simp only [friction_zero] at this
  exact this

theorem res_at_zero (V0 a sn eta tau psi : ℝ) : res V0 a sn eta tau psi 0 = tau := by
  unfold res; rw [friction_zero]; ring

theorem res_at_bound {V0 a sn eta tau : ℝ} (h : Admissible V0 a sn eta) (he : 0 < eta) (ht : 0 < tau) (psi : ℝ) :
    res V0 a sn eta tau psi (tau / eta) < 0 := by
  unfold res
  have h1 := mul_pos h.sn (friction_pos h.V0 h.a (div_pos ht he) psi)
  have h2 : eta * (tau / eta) = tau := by field_simp
  linarith

theorem friction_inverse {V0 a sn tau : ℝ} (h0 : 0 < V0) (ha : 0 < a) (hsn : 0 < sn) (psi : ℝ) :
    sn * frictionCoefficient V0 a (2 * V0 * Real.sinh (tau / (a * sn)) * Real.exp (-psi / a)) psi = tau := by
  unfold frictionCoefficient
  have : 2 * V0 * Real.sinh (tau / (a * sn)) * Real.exp (-psi / a) / (2 * V0) * Real.exp (psi / a) = Real.sinh (tau / (a * sn)) := by
    have h1 : Real.exp (-psi / a) * Real.exp (psi / a) = 1 := by rw [← Real.exp_add]; rw [show -psi / a + psi / a = 0 by ring]; exact Real.exp_zero
    calc _ = Real.sinh (tau / (a * sn)) * (Real.exp (-psi / a) * Real.exp (psi / a)) * (2 * V0 / (2 * V0)) := by ring
      _ = _ := by rw [h1, div_self (by positivity)]; ring
  rw [this, Real.arsinh_sinh]
  field_simp

theorem fF_eq (cp : ConstantParams) (p : Params T) (sn tau psi x : ℝ) :
    fF cp p sn tau psi x = res cp.V0 p.a sn p.eta tau psi ((10 : ℝ) ^ x) := by
  unfold fF F res frictionCoefficient; ring

theorem Finv_eq (cp : ConstantParams) (a sn tau psi : ℝ) :
    Finv cp a sn tau psi = 2 * cp.V0 * Real.sinh (tau / (a * sn)) * Real.exp (-psi / a) := by
  unfold Finv
  simp only
  rw [Real.sinh_eq]
  have h1 : Real.exp ((tau / sn - psi) / a) = Real.exp (tau / (a * sn)) * Real.exp (-psi / a) := by
    rw [← Real.exp_add]; congr 1; rw [sub_div, div_div, mul_comm sn a]; ring
  have h2 : Real.exp (-(tau / sn + psi) / a) = Real.exp (-(tau / (a * sn))) * Real.exp (-psi / a) := by
    rw [← Real.exp_add]; congr 1; rw [neg_add, add_div, neg_div, div_div, mul_comm sn a]
  rw [h1, h2]; ring

theorem loop_total {K : Type} [Field K] [LinearOrder K] (G : K → K) (eps tol : K) (n : Nat) (s : Zero.St K) :
    Zero.loop (fun x => some (G x)) eps tol n s ≠ .nanInf ∧ Zero.loop (fun x => some (G x)) eps tol n s ≠ .sameSign := by
  induction n generalizing s with
  | zero => unfold Zero.loop; split <;> simp
  | succ n ih =>
    unfold Zero.loop
    split
    · simp
    · simp only
      split
      · simp
      · exact ih _

/-- `zeroIn` of a function that has no NaN throws only for equal signs. -/
theorem zeroIn_total {K : Type} [Field K] [LinearOrder K] [IsStrictOrderedRing K] (G : K → K) (eps tol : K) (n : Nat) (a b : K) :
    Zero.zeroIn (fun x => some (G x)) eps tol n a b ≠ .nanInf ∧
    (Zero.zeroIn (fun x => some (G x)) eps tol n a b = .sameSign ↔ 0 < G a * G b) := by
  constructor
  · unfold Zero.zeroIn
    simp only
    split
    · simp
    · split
      · simp
      · exact (loop_total G eps tol n _).1
  · refine ⟨fun h => ?_, fun h => (Zero.C11_endpoints (fun x => some (G x)) eps tol n a b _ _ rfl rfl).1 h⟩
    unfold Zero.zeroIn at h
    simp only at h
    split at h
    · cases h
    · rename_i na
      split at h
      · rename_i hs
        exact (Zero.copysign_eq_iff _ _ na hs.1).1 hs.2
      · exact absurd h (loop_total G eps tol n _).2

theorem pow10_lt {x y : ℝ} : (10 : ℝ) ^ x < (10 : ℝ) ^ y ↔ x < y := Real.rpow_lt_rpow_left_iff (by norm_num)

theorem pow10_logb {x : ℝ} (h : 0 < x) : (10 : ℝ) ^ Real.logb 10 x = x := Real.rpow_logb (by norm_num) (by norm_num) h

theorem logb_pow10 (x : ℝ) : Real.logb 10 ((10 : ℝ) ^ x) = x := Real.logb_rpow (by norm_num) (by norm_num)

/-- The root. -/
theorem root_exists {V0 a sn eta tau : ℝ} (h : Admissible V0 a sn eta) (he : 0 < eta) (ht : 0 < tau) (psi : ℝ) :
    ∃ V, 0 < V ∧ V < tau / eta ∧ InBalance V0 a sn eta tau psi V := by
  have hb := div_pos ht he
  obtain ⟨V, ⟨hV0, hV1⟩, hV⟩ := intermediate_value_Icc' hb.le (res_continuous V0 a sn eta tau psi).continuousOn
    (show (0 : ℝ) ∈ Set.Icc _ _ from ⟨(res_at_bound h he ht psi).le, by rw [res_at_zero]; exact ht.le⟩)
  refine ⟨V, ?_, ?_, res_zero_iff.1 hV⟩
  · rcases hV0.eq_or_lt with h' | h'
    · rw [← h', res_at_zero] at hV; linarith
    · exact h'
  · rcases hV1.eq_or_lt with h' | h'
    · rw [h'] at hV; have := res_at_bound h he ht psi; linarith
    · exact h'

theorem attempt_spec {cp : ConstantParams} {p : Params T} {sn tau : ℝ} (h : Admissible cp.V0 p.a sn p.eta) (he : 0 < p.eta) (ht : 0 < tau)
    (psi eps Va : ℝ) (heps : 0 ≤ eps) (fuel : Nat) (Vs : ℝ) (hVs : 0 < Vs) (hbal : InBalance cp.V0 p.a sn p.eta tau psi Vs) :
    attempt cp p eps fuel sn tau psi Va ≠ .nanInf ∧
    (attempt cp p eps fuel sn tau psi Va = .sameSign ↔ Vs < (10 : ℝ) ^ Va) ∧
    (∀ x, attempt cp p eps fuel sn tau psi Va = .root x → (10 : ℝ) ^ x ≤ tau / p.eta ∧ (10 : ℝ) ^ Va ≤ (10 : ℝ) ^ x ∧
      |x - Real.logb 10 Vs| ≤ 4 * eps * |x|) := by
  set G : ℝ → ℝ := fun x => fF cp p sn tau psi x with hG
  have hGe : ∀ x, G x = res cp.V0 p.a sn p.eta tau psi ((10 : ℝ) ^ x) := fun x => fF_eq _ _ _ _ _ _
  set xs := Real.logb 10 Vs with hxs
  have hxs' : (10 : ℝ) ^ xs = Vs := pow10_logb hVs
  have hz : G xs = 0 := by rw [hGe, hxs']; exact res_zero_iff.2 hbal
  have hanti : StrictAnti G := by
    intro x y hxy
    rw [hGe, hGe]
    exact res_strictAnti h tau psi (pow10_lt.2 hxy)
  set Vb := Real.logb 10 (tau / p.eta) with hVb
  have hVb' : (10 : ℝ) ^ Vb = tau / p.eta := pow10_logb (div_pos ht he)
  have hGb : G Vb < 0 := by rw [hGe, hVb']; exact res_at_bound h he ht psi
  have hsb : xs < Vb := hanti.lt_iff_gt.1 (by rw [hz]; exact hGb)
  have hVa : Vs < (10 : ℝ) ^ Va ↔ G Va < 0 := by
    rw [← hxs', pow10_lt, ← hz]; exact hanti.lt_iff_gt.symm
  have hroot : ∀ x y, G x * G y < 0 → |x - xs| ≤ |x - y| := by
    intro x y hxy
    have hcase : (x < xs ∧ xs < y) ∨ (y < xs ∧ xs < x) := by
      rcases lt_trichotomy (G x) 0 with h' | h' | h'
      · have h1 : xs < x := hanti.lt_iff_gt.1 (by rw [hz]; exact h')
        have h2 : 0 < G y := by by_contra hc; push Not at hc; nlinarith
        exact Or.inr ⟨hanti.lt_iff_gt.1 (by rw [hz]; exact h2), h1⟩
      · rw [h'] at hxy; simp at hxy
      · have h1 : x < xs := hanti.lt_iff_gt.1 (by rw [hz]; exact h')
        have h2 : G y < 0 := by by_contra hc; push Not at hc; nlinarith
        exact Or.inl ⟨h1, hanti.lt_iff_gt.1 (by rw [hz]; exact h2)⟩
    rcases hcase with ⟨h1, h2⟩ | ⟨h1, h2⟩
    · rw [abs_of_neg (by linarith), abs_of_neg (by linarith)]; linarith
    · rw [abs_of_pos (by linarith), abs_of_pos (by linarith)]; linarith
  unfold attempt
  simp only
  rw [← hVb]
  by_cases hlt : Vb < Va
  · rw [if_pos hlt]
    have hGa : G Va < 0 := lt_trans (hanti hlt) hGb
    obtain ⟨t1, t2⟩ := zeroIn_total G eps 0 fuel Vb Va
    have hss : Zero.zeroIn (fun x => some (G x)) eps 0 fuel Vb Va = .sameSign := t2.2 (mul_pos_of_neg_of_neg hGb hGa)
    refine ⟨t1, ⟨fun _ => hVa.2 hGa, fun _ => hss⟩, ?_⟩
    intro x hx
    exact absurd (hx.symm.trans hss) (by simp)
  · rw [if_neg hlt]
    push Not at hlt
    obtain ⟨t1, t2⟩ := zeroIn_total G eps 0 fuel Va Vb
    refine ⟨t1, ?_, ?_⟩
    · rw [hVa]
      refine Iff.trans t2 ⟨fun h' => ?_, fun h' => mul_pos_of_neg_of_neg h' hGb⟩
      by_contra hc; push Not at hc; nlinarith
    · intro x hx
      obtain ⟨⟨b1, b2⟩, hx'⟩ := Zero.C11_result (fun x => some (G x)) eps 0 heps le_rfl fuel Va Vb x hx
      rw [min_eq_left hlt] at b1
      rw [max_eq_right hlt] at b2
      refine ⟨?_, ?_, ?_⟩
      · rw [← hVb']; exact (Real.rpow_le_rpow_left_iff (by norm_num)).2 b2
      · exact (Real.rpow_le_rpow_left_iff (by norm_num)).2 b1
      · rcases hx' with h0 | ⟨c, Fx, Fc, _, h1, h2, h3, _, h5⟩
        · have : G x = 0 := Option.some.inj h0
          rw [hanti.injective (this.trans hz.symm), sub_self, abs_zero]; positivity
        · obtain rfl := Option.some.inj h1
          obtain rfl := Option.some.inj h2
          exact le_trans (hroot x c h3) (by rw [zero_add] at h5; exact h5)

end Tandem.DieterichRuina
