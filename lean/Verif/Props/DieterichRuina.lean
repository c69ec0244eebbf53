import Verif.Lemmas.DieterichRuina
import Verif.Props.Zero
import Mathlib.Analysis.SpecialFunctions.Pow.Continuity
import Mathlib.Analysis.SpecialFunctions.Log.Deriv
/-! # Properties C47 and C76: rate-and-state friction -/
namespace Tandem.DieterichRuina
open Tandem.Spec

variable {T : Nat}

/-- **C47 (well posed)**: exactly one slip rate that is not negative balances the shear stress, and it lies strictly between zero and
the radiation damping limit. -/
theorem C47_unique {V0 a sn eta tau : ℝ} (h : Admissible V0 a sn eta) (he : 0 < eta) (ht : 0 < tau) (psi : ℝ) :
    (∃! V, 0 ≤ V ∧ InBalance V0 a sn eta tau psi V) ∧ ∀ V, InBalance V0 a sn eta tau psi V → 0 < V ∧ V < tau / eta := by
  obtain ⟨V, h0, h1, h2⟩ := root_exists h he ht psi
  have hu : ∀ V', InBalance V0 a sn eta tau psi V' → V' = V :=
    fun V' hV' => (res_strictAnti h tau psi).injective ((res_zero_iff.2 hV').trans (res_zero_iff.2 h2).symm)
  exact ⟨⟨V, ⟨h0.le, h2⟩, fun V' hV' => hu V' hV'.2⟩, fun V' hV' => by rw [hu V' hV']; exact ⟨h0, h1⟩⟩

/-- The slip rate vector points against the shear stress and has length `V`. -/
def Against (tau v : Fin T → ℝ) (V : ℝ) : Prop := (∃ c, 0 ≤ c ∧ ∀ t, v t = - c * tau t) ∧ norm v = V

theorem against_of {tau : Fin T → ℝ} {V : ℝ} (h : 0 < norm tau) (hV : 0 ≤ V) : Against tau (fun t => -(V / norm tau) * tau t) V := by
  refine ⟨⟨V / norm tau, div_nonneg hV h.le, fun _ => rfl⟩, ?_⟩
  rw [norm_smul, abs_neg, abs_of_nonneg (div_nonneg hV h.le)]
  field_simp

/-- **C47 (solve)**: under compression, whenever the solve returns, either it reports no error and gives a vector against the shear
stress whose length is at most the damping limit and agrees with the balancing slip rate up to the tolerance of the root finder
(relative, in the decimal logarithm); or it reports error 2 and NaN, and then the balancing slip rate is smaller than every positive
number the machine has. -/
theorem C47_slip_rate (cp : ConstantParams) (p : Params T) (eps vaMin : ℝ) (heps : 0 ≤ eps) (hva : vaMin ≤ -32) (fuel : Nat) (sn : ℝ)
    (tau : Fin T → ℝ) (psi : ℝ) (h : Admissible cp.V0 p.a (-sn + p.sn_pre) p.eta) (he : 0 < p.eta)
    (ht : 0 < norm (tau + p.tau_pre)) (out : Option (Fin T → ℝ)) (ierr : Nat)
    (hr : slipRate cp p eps vaMin fuel sn tau psi = some (out, ierr)) (Vs : ℝ)
    (hs : InBalance cp.V0 p.a (-sn + p.sn_pre) p.eta (norm (tau + p.tau_pre)) psi Vs) :
    (ierr = 0 ∧ (10 : ℝ) ^ vaMin ≤ Vs ∧ ∃ v V, out = some v ∧ Against (tau + p.tau_pre) v V ∧ 0 < V ∧ V ≤ norm (tau + p.tau_pre) / p.eta ∧
      |Real.logb 10 V - Real.logb 10 Vs| ≤ 4 * eps * |Real.logb 10 V|) ∨
    (ierr = 2 ∧ out = none ∧ Vs < (10 : ℝ) ^ vaMin) := by
  have hVs := ((C47_unique h he ht psi).2 Vs hs).1
  obtain ⟨a1, a2, a3⟩ := attempt_spec h he ht psi eps (-32) heps fuel Vs hVs hs
  obtain ⟨b1, b2, b3⟩ := attempt_spec h he ht psi eps vaMin heps fuel Vs hVs hs
  unfold slipRate solve at hr
  simp only at hr
  rw [if_neg he.ne', if_neg (not_le.2 h.sn), if_neg ht.ne'] at hr
  have hmono : (10 : ℝ) ^ vaMin ≤ (10 : ℝ) ^ (-32 : ℝ) := (Real.rpow_le_rpow_left_iff (by norm_num)).2 hva
  have fin : ∀ x, (10 : ℝ) ^ x ≤ norm (tau + p.tau_pre) / p.eta → |x - Real.logb 10 Vs| ≤ 4 * eps * |x| →
      ∃ v V, (if norm (tau + p.tau_pre) = 0 then none else some (fun t => -((10 : ℝ) ^ x / norm (tau + p.tau_pre)) * (tau + p.tau_pre) t)) = some v ∧
        Against (tau + p.tau_pre) v V ∧ 0 < V ∧ V ≤ norm (tau + p.tau_pre) / p.eta ∧
        |Real.logb 10 V - Real.logb 10 Vs| ≤ 4 * eps * |Real.logb 10 V| := by
    intro x hx1 hx2
    rw [if_neg ht.ne']
    refine ⟨_, (10 : ℝ) ^ x, rfl, against_of ht (by positivity), by positivity, hx1, ?_⟩
    rw [logb_pow10]; exact hx2
  have hretry : ∀ r, solve.retry cp p eps vaMin fuel (-sn + p.sn_pre) (norm (tau + p.tau_pre)) psi = some r →
      some (match r.1 with
        | none => none
        | some V => if norm (tau + p.tau_pre) = 0 then none else some (fun t => -(V / norm (tau + p.tau_pre)) * (tau + p.tau_pre) t), r.2) = some (out, ierr) →
      (ierr = 0 ∧ (10 : ℝ) ^ vaMin ≤ Vs ∧ ∃ v V, out = some v ∧ Against (tau + p.tau_pre) v V ∧ 0 < V ∧ V ≤ norm (tau + p.tau_pre) / p.eta ∧
        |Real.logb 10 V - Real.logb 10 Vs| ≤ 4 * eps * |Real.logb 10 V|) ∨ (ierr = 2 ∧ out = none ∧ Vs < (10 : ℝ) ^ vaMin) := by
    intro r hr1 hr2
    unfold solve.retry at hr1
    split at hr1
    · rename_i x hx
      obtain ⟨c1, c2, c3⟩ := b3 x hx
      cases hr1
      cases hr2
      refine Or.inl ⟨rfl, ?_, fin x c1 c3⟩
      by_contra hc
      push Not at hc
      exact absurd (hx.symm.trans (b2.2 hc)) (by simp)
    · cases hr1
    · rename_i hx; exact absurd hx b1
    · rename_i hx
      cases hr1
      cases hr2
      exact Or.inr ⟨rfl, rfl, b2.1 hx⟩
  cases hat : attempt cp p eps fuel (-sn + p.sn_pre) (norm (tau + p.tau_pre)) psi (-32) with
  | root x =>
    rw [hat] at hr
    simp only at hr
    cases hr
    obtain ⟨c1, c2, c3⟩ := a3 x hat
    refine Or.inl ⟨rfl, ?_, fin x c1 c3⟩
    have : ¬ Vs < (10 : ℝ) ^ (-32 : ℝ) := fun hc => absurd (hat.symm.trans (a2.2 hc)) (by simp)
    push Not at this
    exact le_trans hmono this
  | outOfFuel => rw [hat] at hr; simp at hr
  | nanInf => exact absurd hat a1
  | sameSign =>
    rw [hat] at hr
    simp only at hr
    cases hret : solve.retry cp p eps vaMin fuel (-sn + p.sn_pre) (norm (tau + p.tau_pre)) psi with
    | none => rw [hret] at hr; simp at hr
    | some r =>
      rw [hret] at hr
      exact hretry r hret hr

theorem fF_continuous (cp : ConstantParams) (p : Params T) (sn tau psi : ℝ) : Continuous (fF cp p sn tau psi) := by
  have h10 : Continuous (fun Ve : ℝ => (10 : ℝ) ^ Ve) := Continuous.rpow continuous_const continuous_id (fun _ => Or.inl (by norm_num))
  unfold fF F
  have := Real.continuous_arsinh
  fun_prop

/-- At every slip rate but the balancing one the residual is not zero; only the slip rate one matters here. -/
theorem attempt_terminates {cp : ConstantParams} {p : Params T} {sn tau : ℝ}
    (psi eps Va : ℝ) (heps : 0 < eps) (hb : ¬ InBalance cp.V0 p.a sn p.eta tau psi 1) :
    ∃ n, ∀ fuel, n ≤ fuel → attempt cp p eps fuel sn tau psi Va ≠ .outOfFuel := by
  have h0 : fF cp p sn tau psi 0 ≠ 0 := by
    intro h
    apply hb
    unfold fF F at h
    unfold InBalance frictionCoefficient
    rw [Real.rpow_zero] at h
    linarith
  have key : ∀ x y : ℝ, ∃ n, ∀ fuel, n ≤ fuel → Zero.zeroIn (fun Ve => some (fF cp p sn tau psi Ve)) eps 0 fuel x y ≠ .outOfFuel := by
    intro x y
    by_cases hs : fF cp p sn tau psi x * fF cp p sn tau psi y ≤ 0
    · obtain ⟨n, hn⟩ := Zero.C11_succeeds_continuous (fF cp p sn tau psi) eps 0 x y (fF_continuous cp p sn tau psi).continuousOn heps le_rfl
        (Or.inr fun _ _ => h0) hs
      refine ⟨n, fun fuel hf => ?_⟩
      obtain ⟨r, hr⟩ := hn fuel hf
      rw [hr]; simp
    · push Not at hs
      refine ⟨0, fun fuel _ => ?_⟩
      rw [(Zero.C11_endpoints (fun Ve => some (fF cp p sn tau psi Ve)) eps 0 fuel x y _ _ rfl rfl).1 hs]; simp
  unfold attempt
  simp only
  split
  · exact key _ _
  · exact key _ _

/-- **C47 (the solve ends)**: unless a slip rate of exactly one balances the shear stress, the solve returns after finitely many
passes of the root finder.  (In that one case the root, in the decimal logarithm, is the origin, where the relative
tolerance of the root finder vanishes; see `C11_zero_tolerance_loops`.) -/
theorem C47_terminates_partial (cp : ConstantParams) (p : Params T) (eps vaMin : ℝ) (heps : 0 < eps) (sn : ℝ)
    (tau : Fin T → ℝ) (psi : ℝ) (hb : ¬ InBalance cp.V0 p.a (-sn + p.sn_pre) p.eta (norm (tau + p.tau_pre)) psi 1) :
    ∃ n, ∀ fuel, n ≤ fuel → ∃ out ierr, slipRate cp p eps vaMin fuel sn tau psi = some (out, ierr) := by
  obtain ⟨n1, h1⟩ := attempt_terminates psi eps (-32) heps hb
  obtain ⟨n2, h2⟩ := attempt_terminates psi eps vaMin heps hb
  refine ⟨max n1 n2, ?_⟩
  intro fuel hf
  have e1 := h1 fuel (le_trans (le_max_left _ _) hf)
  have e2 := h2 fuel (le_trans (le_max_right _ _) hf)
  have hretry : ∃ V i, solve.retry cp p eps vaMin fuel (-sn + p.sn_pre) (norm (tau + p.tau_pre)) psi = some (V, i) := by
    unfold solve.retry
    cases hat : attempt cp p eps fuel (-sn + p.sn_pre) (norm (tau + p.tau_pre)) psi vaMin with
    | root x => exact ⟨_, _, rfl⟩
    | outOfFuel => exact absurd hat e2
    | nanInf => exact ⟨_, _, rfl⟩
    | sameSign => exact ⟨_, _, rfl⟩
  have hsolve : ∃ V i, solve cp p eps vaMin fuel (-sn + p.sn_pre) (norm (tau + p.tau_pre)) psi = some (V, i) := by
    unfold solve
    split
    · exact ⟨_, _, rfl⟩
    · split
      · exact ⟨_, _, rfl⟩
      · split
        · exact ⟨_, _, rfl⟩
        · cases hat : attempt cp p eps fuel (-sn + p.sn_pre) (norm (tau + p.tau_pre)) psi (-32) with
          | root x => exact ⟨_, _, rfl⟩
          | outOfFuel => exact absurd hat e1
          | nanInf => exact hretry
          | sameSign => exact hretry
  obtain ⟨V, i, hV⟩ := hsolve
  unfold slipRate
  simp only
  rw [hV]
  exact ⟨_, _, rfl⟩

/-- **C47 (opening)**: without compression only the damping acts, and error 1 is reported. -/
theorem C47_tension (cp : ConstantParams) (p : Params T) (eps vaMin : ℝ) (fuel : Nat) (sn : ℝ) (tau : Fin T → ℝ) (psi : ℝ)
    (h : -sn + p.sn_pre ≤ 0) (he : 0 < p.eta) (ht : 0 < norm (tau + p.tau_pre)) :
    ∃ v, slipRate cp p eps vaMin fuel sn tau psi = some (some v, 1) ∧ Against (tau + p.tau_pre) v (norm (tau + p.tau_pre) / p.eta) ∧
      ∀ t, p.eta * v t = - (tau + p.tau_pre) t := by
  refine ⟨fun t => -(norm (tau + p.tau_pre) / p.eta / norm (tau + p.tau_pre)) * (tau + p.tau_pre) t, ?_, against_of ht (by positivity), ?_⟩
  · unfold slipRate solve
    simp only
    rw [if_neg he.ne', if_pos h]
    simp only
    rw [if_neg ht.ne']
  · intro t; field_simp

/-- **C47 (no damping)**: the closed formula balances the shear stress exactly. -/
theorem C47_undamped (cp : ConstantParams) (p : Params T) (eps vaMin : ℝ) (fuel : Nat) (sn : ℝ) (tau : Fin T → ℝ) (psi : ℝ)
    (h : Admissible cp.V0 p.a (-sn + p.sn_pre) 0) (he : p.eta = 0) (ht : 0 < norm (tau + p.tau_pre)) :
    ∃ v V, slipRate cp p eps vaMin fuel sn tau psi = some (some v, 0) ∧ 0 < V ∧ Against (tau + p.tau_pre) v V ∧
      InBalance cp.V0 p.a (-sn + p.sn_pre) 0 (norm (tau + p.tau_pre)) psi V := by
  have hV : 0 < Finv cp p.a (-sn + p.sn_pre) (norm (tau + p.tau_pre)) psi := by
    rw [Finv_eq]
    have h1 := h.V0
    have h2 : 0 < Real.sinh (norm (tau + p.tau_pre) / (p.a * (-sn + p.sn_pre))) := Real.sinh_pos_iff.2 (div_pos ht (mul_pos h.a h.sn))
    have h3 := Real.exp_pos (-psi / p.a)
    positivity
  refine ⟨_, _, ?_, hV, against_of ht hV.le, ?_⟩
  · unfold slipRate solve
    simp only
    rw [if_pos he]
    simp only
    rw [if_neg ht.ne']
  · unfold InBalance
    rw [Finv_eq, friction_inverse h.V0 h.a h.sn]; ring

/-- **C47 (finding)**: where the shear stress is exactly zero the returned vector is NaN, whatever the other values, and unless the
fault opens no error is reported. -/
theorem C47_no_shear_stress (cp : ConstantParams) (p : Params T) (eps vaMin : ℝ) (fuel : Nat) (sn : ℝ) (tau : Fin T → ℝ) (psi : ℝ)
    (ht : norm (tau + p.tau_pre) = 0) :
    ∃ ierr, slipRate cp p eps vaMin fuel sn tau psi = some (none, ierr) ∧ (0 < -sn + p.sn_pre → ierr = 0) := by
  unfold slipRate solve
  simp only [ht]
  by_cases he : p.eta = 0
  · rw [if_pos he]; exact ⟨0, rfl, fun _ => rfl⟩
  · rw [if_neg he]
    by_cases hs : -sn + p.sn_pre ≤ 0
    · rw [if_pos hs]; exact ⟨1, rfl, fun h => absurd h (not_lt.2 hs)⟩
    · rw [if_neg hs]; exact ⟨0, rfl, fun _ => rfl⟩

/-- **C47 (initial state)**: with the state computed from the prestress and the initial slip rate, the initial slip rate balances the
shear stress; the state exists exactly if the shear stress exceeds the damping at the initial slip rate. -/
theorem C47_init (cp : ConstantParams) (p : Params T) (sn : ℝ) (tau : Fin T → ℝ) (h : Admissible cp.V0 p.a (-sn + p.sn_pre) p.eta)
    (hV : 0 < norm p.Vinit) :
    ((∃ psi, psiInit cp p sn tau = some psi) ↔ p.eta * norm p.Vinit < norm (tau + p.tau_pre)) ∧
    ∀ psi, psiInit cp p sn tau = some psi →
      InBalance cp.V0 p.a (-sn + p.sn_pre) p.eta (norm (tau + p.tau_pre)) psi (norm p.Vinit) := by
  set Vi := norm p.Vinit
  set ta := norm (tau + p.tau_pre)
  set sa := -sn + p.sn_pre
  have hV0 := h.V0
  have hasn : 0 < p.a * sa := mul_pos h.a h.sn
  have hpos : 0 < 2 * cp.V0 / Vi * Real.sinh ((ta - p.eta * Vi) / (p.a * sa)) ↔ p.eta * Vi < ta := by
    rw [mul_pos_iff_of_pos_left (by positivity), Real.sinh_pos_iff, div_pos_iff_of_pos_right hasn, sub_pos]
  have hdef : psiInit cp p sn tau = if 0 < 2 * cp.V0 / Vi * Real.sinh ((ta - p.eta * Vi) / (p.a * sa)) then
      some (p.a * Real.log (2 * cp.V0 / Vi * Real.sinh ((ta - p.eta * Vi) / (p.a * sa)))) else none := by
    unfold psiInit
    simp only
    rw [if_neg (show ¬ norm p.Vinit = 0 from hV.ne')]
  rw [hdef]
  constructor
  · rw [← hpos]
    split
    · rename_i hc; exact ⟨fun _ => hc, fun _ => ⟨_, rfl⟩⟩
    · rename_i hc; exact ⟨fun ⟨_, h'⟩ => by simp at h', fun h' => absurd h' hc⟩
  · intro psi hpsi
    split at hpsi
    · rename_i hc
      cases hpsi
      unfold InBalance frictionCoefficient
      have ha := h.a.ne'
      rw [mul_div_cancel_left₀ _ ha, Real.exp_log hc]
      have hs : Vi / (2 * cp.V0) * (2 * cp.V0 / Vi * Real.sinh ((ta - p.eta * Vi) / (p.a * sa))) = Real.sinh ((ta - p.eta * Vi) / (p.a * sa)) := by
        field_simp
      rw [hs, Real.arsinh_sinh]
      have := h.sn.ne'
      field_simp
      ring
    · simp at hpsi

/-- **C47 (first step)**: the first slip rate computed from the initial state has the length of the initial slip rate, up to the
tolerance of the root finder, and points against the shear stress. -/
theorem C47_first_slip_rate (cp : ConstantParams) (p : Params T) (eps vaMin : ℝ) (heps : 0 ≤ eps) (hva : vaMin ≤ -32) (fuel : Nat) (sn : ℝ)
    (tau : Fin T → ℝ) (h : Admissible cp.V0 p.a (-sn + p.sn_pre) p.eta) (he : 0 < p.eta) (hV : (10 : ℝ) ^ vaMin ≤ norm p.Vinit)
    (psi : ℝ) (hpsi : psiInit cp p sn tau = some psi) (out : Option (Fin T → ℝ)) (ierr : Nat)
    (hr : slipRate cp p eps vaMin fuel sn tau psi = some (out, ierr)) :
    ierr = 0 ∧ ∃ v V, out = some v ∧ Against (tau + p.tau_pre) v V ∧
      |Real.logb 10 V - Real.logb 10 (norm p.Vinit)| ≤ 4 * eps * |Real.logb 10 V| := by
  have hVi : 0 < norm p.Vinit := lt_of_lt_of_le (by positivity) hV
  obtain ⟨i1, i2⟩ := C47_init cp p sn tau h hVi
  have ht : 0 < norm (tau + p.tau_pre) := lt_of_le_of_lt (mul_nonneg he.le hVi.le) (i1.1 ⟨psi, hpsi⟩)
  rcases C47_slip_rate cp p eps vaMin heps hva fuel sn tau psi h he ht out ierr hr _ (i2 psi hpsi) with ⟨a1, _, v, V, a2, a3, _, _, a4⟩ | ⟨_, _, a3⟩
  · exact ⟨a1, v, V, a2, a3, a4⟩
  · exact absurd hV (not_le.2 a3)

/-- **C47 (written stress)**: the shear stress written for a slip rate against the shear stress is parallel to it, its length is what
the damping leaves, and it is the friction at that slip rate exactly if the slip rate balances the shear stress. -/
theorem C47_tau_hat (cp : ConstantParams) (p : Params T) (sn psi : ℝ) (tau v : Fin T → ℝ) (V : ℝ) (ht : 0 < norm (tau + p.tau_pre)) (he : 0 < p.eta)
    (hv : Against (tau + p.tau_pre) v V) (hV : V ≤ norm (tau + p.tau_pre) / p.eta) :
    (∃ c, 0 ≤ c ∧ ∀ t, tauHat p tau v t = c * (tau + p.tau_pre) t) ∧ norm (tauHat p tau v) = norm (tau + p.tau_pre) - p.eta * V ∧
    (norm (tauHat p tau v) = snHat p sn * frictionCoefficient cp.V0 p.a V psi ↔
      InBalance cp.V0 p.a (-sn + p.sn_pre) p.eta (norm (tau + p.tau_pre)) psi V) := by
  obtain ⟨⟨c, hc, hvc⟩, hn⟩ := hv
  have hcV : V = c * norm (tau + p.tau_pre) := by
    rw [← hn, show v = fun t => - c * (tau + p.tau_pre) t from funext hvc, norm_smul, abs_neg, abs_of_nonneg hc]
  have hform : tauHat p tau v = fun t => (1 - p.eta * c) * (tau + p.tau_pre) t := by
    funext t; unfold tauHat; rw [hvc]; simp only [Pi.add_apply]; ring
  have hge : 0 ≤ 1 - p.eta * c := by
    rw [le_div_iff₀ he, hcV] at hV
    by_contra hcon
    push Not at hcon
    have : norm (tau + p.tau_pre) * 1 < norm (tau + p.tau_pre) * (p.eta * c) := mul_lt_mul_of_pos_left (by linarith) ht
    nlinarith
  have hlen : norm (tauHat p tau v) = norm (tau + p.tau_pre) - p.eta * V := by
    rw [hform, norm_smul, abs_of_nonneg hge, hcV]; ring
  refine ⟨⟨1 - p.eta * c, hge, fun t => by rw [hform]⟩, hlen, ?_⟩
  rw [hlen]
  unfold InBalance snHat
  constructor <;> intro h <;> linarith

/-! ## State evolution -/

/-- The state at which a law does not change at slip rate `V`. -/
noncomputable def steadyState (cp : ConstantParams) (V : ℝ) : ℝ := cp.f0 - cp.b * Real.log (V / cp.V0)

theorem slip_sign (cp : ConstantParams) (L V psi : ℝ) (hb : 0 < cp.b) (h : 0 < V / cp.V0) :
    stateRhsSlip cp L V psi = some (V / L * (steadyState cp V - psi)) := by
  unfold stateRhsSlip steadyState
  rw [if_pos h]
  congr 1
  field_simp
  ring

/-- `r` has the sign that moves `psi` towards `target`. -/
def Relaxes (r psi target : ℝ) : Prop := (r = 0 ↔ psi = target) ∧ (0 < r ↔ psi < target) ∧ (r < 0 ↔ target < psi)

/-- **C76**: at a positive slip rate both laws have the same steady state and drive the state towards it. -/
theorem C76_steady_state (cp : ConstantParams) (L V psi : ℝ) (hb : 0 < cp.b) (h0 : 0 < cp.V0) (hL : 0 < L) (hV : 0 < V) :
    Relaxes (stateRhsAgeing cp L V psi) psi (steadyState cp V) ∧
    ∃ r, stateRhsSlip cp L V psi = some r ∧ Relaxes r psi (steadyState cp V) := by
  have hk : 0 < cp.b * cp.V0 / L := by positivity
  have hVV : 0 < V / cp.V0 := by positivity
  have hkey : ∀ x : ℝ, (cp.f0 - psi) / cp.b = x ↔ psi = cp.f0 - cp.b * x := by
    intro x; rw [div_eq_iff hb.ne']; constructor <;> intro h <;> linarith
  have hlt : Real.log (V / cp.V0) < (cp.f0 - psi) / cp.b ↔ psi < steadyState cp V := by
    unfold steadyState
    rw [lt_div_iff₀ hb]; constructor <;> intro h <;> nlinarith
  have hgt : (cp.f0 - psi) / cp.b < Real.log (V / cp.V0) ↔ steadyState cp V < psi := by
    unfold steadyState
    rw [div_lt_iff₀ hb]; constructor <;> intro h <;> nlinarith
  have hVL : 0 < V / L := by positivity
  refine ⟨⟨?_, ?_, ?_⟩, _, slip_sign cp L V psi hb hVV, ?_, ?_, ?_⟩
  · unfold stateRhsAgeing
    rw [mul_eq_zero, or_iff_right hk.ne', sub_eq_zero, ← Real.exp_log hVV, Real.exp_eq_exp, hkey]; rfl
  · unfold stateRhsAgeing
    rw [mul_pos_iff_of_pos_left hk, sub_pos, ← hlt, Real.log_lt_iff_lt_exp hVV]
  · unfold stateRhsAgeing
    rw [mul_neg_iff]
    simp only [hk, true_and, not_lt.2 hk.le, false_and, or_false]
    rw [sub_neg, ← hgt, Real.lt_log_iff_exp_lt hVV]
  · rw [mul_eq_zero, or_iff_right hVL.ne', sub_eq_zero, eq_comm]
  · rw [mul_pos_iff_of_pos_left hVL, sub_pos]
  · rw [mul_neg_iff]
    simp only [hVL, true_and, not_lt.2 hVL.le, false_and, or_false]
    rw [sub_neg]

/-- **C76 (at rest)**: the ageing law strengthens for ever; the slip law gives NaN (finding). -/
theorem C76_at_rest (cp : ConstantParams) (L psi : ℝ) (hb : 0 < cp.b) (h0 : 0 < cp.V0) (hL : 0 < L) :
    0 < stateRhsAgeing cp L 0 psi ∧ stateRhsSlip cp L 0 psi = none := by
  constructor
  · unfold stateRhsAgeing
    have := Real.exp_pos ((cp.f0 - psi) / cp.b)
    rw [zero_div, sub_zero]; positivity
  · unfold stateRhsSlip; rw [if_neg (by simp)]

/-! ## The hypotheses can be met -/

/-- Parameters of a fault under compression in three dimensions. -/
noncomputable def exParams : Params 2 := ⟨0.01, 5, 0.008, 50, ![3, 4], ![1, 0], ![0, 0]⟩

/-- Constants of the benchmark problems. -/
noncomputable def exConst : ConstantParams := ⟨1, 0.015, 0.6⟩

theorem exNorm : norm ((![0, 0] : Fin 2 → ℝ) + ![3, 4]) = 5 := by
  rw [norm_eq, Fin.sum_univ_two]
  simp only [Pi.add_apply, Matrix.cons_val_zero, Matrix.cons_val_one]
  rw [show ((0 : ℝ) + 3) * (0 + 3) + (0 + 4) * (0 + 4) = 5 * 5 by norm_num, Real.sqrt_mul_self (by norm_num)]

example : Admissible exConst.V0 exParams.a (-0 + exParams.sn_pre) exParams.eta ∧ 0 < exParams.eta ∧
    0 < norm ((![0, 0] : Fin 2 → ℝ) + exParams.tau_pre) := by
  refine ⟨⟨?_, ?_, ?_, ?_⟩, ?_, ?_⟩ <;> simp only [exConst, exParams] <;> first | (rw [exNorm]; norm_num) | norm_num

/-- A state in which a slip rate of one does not balance the shear stress of the example: the damping alone exceeds it. -/
example (psi : ℝ) : ¬ InBalance exConst.V0 exParams.a (-0 + exParams.sn_pre) exParams.eta (norm ((![0, 0] : Fin 2 → ℝ) + exParams.tau_pre)) psi 1 := by
  have hn : norm ((![0, 0] : Fin 2 → ℝ) + exParams.tau_pre) = 5 := exNorm
  rw [hn]
  unfold InBalance frictionCoefficient
  have h1 : 0 < Real.arsinh (1 / (2 * exConst.V0) * Real.exp (psi / exParams.a)) := by
    rw [Real.arsinh_pos_iff]; have := Real.exp_pos (psi / exParams.a); simp only [exConst]; positivity
  simp only [exConst, exParams] at h1 ⊢
  intro h
  nlinarith

/-- The initial state of the example exists. -/
example : ∃ psi, psiInit exConst ⟨0.01, 1, 0.008, 50, ![3, 4], ![1, 0], ![0, 0]⟩ 0 (![0, 0] : Fin 2 → ℝ) = some psi := by
  have hV : norm (![1, 0] : Fin 2 → ℝ) = 1 := by rw [norm_eq, Fin.sum_univ_two]; simp
  refine ((C47_init exConst ⟨0.01, 1, 0.008, 50, ![3, 4], ![1, 0], ![0, 0]⟩ 0 ![0, 0] ⟨?_, ?_, ?_, ?_⟩ ?_).1).2 ?_
  · simp [exConst]
  · norm_num
  · norm_num
  · norm_num
  · simp only; rw [hV]; norm_num
  · simp only; rw [hV, exNorm]; norm_num

end Tandem.DieterichRuina
