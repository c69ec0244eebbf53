import Verif.Lemmas.GaussCert
/-! # The certified points are close to the roots -/
namespace Tandem.NewtonCert
open Finset Functions Quadrature QuadTable

/-- A certificate for Newton's method implies that there is a root nearby. -/
theorem root_exists (tol : ℚ) (htol : 0 ≤ tol) (c : List ℚ) (T F : ℚ) (hok : newtonOk tol c T F = true) :
    ∃ h : ℝ, |h| ≤ F ∧ ev c h = 0 := by
  obtain ⟨c0, c1, rest, rfl⟩ : ∃ c0 c1 rest, c = c0 :: c1 :: rest := by
    match c, hok with
    | c0 :: c1 :: rest, _ => exact ⟨c0, c1, rest, rfl⟩
    | [_], h => simp [newtonOk] at h
    | [], h => simp [newtonOk] at h
  obtain ⟨-, s2⟩ := newton_step tol c0 c1 rest T F hok
  simp only [newtonOk, Bool.and_eq_true, decide_eq_true_eq] at hok
  obtain ⟨⟨⟨⟨⟨hT, hB⟩, h2⟩, h3⟩, h4⟩, h5⟩ := hok
  set B := slope c1 rest T with hBdef
  have hT' : (0 : ℝ) < T := by exact_mod_cast hT
  have hB' : (0 : ℝ) < B := by exact_mod_cast hB
  have h3' : 2 * |(c0:ℝ)| ≤ B * T := by exact_mod_cast h3
  -- the sign of the slope is that of c1
  have e4 : (B : ℝ) = |(c1 : ℝ)| - T * absEv rest T - T * absEv (der (c1 :: rest)) T := by
    rw [hBdef, slope]; push_cast; ring
  have k0 : (0 : ℝ) ≤ T * absEv (der (c1 :: rest)) T := by
    have : (0 : ℝ) ≤ absEv (der (c1 :: rest)) T := by exact_mod_cast absEv_nonneg (der (c1 :: rest)) T hT.le
    positivity
  have hs : ∀ h : ℝ, |h| ≤ T → |h * ev rest h| ≤ T * absEv rest T := by
    intro h hh
    rw [abs_mul]; exact mul_le_mul hh (abs_ev rest T h hh) (abs_nonneg _) hT'.le
  have hc : Continuous (ev (c0 :: c1 :: rest)) :=
    continuous_iff_continuousAt.2 fun h => (ev_der _ h).continuousAt
  have hv : ∀ h : ℝ, ev (c0 :: c1 :: rest) h = c0 + h * (c1 + h * ev rest h) := fun h => rfl
  have p1 := hs T (by rw [abs_of_pos hT'])
  have p2 := hs (-T) (by rw [abs_neg, abs_of_pos hT'])
  have hle : (-(T : ℝ)) ≤ T := by linarith
  have d0 := abs_le.1 (le_refl |(c0:ℝ)|)
  have root : ∃ h ∈ Set.Icc (-(T : ℝ)) T, ev (c0 :: c1 :: rest) h = 0 := by
    rcases le_total 0 (c1 : ℝ) with hpos | hneg
    · rw [abs_of_nonneg hpos] at e4
      have q1 := abs_le.1 p1
      have q2 := abs_le.1 p2
      have := intermediate_value_Icc hle hc.continuousOn
      refine this ⟨?_, ?_⟩
      · rw [hv]
        have : B ≤ (c1 : ℝ) + -T * ev rest (-T) := by linarith [q2.1]
        nlinarith [d0.2]
      · rw [hv]
        have : B ≤ (c1 : ℝ) + T * ev rest T := by linarith [q1.1]
        nlinarith [d0.1]
    · rw [abs_of_nonpos hneg] at e4
      have q1 := abs_le.1 p1
      have q2 := abs_le.1 p2
      have := intermediate_value_Icc' hle hc.continuousOn
      refine this ⟨?_, ?_⟩
      · rw [hv]
        have : (c1 : ℝ) + T * ev rest T ≤ -B := by linarith [q1.2]
        nlinarith [d0.2]
      · rw [hv]
        have : (c1 : ℝ) + -T * ev rest (-T) ≤ -B := by linarith [q2.2]
        nlinarith [d0.1]
  obtain ⟨h, hh, h0⟩ := root
  exact ⟨h, s2 h (abs_le.2 hh) (by rw [h0, abs_zero]; exact_mod_cast htol), h0⟩

/-- Certified points are apart. -/
def sepOk (δ : ℚ) : List Cert → Bool
  | [] => true
  | c :: l => l.all (fun d => decide (4 * δ < |c.r - d.r|)) && sepOk δ l

theorem certs_roots (n a : ℕ) (δ : ℚ) (l : List Cert) (h : certsOk n a δ 0 l = true) (hs : sepOk δ l = true) :
    Spec.NearRoots n a 0 (4 * δ) (gaussJacobi n a 0).points := by
  have hlen : (gaussJacobi n a 0).points.length = n := by simp [gaussJacobi]
  have key : ∀ (l : List Cert) (i : ℕ), certsOk n a δ i l = true → sepOk δ l = true → i ≤ n ∧
      ∃ roots : List ℝ, roots.Nodup ∧ (∀ r ∈ roots, Spec.jacobi n a 0 r = 0) ∧
        (∀ r ∈ roots, ∃ c ∈ l, |r - c.r| ≤ 2 * δ) ∧
        List.Forall₂ (fun x r => |x - r| ≤ 4 * (δ : ℝ)) ((gaussJacobi n a 0).points.drop i) roots := by
    intro l
    induction l with
    | nil =>
      intro i hi _
      simp only [certsOk, decide_eq_true_eq] at hi
      subst hi
      rw [List.drop_eq_nil_of_le (by omega)]
      exact ⟨le_rfl, [], by simp, by simp, by simp, .nil⟩
    | cons c l ih =>
      intro i hi hsep
      simp only [certsOk, Bool.and_eq_true] at hi
      simp only [sepOk, Bool.and_eq_true, List.all_eq_true, decide_eq_true_eq] at hsep
      obtain ⟨hc, hl⟩ := hi
      obtain ⟨h1, roots, r1, r2, r3, r4⟩ := ih (i + 1) hl hsep.2
      have hin : i < n := by omega
      simp only [certOk, Bool.and_eq_true, decide_eq_true_eq] at hc
      obtain ⟨⟨⟨⟨c1, c2⟩, c3⟩, c4⟩, c5⟩ := hc
      obtain ⟨x, hx, hxr⟩ := point_close n a i hin c.r c.T c.F c1 c2
      obtain ⟨hi', ex⟩ := List.getElem?_eq_some_iff.1 hx
      obtain ⟨h0, g1, g2⟩ := root_exists tolQ (by unfold tolQ; norm_num) _ _ _ c1
      rw [ev_jacT] at g2
      have c4' : (c.F : ℝ) ≤ 2 * δ := by exact_mod_cast c4
      refine ⟨by omega, (c.r + h0) :: roots, ?_, ?_, ?_, ?_⟩
      · refine List.nodup_cons.2 ⟨fun hmem => ?_, r1⟩
        obtain ⟨d, hd, hdr⟩ := r3 _ hmem
        have hsp := (Rat.cast_lt (K := ℝ)).2 (hsep.1 d hd)
        push_cast at hsp
        have : (c.r : ℝ) - d.r = (c.r + h0 - d.r) - h0 := by ring
        rw [this] at hsp
        have := abs_sub ((c.r : ℝ) + h0 - d.r) h0
        linarith
      · intro r hr
        rcases List.mem_cons.1 hr with rfl | hr
        · exact g2
        · exact r2 r hr
      · intro r hr
        rcases List.mem_cons.1 hr with rfl | hr
        · exact ⟨c, by simp, by rw [add_sub_cancel_left]; linarith⟩
        · obtain ⟨d, hd, h⟩ := r3 r hr
          exact ⟨d, by simp [hd], h⟩
      · rw [List.drop_eq_getElem_cons hi', ex]
        refine .cons ?_ r4
        have : x - (c.r + h0) = (x - c.r) - h0 := by ring
        rw [this]
        have := abs_sub (x - (c.r : ℝ)) h0
        linarith
  obtain ⟨-, roots, r1, r2, -, r4⟩ := key l 0 h hs
  rw [List.drop_zero] at r4
  exact ⟨roots, ⟨r1, by rw [← r4.length_eq, hlen], r2⟩, r4⟩

end Tandem.NewtonCert
