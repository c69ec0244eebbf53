import Verif.Model.Zero
import Mathlib.Algebra.Order.Field.Basic
import Mathlib.Tactic.Linarith
import Mathlib.Tactic.Ring
import Mathlib.Tactic.FieldSimp
import Mathlib.Tactic.Positivity
/-! Helper lemmas for `zeroIn`. -/
namespace Tandem.Zero

variable {K : Type} [Field K] [LinearOrder K] [IsStrictOrderedRing K]

theorem copysign_eq_iff (x y : K) (hx : x ≠ 0) (hy : y ≠ 0) : copysign x y = x ↔ 0 < x * y := by
  unfold copysign
  rcases lt_or_gt_of_ne hx with h | h <;> rcases lt_or_gt_of_ne hy with h' | h'
  · rw [if_neg (not_le.2 h'), abs_of_neg h]
    simp [mul_pos_of_neg_of_neg h h']
  · rw [if_pos h'.le, abs_of_neg h]
    constructor
    · intro e; linarith
    · intro e; have := mul_neg_of_neg_of_pos h h'; linarith
  · rw [if_neg (not_le.2 h'), abs_of_pos h]
    constructor
    · intro e; linarith
    · intro e; have := mul_neg_of_pos_of_neg h h'; linarith
  · rw [if_pos h'.le, abs_of_pos h]
    simp [mul_pos h h']

theorem sign_opp {x y z : K} (h : y * z < 0) (hx : x ≠ 0) : x * z < 0 ∨ x * y < 0 := by
  rcases mul_neg_iff.1 h with ⟨h1, h2⟩ | ⟨h1, h2⟩ <;> rcases lt_or_gt_of_ne hx with h' | h'
  · right; exact mul_neg_of_neg_of_pos h' h1
  · left; exact mul_neg_of_pos_of_neg h' h2
  · left; exact mul_neg_of_neg_of_pos h' h2
  · right; exact mul_neg_of_pos_of_neg h' h1

/-- hull of the start interval -/
def Hull (lo hi x : K) : Prop := lo ≤ x ∧ x ≤ hi

/-- invariant at the loop head -/
structure Inv (F : K → Option K) (lo hi : K) (s : St K) : Prop where
  ha : Hull lo hi s.a
  hb : Hull lo hi s.b
  hc : Hull lo hi s.c
  hFa : F s.a = some s.Fa
  hFb : F s.b = some s.Fb
  hFc : F s.c = some s.Fc
  na : s.Fa ≠ 0
  nc : s.Fc ≠ 0
  opp : s.Fb ≠ 0 → s.Fb * s.Fc < 0 ∨ s.Fb * s.Fa < 0

/-- invariant after re-anchoring and swapping -/
structure Inv2 (F : K → Option K) (lo hi : K) (s : St K) : Prop where
  ha : Hull lo hi s.a
  hb : Hull lo hi s.b
  hc : Hull lo hi s.c
  hFa : F s.a = some s.Fa
  hFb : F s.b = some s.Fb
  hFc : F s.c = some s.Fc
  nb : s.Fb ≠ 0
  opp : s.Fb * s.Fc < 0
  best : |s.Fb| ≤ |s.Fc|

/-- the bracket that will be in force after re-anchoring: length -/
def width (s : St K) : K := if copysign s.Fb s.Fc = s.Fb then |s.a - s.b| else |s.c - s.b|

theorem inv2_of_inv {F : K → Option K} {lo hi : K} {s : St K} (h : Inv F lo hi s)
    (hb : s.Fb ≠ 0) : Inv2 F lo hi (swapBest (reanchor s)) ∧
      |(swapBest (reanchor s)).c - (swapBest (reanchor s)).b| = width s := by
  have h1 : Inv F lo hi (reanchor s) ∧ (reanchor s).Fb * (reanchor s).Fc < 0 ∧
      (reanchor s).Fb ≠ 0 ∧ |(reanchor s).c - (reanchor s).b| = width s := by
    unfold reanchor width
    by_cases hc : copysign s.Fb s.Fc = s.Fb
    · simp only [if_pos hc]
      rw [copysign_eq_iff _ _ hb h.nc] at hc
      have ho : s.Fb * s.Fa < 0 := by
        rcases h.opp hb with h' | h'
        · linarith
        · exact h'
      exact ⟨⟨h.ha, h.hb, h.ha, h.hFa, h.hFb, h.hFa, h.na, h.na, fun _ => Or.inl ho⟩, ho, hb, trivial⟩
    · simp only [if_neg hc]
      rw [copysign_eq_iff _ _ hb h.nc] at hc
      have : s.Fb * s.Fc < 0 := lt_of_le_of_ne (not_lt.1 hc) (mul_ne_zero hb h.nc)
      exact ⟨h, this, hb, trivial⟩
  obtain ⟨g, go, gb, gw⟩ := h1
  rw [← gw]
  generalize reanchor s = t at g go gb
  unfold swapBest
  by_cases hlt : |t.Fc| < |t.Fb|
  · simp only [if_pos hlt]
    exact ⟨⟨g.hb, g.hc, g.hb, g.hFb, g.hFc, g.hFb, g.nc, by rw [mul_comm]; exact go, hlt.le⟩,
      abs_sub_comm _ _⟩
  · simp only [if_neg hlt]
    exact ⟨⟨g.ha, g.hb, g.hc, g.hFa, g.hFb, g.hFc, gb, go, not_lt.1 hlt⟩, trivial⟩

/-- The step points towards `c`, has at least size `tol1`, and covers at most 3/4 of the bracket. -/
theorem newB_between (eps tol : K) (s : St K) (ht : 0 ≤ tol1 eps tol s)
    (hx : tol1 eps tol s < |xm s|) :
    ∃ t, newB eps tol s (chooseStep eps tol s).1 = s.b + t * (s.c - s.b) ∧ 0 ≤ t ∧ t ≤ 3 / 4 ∧
      tol1 eps tol s ≤ t * |s.c - s.b| := by
  have hxm : xm s ≠ 0 := by intro h; rw [h, abs_zero] at hx; linarith
  have hcb : s.c - s.b = 2 * xm s := by unfold xm; ring
  have habs : |s.c - s.b| = 2 * |xm s| := by rw [hcb, abs_mul, abs_of_pos (by norm_num : (0:K) < 2)]
  have hapos : 0 < |xm s| := abs_pos.2 hxm
  -- the chosen d is a fraction in [0, 3/2) of xm
  have hd : ∃ u, (chooseStep eps tol s).1 = u * xm s ∧ 0 ≤ u ∧ u ≤ 3 / 2 := by
    unfold chooseStep
    simp only
    split
    · exact ⟨1, by simp, by norm_num, by norm_num⟩
    · generalize (if s.a ≠ s.c then _ else _ : K × K) = pq0
      have hp : ∃ p q : K, (if 0 < pq0.1 then (pq0.1, -pq0.2) else (-pq0.1, pq0.2)) = (p, q) ∧ 0 ≤ p := by
        by_cases h : 0 < pq0.1
        · exact ⟨_, _, if_pos h, h.le⟩
        · exact ⟨_, _, if_neg h, by linarith [not_lt.1 h]⟩
      obtain ⟨p, q, hpq, hp0⟩ := hp
      rw [hpq]
      simp only
      split
      · rename_i hcond
        have h1 := hcond.1
        have hq0 : 0 ≤ |tol1 eps tol s * q| := abs_nonneg _
        have hxq : 0 < xm s * q := by nlinarith
        have hqne : q ≠ 0 := by rintro rfl; simp at hxq
        refine ⟨p / (xm s * q), ?_, div_nonneg hp0 hxq.le, ?_⟩
        · field_simp
        · rw [div_le_iff₀ hxq]; linarith
      · exact ⟨1, by simp, by norm_num, by norm_num⟩
  obtain ⟨u, hu, hu0, hu1⟩ := hd
  unfold newB
  simp only
  rw [hu]
  by_cases hbig : tol1 eps tol s < |u * xm s|
  · rw [if_pos hbig]
    refine ⟨u / 2, by rw [hcb]; ring, by linarith, by linarith, ?_⟩
    rw [habs]
    rw [abs_mul, abs_of_nonneg hu0] at hbig
    linarith
  · rw [if_neg hbig]
    have hcs : copysign (tol1 eps tol s) (xm s) = tol1 eps tol s / |xm s| * xm s := by
      unfold copysign
      rw [abs_of_nonneg ht]
      rcases lt_or_gt_of_ne hxm with h | h
      · rw [if_neg (not_le.2 h), abs_of_neg h]; field_simp
      · rw [if_pos h.le, abs_of_pos h]; field_simp
    have hr : tol1 eps tol s / |xm s| ≤ 1 := by rw [div_le_one hapos]; exact hx.le
    refine ⟨tol1 eps tol s / |xm s| / 2, by rw [hcs, hcb]; ring, by positivity, by linarith, ?_⟩
    rw [habs]
    apply le_of_eq
    field_simp

theorem hull_between {lo hi b c t : K} (hb : Hull lo hi b) (hc : Hull lo hi c) (h0 : 0 ≤ t)
    (h1 : t ≤ 1) : Hull lo hi (b + t * (c - b)) := by
  obtain ⟨b1, b2⟩ := hb
  obtain ⟨c1, c2⟩ := hc
  constructor <;> nlinarith

/-- What a successful run guarantees. -/
def Good (F : K → Option K) (eps tol lo hi x : K) : Prop :=
  Hull lo hi x ∧
    (F x = some 0 ∨ ∃ c Fx Fc, Hull lo hi c ∧ F x = some Fx ∧ F c = some Fc ∧ Fx * Fc < 0 ∧
      |Fx| ≤ |Fc| ∧ |x - c| ≤ tol + 4 * eps * |x|)

/-- One loop pass. -/
theorem pass_inv (F : K → Option K) (eps tol lo hi : K) (s : St K) (h : Inv F lo hi s)
    (heps : 0 ≤ eps) (htol : 0 ≤ tol) (hb : s.Fb ≠ 0)
    (hx : ¬ (|xm (swapBest (reanchor s))| ≤ tol1 eps tol (swapBest (reanchor s)) ∨
      (swapBest (reanchor s)).Fb = 0)) (Fb' : K)
    (hF : F (newB eps tol (swapBest (reanchor s))
      (chooseStep eps tol (swapBest (reanchor s))).1) = some Fb') :
    let t := swapBest (reanchor s)
    let s' : St K := advance t (newB eps tol t (chooseStep eps tol t).1) Fb' (chooseStep eps tol t)
    Inv F lo hi s' ∧ (Fb' ≠ 0 → width s' ≤ width s - tol1 eps tol t / 2) := by
  intro t s'
  obtain ⟨h2, hw⟩ := inv2_of_inv h hb
  have ht : 0 ≤ tol1 eps tol t := by unfold tol1; positivity
  have hlt : tol1 eps tol t < |xm t| := by
    by_contra hc; exact hx (Or.inl (not_lt.1 hc))
  obtain ⟨u, hu, u0, u1, u2⟩ := newB_between eps tol t ht hlt
  have hc0 : t.Fc ≠ 0 := by
    intro h0; have := h2.opp; change t.Fb * t.Fc < 0 at this; rw [h0] at this; simp at this
  have hull' : Hull lo hi (newB eps tol t (chooseStep eps tol t).1) := by
    rw [hu]; exact hull_between h2.hb h2.hc u0 (by linarith)
  refine ⟨⟨h2.hb, hull', h2.hc, h2.hFb, hF, h2.hFc, h2.nb, hc0, ?_⟩, ?_⟩
  · intro hne
    exact sign_opp h2.opp hne
  · intro hne
    rw [← hw]
    have hxm : |t.c - t.b| = 2 * |xm t| := by
      have : t.c - t.b = 2 * xm t := by unfold xm; ring
      rw [this, abs_mul, abs_of_pos (by norm_num : (0:K) < 2)]
    change width s' ≤ |t.c - t.b| - tol1 eps tol t / 2
    unfold width
    split
    · change |t.b - newB eps tol t (chooseStep eps tol t).1| ≤ _
      rw [hu, show t.b - (t.b + u * (t.c - t.b)) = -(u * (t.c - t.b)) by ring, abs_neg, abs_mul,
        abs_of_nonneg u0]
      have : 0 ≤ |t.c - t.b| := abs_nonneg _
      nlinarith
    · change |t.c - newB eps tol t (chooseStep eps tol t).1| ≤ _
      rw [hu, show t.c - (t.b + u * (t.c - t.b)) = (1 - u) * (t.c - t.b) by ring, abs_mul,
        abs_of_nonneg (by linarith : (0:K) ≤ 1 - u)]
      have : 0 ≤ |t.c - t.b| := abs_nonneg _
      nlinarith

theorem loop_good (F : K → Option K) (eps tol lo hi : K) (heps : 0 ≤ eps) (htol : 0 ≤ tol)
    (fuel : Nat) (s : St K) (h : Inv F lo hi s) (x : K) (hx : loop F eps tol fuel s = .root x) :
    Good F eps tol lo hi x := by
  induction fuel generalizing s with
  | zero =>
    unfold loop at hx
    by_cases hb : s.Fb = 0
    · rw [if_pos hb] at hx
      cases hx
      exact ⟨h.hb, Or.inl (by rw [h.hFb, hb])⟩
    · rw [if_neg hb] at hx; cases hx
  | succ fuel ih =>
    unfold loop at hx
    by_cases hb : s.Fb = 0
    · rw [if_pos hb] at hx
      cases hx
      exact ⟨h.hb, Or.inl (by rw [h.hFb, hb])⟩
    · rw [if_neg hb] at hx
      simp only at hx
      obtain ⟨h2, hw⟩ := inv2_of_inv h hb
      by_cases hc : |xm (swapBest (reanchor s))| ≤ tol1 eps tol (swapBest (reanchor s)) ∨
          (swapBest (reanchor s)).Fb = 0
      · rw [if_pos hc] at hx
        cases hx
        rcases hc with hc | hc
        · refine ⟨h2.hb, Or.inr ⟨_, _, _, h2.hc, h2.hFb, h2.hFc, h2.opp, h2.best, ?_⟩⟩
          unfold xm tol1 at hc
          rw [abs_div, abs_of_pos (by norm_num : (0:K) < 2)] at hc
          rw [abs_sub_comm]
          have := (div_le_iff₀ (by norm_num : (0:K) < 2)).1 hc
          linarith
        · exact absurd hc h2.nb
      · rw [if_neg hc] at hx
        split at hx
        · cases hx
        · rename_i Fb' hF
          exact ih _ (pass_inv F eps tol lo hi s h heps htol hb hc Fb' hF).1 hx

theorem loop_terminates (F : K → Option K) (eps tol lo hi δ : K) (heps : 0 ≤ eps) (htol : 0 ≤ tol)
    (hδ : ∀ x, Hull lo hi x → δ ≤ 2 * eps * |x| + tol / 2)
    (fuel : Nat) (s : St K) (h : Inv F lo hi s) (hw : width s < fuel * (δ / 2)) :
    loop F eps tol fuel s ≠ .outOfFuel := by
  induction fuel generalizing s with
  | zero =>
    exfalso
    simp at hw
    have : 0 ≤ width s := by unfold width; split <;> exact abs_nonneg _
    linarith
  | succ fuel ih =>
    unfold loop
    by_cases hb : s.Fb = 0
    · rw [if_pos hb]; simp
    · rw [if_neg hb]
      simp only
      split
      · simp
      · rename_i hc
        split
        · simp
        · rename_i Fb' hF
          obtain ⟨i1, i2⟩ := pass_inv F eps tol lo hi s h heps htol hb hc Fb' hF
          by_cases h0 : Fb' = 0
          · unfold loop
            subst h0; simp [advance]
          · apply ih _ i1
            have := i2 h0
            have hd := hδ _ (inv2_of_inv h hb).1.hb
            push_cast at hw
            change δ ≤ tol1 eps tol (swapBest (reanchor s)) at hd
            linarith

theorem init_inv (F : K → Option K) (a b Fa Fb : K) (hFa : F a = some Fa) (hFb : F b = some Fb)
    (na : Fa ≠ 0) (hs : ¬ (Fb ≠ 0 ∧ copysign Fa Fb = Fa)) :
    Inv F (min a b) (max a b)
      { a := a, b := b, c := a, d := b - a, e := b - a, Fa := Fa, Fb := Fb, Fc := Fa } := by
  have hA : Hull (min a b) (max a b) a := ⟨min_le_left _ _, le_max_left _ _⟩
  have hB : Hull (min a b) (max a b) b := ⟨min_le_right _ _, le_max_right _ _⟩
  refine ⟨hA, hB, hA, hFa, hFb, hFa, na, na, ?_⟩
  intro hne
  left
  change Fb * Fa < 0
  have : ¬ (copysign Fa Fb = Fa) := fun h => hs ⟨hne, h⟩
  rw [copysign_eq_iff _ _ na hne] at this
  rw [mul_comm]
  exact lt_of_le_of_ne (not_lt.1 this) (mul_ne_zero na hne)

theorem init_width (a b Fa Fb : K) :
    width { a := a, b := b, c := a, d := b - a, e := b - a, Fa := Fa, Fb := Fb, Fc := Fa } =
      |a - b| := by
  unfold width; simp

/-! ## Progress near the origin, where the relative tolerance vanishes -/

/-- Additional invariant at the loop head: `a` and `c` coincide, or `a`, `b`, `c` are in order and `F` has opposite signs at `a` and `c`. -/
def Ord (s : St K) : Prop := s.a = s.c ∨ (0 ≤ (s.b - s.a) * (s.c - s.b) ∧ s.Fa * s.Fc < 0)

theorem ord_processed {F : K → Option K} {lo hi : K} {s : St K} (h : Inv F lo hi s) (ho : Ord s) :
    ((swapBest (reanchor s)).a = (swapBest (reanchor s)).c ∧
      (swapBest (reanchor s)).Fa = (swapBest (reanchor s)).Fc) ∨
    (0 ≤ ((swapBest (reanchor s)).b - (swapBest (reanchor s)).a) *
        ((swapBest (reanchor s)).c - (swapBest (reanchor s)).b) ∧
      (swapBest (reanchor s)).Fa * (swapBest (reanchor s)).Fc < 0) := by
  unfold swapBest
  by_cases hs : |(reanchor s).Fc| < |(reanchor s).Fb|
  · simp only [if_pos hs]; left; trivial
  · simp only [if_neg hs]
    unfold reanchor
    by_cases hc : copysign s.Fb s.Fc = s.Fb
    · simp only [if_pos hc]; left; trivial
    · simp only [if_neg hc]
      rcases ho with ho | ho
      · left
        refine ⟨ho, ?_⟩
        have h1 := h.hFa
        rw [ho, h.hFc] at h1
        exact (Option.some.inj h1).symm
      · exact Or.inr ho

theorem frac_bound {x y m M : K} (hm : 0 < m) (hmx : m ≤ x) (hx : x ≤ M) (hy0 : 0 < y) (hy : y ≤ M) :
    m / (2 * M) ≤ x / (x + y) := by
  have hM : 0 < M := by linarith
  rw [div_le_div_iff₀ (by positivity) (by linarith)]
  nlinarith

/-- Linear interpolation. -/
theorem linear_fraction {Fb Fc m M : K} (hm : 0 < m) (hbm : m ≤ |Fb|) (hbM : |Fb| ≤ M) (hcM : |Fc| ≤ M) (hopp : Fb * Fc < 0) :
    m * m / (4 * M * M) ≤ Fb / (Fb - Fc) := by
  have hM : 0 < M := by linarith
  have h0 : m * m / (4 * M * M) ≤ m / (2 * M) := by
    rw [div_le_div_iff₀ (by positivity) (by positivity)]
    have : m ≤ M := by linarith
    nlinarith [mul_pos hm hM, mul_pos (mul_pos hm hM) hM, mul_le_mul_of_nonneg_left this (mul_pos hm hM).le]
  refine le_trans h0 ?_
  rcases mul_neg_iff.1 hopp with ⟨h1, h2⟩ | ⟨h1, h2⟩
  · rw [abs_of_pos h1] at hbm hbM
    rw [abs_of_neg h2] at hcM
    have := frac_bound hm hbm hbM (neg_pos.2 h2) hcM
    rwa [← sub_eq_add_neg] at this
  · rw [abs_of_neg h1] at hbm hbM
    rw [abs_of_pos h2] at hcM
    have := frac_bound hm hbm hbM h2 hcM
    rwa [show -Fb / (-Fb + Fc) = Fb / (Fb - Fc) by rw [← neg_div_neg_eq]; congr 1 <;> ring] at this

/-- Inverse quadratic interpolation. -/
theorem quadratic_fraction {Fa Fb Fc m M r : K} (hm : 0 < m) (hbm : m ≤ |Fb|) (hbM : |Fb| ≤ M) (hcM : |Fc| ≤ M) (haM : |Fa| ≤ M)
    (hab : |Fb| < |Fa|) (hopp : Fb * Fc < 0) (hopa : Fa * Fc < 0) (hr : 0 ≤ r) :
    m * m / (4 * M * M) ≤ Fa / (Fa - Fc) * (Fb / (Fb - Fc)) + r * (Fb * -Fc / ((Fa - Fc) * (Fa - Fb))) := by
  have hM : 0 < M := by linarith
  have key : ∀ x y z : K, m ≤ x → x < y → y ≤ M → 0 < z → z ≤ M →
      m * m / (4 * M * M) ≤ y / (y + z) * (x / (x + z)) + r * (x * z / ((y + z) * (y - x))) := by
    intro x y z h1 h2 h3 h4 h5
    have e1 := frac_bound hm h1 (by linarith : x ≤ M) h4 h5
    have e2 := frac_bound hm (by linarith : m ≤ y) h3 h4 h5
    have e3 : 0 ≤ r * (x * z / ((y + z) * (y - x))) :=
      mul_nonneg hr (div_nonneg (mul_nonneg (by linarith) h4.le) (mul_nonneg (by linarith) (by linarith)))
    have e4 : m * m / (4 * M * M) = m / (2 * M) * (m / (2 * M)) := by field_simp; ring
    rw [e4]
    have e5 : 0 < m / (2 * M) := by positivity
    have := mul_le_mul e2 e1 e5.le (le_trans e5.le e2)
    linarith
  rcases mul_neg_iff.1 hopp with ⟨h1, h2⟩ | ⟨h1, h2⟩
  · have h3 : 0 < Fa := by
      by_contra hc; have := mul_nonneg_of_nonpos_of_nonpos (not_lt.1 hc) h2.le; linarith
    rw [abs_of_pos h1] at *
    rw [abs_of_pos h3] at *
    rw [abs_of_neg h2] at *
    have := key Fb Fa (-Fc) hbm hab haM (neg_pos.2 h2) hcM
    rwa [← sub_eq_add_neg, ← sub_eq_add_neg] at this
  · have h3 : Fa < 0 := by
      by_contra hc; have := mul_nonneg (not_lt.1 hc) h2.le; linarith
    rw [abs_of_neg h1] at *
    rw [abs_of_neg h3] at *
    rw [abs_of_pos h2] at *
    have := key (-Fb) (-Fa) Fc hbm hab haM h2 hcM
    rw [show -Fa / (-Fa + Fc) = Fa / (Fa - Fc) by rw [← neg_div_neg_eq]; congr 1 <;> ring,
      show -Fb / (-Fb + Fc) = Fb / (Fb - Fc) by rw [← neg_div_neg_eq]; congr 1 <;> ring,
      show (-Fa + Fc) * (-Fa - -Fb) = (Fa - Fc) * (Fa - Fb) by ring, show -Fb * Fc = Fb * -Fc by ring] at this
    exact this

/-- If the value at `b` is at least `m` in size and no value exceeds `M`, the step covers at least the fraction `m^2 / (4 M^2)` of the
bracket. -/
theorem newB_big (eps tol : K) (s : St K) (ht : 0 ≤ tol1 eps tol s)
    (hx : tol1 eps tol s < |xm s|) (m M : K) (hm : 0 < m) (hbm : m ≤ |s.Fb|) (hbM : |s.Fb| ≤ M)
    (hcM : |s.Fc| ≤ M) (haM : |s.Fa| ≤ M) (hopp : s.Fb * s.Fc < 0)
    (hord : (s.a = s.c ∧ s.Fa = s.Fc) ∨ (0 ≤ (s.b - s.a) * (s.c - s.b) ∧ s.Fa * s.Fc < 0)) :
    ∃ t, newB eps tol s (chooseStep eps tol s).1 = s.b + t * (s.c - s.b) ∧
      m * m / (4 * M * M) ≤ t ∧ t ≤ 3 / 4 := by
  have hxm : xm s ≠ 0 := by intro h; rw [h, abs_zero] at hx; linarith
  have hcb : s.c - s.b = 2 * xm s := by unfold xm; ring
  have hcb0 : s.c - s.b ≠ 0 := by rw [hcb]; exact mul_ne_zero two_ne_zero hxm
  have hM : 0 < M := by linarith
  have hmM : m ≤ M := by linarith
  have hκ : m * m / (4 * M * M) ≤ 1 / 4 := by
    rw [div_le_iff₀ (by positivity)]; nlinarith
  have hκ0 : 0 < m * m / (4 * M * M) := by positivity
  obtain ⟨t, h1, h2, h3, -⟩ := newB_between eps tol s ht hx
  refine ⟨t, h1, ?_, h3⟩
  -- value of the chosen step
  have hd : ∃ u, (chooseStep eps tol s).1 = u * (s.c - s.b) ∧ m * m / (4 * M * M) ≤ u := by
    have hhalf : ∃ u, xm s = u * (s.c - s.b) ∧ m * m / (4 * M * M) ≤ u :=
      ⟨1 / 2, by rw [hcb]; ring, by linarith⟩
    unfold chooseStep
    simp only
    split
    · exact hhalf
    · rename_i hcond
      push Not at hcond
      have hFab : |s.Fb| < |s.Fa| := hcond.2
      generalize hpq : (if s.a ≠ s.c then _ else _ : K × K) = pq0
      have hb0 : s.Fb ≠ 0 := by rintro h; rw [h] at hopp; simp at hopp
      have hc0 : s.Fc ≠ 0 := by rintro h; rw [h] at hopp; simp at hopp
      have ha0 : s.Fa ≠ 0 := by
        rintro h; rw [h, abs_zero] at hFab; exact absurd hFab (not_lt.2 (abs_nonneg _))
      have hbc : s.Fb - s.Fc ≠ 0 := by
        intro h
        have : s.Fb = s.Fc := by linarith
        rw [this] at hopp; nlinarith [mul_self_nonneg s.Fc]
      have hraw : ∃ u, -(pq0.1 / pq0.2) = u * (s.c - s.b) ∧ m * m / (4 * M * M) ≤ u := by
        by_cases hac : s.a = s.c
        · rw [if_neg (by simpa using hac)] at hpq
          subst hpq
          have hFac : s.Fa = s.Fc := by
            rcases hord with h | h
            · exact h.2
            · exfalso
              rw [hac] at h
              have h1 := h.1
              have h2 : 0 < (s.c - s.b) * (s.c - s.b) := mul_self_pos.2 hcb0
              nlinarith
          refine ⟨s.Fb / (s.Fb - s.Fc), ?_, linear_fraction hm hbm hbM hcM hopp⟩
          simp only
          rw [hFac, hcb, show 1 - s.Fb / s.Fc = - ((s.Fb - s.Fc) / s.Fc) by field_simp; ring]
          field_simp
        · rw [if_pos hac] at hpq
          subst hpq
          rcases hord with h | ⟨ho1, ho2⟩
          · exact absurd h.1 hac
          have hac' : s.Fa - s.Fc ≠ 0 := by
            intro h
            have : s.Fa = s.Fc := by linarith
            rw [this] at ho2; nlinarith [mul_self_nonneg s.Fc]
          have hab' : s.Fa - s.Fb ≠ 0 := by
            intro h
            have : s.Fa = s.Fb := by linarith
            rw [this] at hFab; exact lt_irrefl _ hFab
          have hr : 0 ≤ (s.b - s.a) / (s.c - s.b) := by
            rw [← mul_div_mul_right _ _ hcb0]
            exact div_nonneg ho1 (mul_self_nonneg _)
          refine ⟨_, ?_, quadratic_fraction hm hbm hbM hcM haM hFab hopp ho2 hr⟩
          simp only
          rw [← hcb, show s.Fa / s.Fc - 1 = (s.Fa - s.Fc) / s.Fc by field_simp,
            show s.Fb / s.Fc - 1 = (s.Fb - s.Fc) / s.Fc by field_simp,
            show s.Fb / s.Fa - 1 = - ((s.Fa - s.Fb) / s.Fa) by field_simp; ring,
            show s.Fa / s.Fc - s.Fb / s.Fc = (s.Fa - s.Fb) / s.Fc by field_simp]
          generalize s.c - s.b = X at *
          generalize s.b - s.a = Y at *
          generalize s.Fa - s.Fc = A at *
          generalize s.Fb - s.Fc = B at *
          generalize s.Fa - s.Fb = C at *
          field_simp
          ring
      split <;> split
      · simp only; rw [div_neg]; exact hraw
      · exact hhalf
      · simp only; rw [neg_div]; exact hraw
      · exact hhalf
  obtain ⟨u, hu, hu1⟩ := hd
  have hu0 : 0 < u := lt_of_lt_of_le hκ0 hu1
  have h4 : u ≤ t := by
    have hpos : 0 < |s.c - s.b| := abs_pos.2 hcb0
    unfold newB at h1
    simp only at h1
    rw [hu] at h1
    split at h1
    · have : u * (s.c - s.b) = t * (s.c - s.b) := by linarith
      exact (mul_right_cancel₀ hcb0 this).le
    · rename_i hsm
      have h5 : |copysign (tol1 eps tol s) (xm s)| = tol1 eps tol s := by
        unfold copysign; split <;> simp [abs_of_nonneg ht]
      have h6 : copysign (tol1 eps tol s) (xm s) = t * (s.c - s.b) := by linarith
      rw [h6, abs_mul, abs_of_nonneg h2] at h5
      rw [abs_mul, abs_of_pos hu0, not_lt, ← h5] at hsm
      exact le_of_mul_le_mul_right hsm hpos
  linarith

/-- One pass where `F` stays away from zero around the origin: the bracket shrinks by at least `min (κ ρ / 2) (eps ρ / 2)`. -/
theorem pass_progress (F : K → Option K) (eps tol lo hi ρ m M : K) (s : St K) (h : Inv F lo hi s) (ho : Ord s)
    (heps : 0 ≤ eps) (htol : 0 ≤ tol) (hρ : 0 < ρ) (hm : 0 < m)
    (hnear : (∀ x y, Hull lo hi x → |x| < ρ → F x = some y → m ≤ y) ∨ (∀ x y, Hull lo hi x → |x| < ρ → F x = some y → y ≤ -m))
    (hM : ∀ x y, Hull lo hi x → F x = some y → |y| ≤ M) (hb : s.Fb ≠ 0)
    (hx : ¬ (|xm (swapBest (reanchor s))| ≤ tol1 eps tol (swapBest (reanchor s)) ∨
      (swapBest (reanchor s)).Fb = 0)) (Fb' : K)
    (hF : F (newB eps tol (swapBest (reanchor s))
      (chooseStep eps tol (swapBest (reanchor s))).1) = some Fb') :
    let t := swapBest (reanchor s)
    let s' : St K := advance t (newB eps tol t (chooseStep eps tol t).1) Fb' (chooseStep eps tol t)
    Ord s' ∧ (Fb' ≠ 0 → width s' ≤ width s - min (m * m / (4 * M * M) * (ρ / 2)) (eps * (ρ / 2))) := by
  intro t s'
  obtain ⟨h2, hw⟩ := inv2_of_inv h hb
  obtain ⟨i1, i2⟩ := pass_inv F eps tol lo hi s h heps htol hb hx Fb' hF
  have ht : 0 ≤ tol1 eps tol t := by unfold tol1; positivity
  have hlt : tol1 eps tol t < |xm t| := by
    by_contra hc; exact hx (Or.inl (not_lt.1 hc))
  obtain ⟨u, hu, u0, u1, u2⟩ := newB_between eps tol t ht hlt
  refine ⟨Or.inr ⟨?_, h2.opp⟩, ?_⟩
  · change 0 ≤ (newB eps tol t (chooseStep eps tol t).1 - t.b) * (t.c - newB eps tol t (chooseStep eps tol t).1)
    rw [hu, show (t.b + u * (t.c - t.b) - t.b) * (t.c - (t.b + u * (t.c - t.b))) = u * (1 - u) * ((t.c - t.b) * (t.c - t.b)) by ring]
    exact mul_nonneg (mul_nonneg u0 (by linarith)) (mul_self_nonneg _)
  · intro hne
    by_cases hbρ : ρ / 2 ≤ |t.b|
    · have h3 := i2 hne
      change width s' ≤ width s - tol1 eps tol t / 2 at h3
      have h4 : eps * (ρ / 2) ≤ tol1 eps tol t / 2 := by
        unfold tol1
        have := mul_le_mul_of_nonneg_left hbρ heps
        linarith
      have := min_le_right (m * m / (4 * M * M) * (ρ / 2)) (eps * (ρ / 2))
      linarith
    · push Not at hbρ
      have hbs : |t.b| < ρ := by linarith
      have hbm : m ≤ |t.Fb| := by
        rcases hnear with hn | hn
        · exact le_trans (hn _ _ h2.hb hbs h2.hFb) (le_abs_self _)
        · have := hn _ _ h2.hb hbs h2.hFb
          exact le_trans (by linarith) (neg_le_abs _)
      have hcρ : ρ ≤ |t.c| := by
        by_contra hc
        push Not at hc
        have hop := h2.opp
        change t.Fb * t.Fc < 0 at hop
        rcases hnear with hn | hn
        · have e1 := hn _ _ h2.hb hbs h2.hFb
          have e2 := hn _ _ h2.hc hc h2.hFc
          change m ≤ t.Fb at e1
          change m ≤ t.Fc at e2
          have := mul_pos (lt_of_lt_of_le hm e1) (lt_of_lt_of_le hm e2)
          linarith
        · have e1 := hn _ _ h2.hb hbs h2.hFb
          have e2 := hn _ _ h2.hc hc h2.hFc
          change t.Fb ≤ -m at e1
          change t.Fc ≤ -m at e2
          have := mul_pos_of_neg_of_neg (by linarith : t.Fb < 0) (by linarith : t.Fc < 0)
          linarith
      have hW : ρ / 2 ≤ |t.c - t.b| := by
        have := abs_sub_abs_le_abs_sub t.c t.b
        linarith
      obtain ⟨v, hv, v0, v1⟩ := newB_big eps tol t ht hlt m M hm hbm (hM _ _ h2.hb h2.hFb) (hM _ _ h2.hc h2.hFc)
        (hM _ _ h2.ha h2.hFa) h2.opp (ord_processed h ho)
      set κ := m * m / (4 * M * M) with hκ
      have hMp : 0 < M := lt_of_lt_of_le hm (le_trans hbm (hM _ _ h2.hb h2.hFb))
      have hκ0 : 0 < κ := by positivity
      have hκ4 : κ ≤ 1 / 4 := by
        have : m ≤ M := le_trans hbm (hM _ _ h2.hb h2.hFb)
        rw [hκ, div_le_iff₀ (by positivity)]; nlinarith
      have hfin : width s' ≤ |t.c - t.b| - κ * |t.c - t.b| := by
        unfold width
        split
        · change |t.b - newB eps tol t (chooseStep eps tol t).1| ≤ _
          rw [hv, show t.b - (t.b + v * (t.c - t.b)) = -(v * (t.c - t.b)) by ring, abs_neg, abs_mul,
            abs_of_nonneg (by linarith : 0 ≤ v)]
          have : 0 ≤ |t.c - t.b| := abs_nonneg _
          nlinarith
        · change |t.c - newB eps tol t (chooseStep eps tol t).1| ≤ _
          rw [hv, show t.c - (t.b + v * (t.c - t.b)) = (1 - v) * (t.c - t.b) by ring, abs_mul,
            abs_of_nonneg (by linarith : (0:K) ≤ 1 - v)]
          have : 0 ≤ |t.c - t.b| := abs_nonneg _
          nlinarith
      have h5 := mul_le_mul_of_nonneg_left hW hκ0.le
      have h6 := min_le_left (κ * (ρ / 2)) (eps * (ρ / 2))
      rw [← hw]
      change width s' ≤ |t.c - t.b| - _
      linarith

theorem loop_terminates_near (F : K → Option K) (eps tol lo hi ρ m M δ : K) (heps : 0 ≤ eps) (htol : 0 ≤ tol) (hρ : 0 < ρ) (hm : 0 < m)
    (hnear : (∀ x y, Hull lo hi x → |x| < ρ → F x = some y → m ≤ y) ∨ (∀ x y, Hull lo hi x → |x| < ρ → F x = some y → y ≤ -m))
    (hM : ∀ x y, Hull lo hi x → F x = some y → |y| ≤ M)
    (hδ : δ = min (m * m / (4 * M * M) * (ρ / 2)) (eps * (ρ / 2)))
    (fuel : Nat) (s : St K) (h : Inv F lo hi s) (ho : Ord s) (hw : width s < fuel * δ) :
    loop F eps tol fuel s ≠ .outOfFuel := by
  induction fuel generalizing s with
  | zero =>
    exfalso
    simp at hw
    have : 0 ≤ width s := by unfold width; split <;> exact abs_nonneg _
    linarith
  | succ fuel ih =>
    unfold loop
    by_cases hb : s.Fb = 0
    · rw [if_pos hb]; simp
    · rw [if_neg hb]
      simp only
      split
      · simp
      · rename_i hc
        split
        · simp
        · rename_i Fb' hF
          obtain ⟨i1, -⟩ := pass_inv F eps tol lo hi s h heps htol hb hc Fb' hF
          obtain ⟨j1, j2⟩ := pass_progress F eps tol lo hi ρ m M s h ho heps htol hρ hm hnear hM hb hc Fb' hF
          by_cases h0 : Fb' = 0
          · unfold loop
            subst h0; simp [advance]
          · apply ih _ i1 j1
            have := j2 h0
            push_cast at hw
            rw [← hδ] at this
            linarith

end Tandem.Zero
