import Verif.Model.GenMesh
import Verif.Spec.Convex
import Mathlib.Tactic.Linarith
import Mathlib.Tactic.FieldSimp
import Mathlib.Tactic.Ring
import Mathlib.Tactic.NormNum
/-! # Property C27: the simplices of a cell tile the cell -/
namespace Tandem.GenMesh
open Tandem.Spec

variable {K : Type} [Field K] [LinearOrder K] [IsStrictOrderedRing K]

omit [IsStrictOrderedRing K] [LinearOrder K] in
theorem box_sum (lo hi : List K) (d : Nat) (hd : d < lo.length) :
    ∀ (s : List Nat) (w : List K), w.length = s.length →
      (List.zipWith (fun a v => a * v.getD d 0) w (s.map (boxCorner lo hi))).sum =
        lo.getD d 0 * w.sum + (hi.getD d 0 - lo.getD d 0) *
          (List.zipWith (fun (a : K) (k : Nat) => if k / 2 ^ d % 2 = 1 then a else 0) w s).sum := by
  intro s
  induction s with
  | nil => intro w h; cases w with
    | nil => simp
    | cons a w => simp at h
  | cons k s ih =>
    intro w h
    cases w with
    | nil => simp at h
    | cons a w =>
      have := ih w (by simpa using h)
      simp only [List.map_cons, List.zipWith_cons_cons, List.sum_cons, this]
      have hc : (boxCorner lo hi k).getD d 0 =
          if k / 2 ^ d % 2 = 1 then hi.getD d 0 else lo.getD d 0 := by
        simp [boxCorner, List.getD, hd]
      rw [hc]
      split <;> ring

/-- Barycentric coordinates in the unit cell. -/
def UnitBary (s : List Nat) (w u : List K) : Prop :=
  w.length = s.length ∧ w.sum = 1 ∧ ∀ d, d < u.length →
    (List.zipWith (fun (a : K) (k : Nat) => if k / 2 ^ d % 2 = 1 then a else 0) w s).sum = u.getD d 0

omit [IsStrictOrderedRing K] [LinearOrder K] in
theorem bary_of_unit (lo hi x u : List K) (s : List Nat) (w : List K) (hl : lo.length = x.length)
    (hu : u.length = x.length)
    (hx : ∀ d, d < x.length → x.getD d 0 = lo.getD d 0 + (hi.getD d 0 - lo.getD d 0) * u.getD d 0)
    (h : UnitBary s w u) : Barycentric (s.map (boxCorner lo hi)) w x := by
  refine ⟨by simp [h.1], h.2.1, fun d hd => ?_⟩
  rw [box_sum lo hi d (by omega) s w h.1, h.2.1, h.2.2 d (by omega), hx d hd, mul_one]

theorem exists_unit (D : Nat) (lo hi x : List K) (hl : lo.length = D) (hx : x.length = D)
    (hlt : ∀ d, d < D → lo.getD d 0 < hi.getD d 0)
    (hin : ∀ d, d < D → lo.getD d 0 ≤ x.getD d 0 ∧ x.getD d 0 ≤ hi.getD d 0) :
    ∃ u : List K, u.length = D ∧ (∀ d, d < D → 0 ≤ u.getD d 0 ∧ u.getD d 0 ≤ 1) ∧
      ∀ d, d < D → x.getD d 0 = lo.getD d 0 + (hi.getD d 0 - lo.getD d 0) * u.getD d 0 := by
  have hg : ∀ d, d < D → ((List.range D).map (fun d => (x.getD d 0 - lo.getD d 0) /
      (hi.getD d 0 - lo.getD d 0))).getD d 0 = (x.getD d 0 - lo.getD d 0) /
      (hi.getD d 0 - lo.getD d 0) := by
    intro d hd
    simp [List.getD, hd]
  refine ⟨(List.range D).map (fun d => (x.getD d 0 - lo.getD d 0) / (hi.getD d 0 - lo.getD d 0)),
    by simp, ?_, ?_⟩
  · intro d hd
    rw [hg d hd]
    have h1 := hlt d hd
    obtain ⟨h2, h3⟩ := hin d hd
    exact ⟨div_nonneg (by linarith) (by linarith), (div_le_one (by linarith)).2 (by linarith)⟩
  · intro d hd
    rw [hg d hd]
    have h1 := hlt d hd
    have : hi.getD d 0 - lo.getD d 0 ≠ 0 := by intro h; linarith
    rw [mul_div_cancel₀ _ this]; ring

local macro "usum" : tactic => `(tactic| first | (simp; done) | (simp; ring))

/-- The unit cell is covered. -/
theorem unit_covered (D : Nat) (hD : D = 2 ∨ D = 3) (odd : Bool) (u : List K) (hu : u.length = D)
    (h01 : ∀ d, d < D → 0 ≤ u.getD d 0 ∧ u.getD d 0 ≤ 1) :
    ∃ s ∈ tess D odd, ∃ w, UnitBary s w u ∧ ∀ a ∈ w, 0 ≤ a := by
  have sum3 : ∀ a b c : K, ([a, b, c] : List K).sum = a + b + c := by intro a b c; simp; ring
  have sum4 : ∀ a b c d : K, ([a, b, c, d] : List K).sum = a + b + c + d := by intro a b c d; simp; ring
  rcases hD with rfl | rfl
  · match u, hu with
    | [x, y], _ =>
      obtain ⟨x0, x1⟩ := h01 0 (by omega)
      obtain ⟨y0, y1⟩ := h01 1 (by omega)
      simp only [List.getD_cons_zero, List.getD_cons_succ] at x0 x1 y0 y1
      have fin : ∀ (s : List Nat) (a b c : K), s ∈ tess 2 odd → s.length = 3 →
          a + b + c = 1 → 0 ≤ a → 0 ≤ b → 0 ≤ c →
          (List.zipWith (fun (a : K) (k : Nat) => if k / 2 ^ 0 % 2 = 1 then a else 0) [a, b, c] s).sum = x →
          (List.zipWith (fun (a : K) (k : Nat) => if k / 2 ^ 1 % 2 = 1 then a else 0) [a, b, c] s).sum = y →
          ∃ s ∈ tess 2 odd, ∃ w, UnitBary s w [x, y] ∧ ∀ a ∈ w, 0 ≤ a := by
        intro s a b c hs hl h1 ha hb hc e0 e1
        refine ⟨s, hs, [a, b, c], ⟨hl.symm, by rw [sum3, h1], ?_⟩, by simp [ha, hb, hc]⟩
        intro d hd
        match d, hd with
        | 0, _ => exact e0
        | 1, _ => exact e1
      cases odd
      · rcases le_total (x + y) 1 with h | h
        · exact fin [0, 1, 2] (1 - x - y) x y (by decide) rfl (by ring) (by linarith) x0 y0
            (by usum) (by usum)
        · exact fin [1, 2, 3] (1 - y) (1 - x) (x + y - 1) (by decide) rfl (by ring) (by linarith)
            (by linarith) (by linarith) (by usum) (by usum)
      · rcases le_total y x with h | h
        · exact fin [0, 1, 3] (1 - x) (x - y) y (by decide) rfl (by ring) (by linarith)
            (by linarith) (by linarith) (by usum) (by usum)
        · exact fin [0, 2, 3] (1 - y) (y - x) x (by decide) rfl (by ring) (by linarith)
            (by linarith) (by linarith) (by usum) (by usum)
  · match u, hu with
    | [x, y, z], _ =>
      obtain ⟨x0, x1⟩ := h01 0 (by omega)
      obtain ⟨y0, y1⟩ := h01 1 (by omega)
      obtain ⟨z0, z1⟩ := h01 2 (by omega)
      simp only [List.getD_cons_zero, List.getD_cons_succ] at x0 x1 y0 y1 z0 z1
      have fin : ∀ (s : List Nat) (a b c e : K), s ∈ tess 3 odd → s.length = 4 →
          a + b + c + e = 1 → 0 ≤ a → 0 ≤ b → 0 ≤ c → 0 ≤ e →
          (List.zipWith (fun (a : K) (k : Nat) => if k / 2 ^ 0 % 2 = 1 then a else 0) [a, b, c, e] s).sum = x →
          (List.zipWith (fun (a : K) (k : Nat) => if k / 2 ^ 1 % 2 = 1 then a else 0) [a, b, c, e] s).sum = y →
          (List.zipWith (fun (a : K) (k : Nat) => if k / 2 ^ 2 % 2 = 1 then a else 0) [a, b, c, e] s).sum = z →
          ∃ s ∈ tess 3 odd, ∃ w, UnitBary s w [x, y, z] ∧ ∀ a ∈ w, 0 ≤ a := by
        intro s a b c e hs hl h1 ha hb hc he e0 e1 e2
        refine ⟨s, hs, [a, b, c, e], ⟨hl.symm, by rw [sum4, h1], ?_⟩, by simp [ha, hb, hc, he]⟩
        intro d hd
        match d, hd with
        | 0, _ => exact e0
        | 1, _ => exact e1
        | 2, _ => exact e2
      cases odd
      · by_cases h1 : x + z ≤ y
        · exact fin [0, 2, 3, 6] (1 - y) (y - x - z) x z (by decide) rfl (by ring) (by linarith)
            (by linarith) x0 z0 (by usum) (by usum) (by usum)
        by_cases h2 : y + z ≤ x
        · exact fin [0, 1, 3, 5] (1 - x) (x - y - z) y z (by decide) rfl (by ring) (by linarith)
            (by linarith) y0 z0 (by usum) (by usum) (by usum)
        by_cases h3 : x + y ≤ z
        · exact fin [0, 4, 5, 6] (1 - z) (z - x - y) x y (by decide) rfl (by ring) (by linarith)
            (by linarith) x0 y0 (by usum) (by usum) (by usum)
        by_cases h4 : 2 ≤ x + y + z
        · exact fin [3, 5, 6, 7] (1 - z) (1 - y) (1 - x) (x + y + z - 2) (by decide) rfl (by ring)
            (by linarith) (by linarith) (by linarith) (by linarith) (by usum) (by usum)
            (by usum)
        push Not at h1 h2 h3 h4
        exact fin [0, 3, 5, 6] (1 - (x + y + z) / 2) ((x + y - z) / 2) ((x + z - y) / 2)
          ((y + z - x) / 2) (by decide) rfl (by ring) (by linarith) (by linarith) (by linarith)
          (by linarith) (by usum) (by usum) (by usum)
      · by_cases h1 : x + y + z ≤ 1
        · exact fin [0, 1, 2, 4] (1 - x - y - z) x y z (by decide) rfl (by ring) (by linarith)
            x0 y0 z0 (by usum) (by usum) (by usum)
        by_cases h2 : 1 + z ≤ x + y
        · exact fin [1, 2, 3, 7] (1 - y) (1 - x) (x + y - 1 - z) z (by decide) rfl (by ring)
            (by linarith) (by linarith) (by linarith) z0 (by usum) (by usum) (by usum)
        by_cases h3 : 1 + x ≤ y + z
        · exact fin [2, 4, 6, 7] (1 - z) (1 - y) (y + z - 1 - x) x (by decide) rfl (by ring)
            (by linarith) (by linarith) (by linarith) x0 (by usum) (by usum) (by usum)
        by_cases h4 : 1 + y ≤ x + z
        · exact fin [1, 4, 5, 7] (1 - z) (1 - x) (x + z - 1 - y) y (by decide) rfl (by ring)
            (by linarith) (by linarith) (by linarith) y0 (by usum) (by usum) (by usum)
        push Not at h1 h2 h3 h4
        exact fin [2, 4, 1, 7] (y - (x + y + z - 1) / 2) (z - (x + y + z - 1) / 2)
          (x - (x + y + z - 1) / 2) ((x + y + z - 1) / 2) (by decide) rfl (by ring) (by linarith)
          (by linarith) (by linarith) (by linarith) (by usum) (by usum) (by usum)

/-- C27: every point of a cell (an axis-parallel box with lower corner `lo` and upper corner `hi`) lies
in one of the simplices the cell is cut into. -/
theorem C27_cell_covered (D : Nat) (hD : D = 2 ∨ D = 3) (odd : Bool) (lo hi x : List K)
    (hl : lo.length = D) (hx : x.length = D)
    (hlt : ∀ d, d < D → lo.getD d 0 < hi.getD d 0)
    (hin : ∀ d, d < D → lo.getD d 0 ≤ x.getD d 0 ∧ x.getD d 0 ≤ hi.getD d 0) :
    ∃ s ∈ tess D odd, InSimplex (s.map (boxCorner lo hi)) x := by
  obtain ⟨u, h1, h2, h3⟩ := exists_unit D lo hi x hl hx hlt hin
  obtain ⟨s, hs, w, h4, h5⟩ := unit_covered D hD odd u h1 h2
  exact ⟨s, hs, w, bary_of_unit lo hi x u s w (by omega) (by omega) (by rw [hx]; exact h3) h4, h5⟩

/-- Different simplices have no common interior point in the unit cell. -/
theorem unit_disjoint (D : Nat) (hD : D = 2 ∨ D = 3) (odd : Bool) (s t : List Nat)
    (hs : s ∈ tess D odd) (ht : t ∈ tess D odd) (hst : s ≠ t) (w w' u : List K) (hu : u.length = D)
    (h1 : UnitBary s w u) (h2 : UnitBary t w' u) (hw : ∀ a ∈ w, 0 < a) (hw' : ∀ a ∈ w', 0 ≤ a) :
    False := by
  obtain ⟨l1, s1, e1⟩ := h1
  obtain ⟨l2, s2, e2⟩ := h2
  rcases hD with rfl | rfl
  · have hsl : s.length = 3 ∧ t.length = 3 := by
      cases odd <;> simp only [tess, List.mem_cons, List.not_mem_nil, or_false] at hs ht <;>
        rcases hs with rfl | rfl <;> rcases ht with rfl | rfl <;> exact ⟨rfl, rfl⟩
    match w, w', u, hu, l1.trans hsl.1, l2.trans hsl.2 with
    | [a, b, c], [a', b', c'], [x, y], _, _, _ =>
      have p0 := e1 0 (by simp)
      have p1 := e1 1 (by simp)
      have q0 := e2 0 (by simp)
      have q1 := e2 1 (by simp)
      simp only [List.mem_cons, List.not_mem_nil, or_false, forall_eq_or_imp, forall_eq] at hw hw'
      obtain ⟨ha, hb, hc⟩ := hw
      obtain ⟨ha', hb', hc'⟩ := hw'
      simp only [List.sum_cons, List.sum_nil] at s1 s2
      cases odd <;> simp only [tess, List.mem_cons, List.not_mem_nil, or_false] at hs ht <;>
        rcases hs with rfl | rfl <;> rcases ht with rfl | rfl <;>
        first
        | exact hst rfl
        | (simp at p0 p1 q0 q1; linarith)
  · have hsl : s.length = 4 ∧ t.length = 4 := by
      cases odd <;> simp only [tess, List.mem_cons, List.not_mem_nil, or_false] at hs ht <;>
        rcases hs with rfl | rfl | rfl | rfl | rfl <;> rcases ht with rfl | rfl | rfl | rfl | rfl <;>
        exact ⟨rfl, rfl⟩
    match w, w', u, hu, l1.trans hsl.1, l2.trans hsl.2 with
    | [a, b, c, e], [a', b', c', e'], [x, y, z], _, _, _ =>
      have p0 := e1 0 (by simp)
      have p1 := e1 1 (by simp)
      have p2 := e1 2 (by simp)
      have q0 := e2 0 (by simp)
      have q1 := e2 1 (by simp)
      have q2 := e2 2 (by simp)
      simp only [List.mem_cons, List.not_mem_nil, or_false, forall_eq_or_imp, forall_eq] at hw hw'
      obtain ⟨ha, hb, hc, he⟩ := hw
      obtain ⟨ha', hb', hc', he'⟩ := hw'
      simp only [List.sum_cons, List.sum_nil] at s1 s2
      cases odd <;> simp only [tess, List.mem_cons, List.not_mem_nil, or_false] at hs ht <;>
        rcases hs with rfl | rfl | rfl | rfl | rfl <;> rcases ht with rfl | rfl | rfl | rfl | rfl <;>
        first
        | exact hst rfl
        | (simp at p0 p1 p2 q0 q1 q2; linarith)

/-- C27: no interior point of one simplex of a cell lies in another simplex of the cell. -/
theorem C27_interiors_disjoint (D : Nat) (hD : D = 2 ∨ D = 3) (odd : Bool) (lo hi x : List K)
    (hl : lo.length = D) (hx : x.length = D)
    (hlt : ∀ d, d < D → lo.getD d 0 < hi.getD d 0) (s t : List Nat) (hs : s ∈ tess D odd)
    (ht : t ∈ tess D odd) (hst : s ≠ t) (h : InInterior (s.map (boxCorner lo hi)) x) :
    ¬ InSimplex (t.map (boxCorner lo hi)) x := by
  rintro ⟨w', ⟨l', s', e'⟩, hw'⟩
  obtain ⟨w, ⟨l, s0, e⟩, hw⟩ := h
  rw [List.length_map] at l l'
  have conv : ∀ (s : List Nat) (w : List K), w.length = s.length → w.sum = 1 →
      (∀ d, d < x.length → (List.zipWith (fun a v => a * v.getD d 0) w (s.map (boxCorner lo hi))).sum =
        x.getD d 0) → UnitBary s w ((List.range D).map (fun d => (x.getD d 0 - lo.getD d 0) /
          (hi.getD d 0 - lo.getD d 0))) := by
    intro s w h1 h2 h3
    refine ⟨h1, h2, fun d hd => ?_⟩
    simp only [List.length_map, List.length_range] at hd
    have := h3 d (by omega)
    rw [box_sum lo hi d (by omega) s w h1, h2, mul_one] at this
    have hne : hi.getD d 0 - lo.getD d 0 ≠ 0 := by
      intro h; have := hlt d hd; linarith
    have hg : ((List.range D).map (fun d => (x.getD d 0 - lo.getD d 0) /
      (hi.getD d 0 - lo.getD d 0))).getD d 0 = (x.getD d 0 - lo.getD d 0) /
      (hi.getD d 0 - lo.getD d 0) := by
      simp [List.getD, hd]
    rw [hg, eq_div_iff hne]
    linarith
  exact unit_disjoint D hD odd s t hs ht hst w w' _ (by simp) (conv s w l s0 e) (conv t w' l' s' e') hw hw'

example : ∃ s ∈ tess 2 true, InSimplex (s.map (boxCorner [(0 : ℚ), 0] [2, 1])) [1, 1 / 4] :=
  C27_cell_covered 2 (Or.inl rfl) true _ _ _ rfl rfl
    (by intro d hd; match d, hd with
        | 0, _ => norm_num
        | 1, _ => norm_num)
    (by intro d hd; match d, hd with
        | 0, _ => norm_num
        | 1, _ => norm_num)

end Tandem.GenMesh
