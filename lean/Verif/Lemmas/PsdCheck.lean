import Mathlib.Data.Real.Basic
import Mathlib.Tactic.Ring
import Mathlib.Tactic.Linarith
import Mathlib.Tactic.Positivity
import Mathlib.Algebra.BigOperators.Group.List.Basic
/-!
# A criterion for positive semidefinite integer matrices that the kernel can evaluate

Elimination without fractions; after every step the matrix is divided by the greatest common divisor of its entries.  The
functions are written with continuations that force the numbers, so that the kernel keeps numerals instead of unevaluated terms.
A symmetric matrix is given by its upper triangle: row `i` starts with the entry on the diagonal.
-/
namespace Tandem.PsdCheck

/-- Evaluates `n` before it is passed on. -/
def seqNat {α : Type} (n : ℕ) (f : ℕ → α) : α :=
  match n with
  | 0 => f 0
  | m + 1 => f (m + 1)

/-- Evaluates `z` before it is passed on. -/
def seqInt {α : Type} (z : ℤ) (f : ℤ → α) : α :=
  match z with
  | .ofNat n => seqNat n fun n => f (.ofNat n)
  | .negSucc n => seqNat n fun n => f (.negSucc n)

/-- A row of `p A - b bᵀ`. -/
def schurRow {α : Type} (p b : ℤ) : List ℤ → List ℤ → (List ℤ → α) → α
  | a :: as, c :: cs, k => seqInt (p * a - b * c) fun z => schurRow p b as cs fun zs => k (z :: zs)
  | _, _, k => k []

/-- `p A - b bᵀ`. -/
def schur {α : Type} (p : ℤ) : List (List ℤ) → List ℤ → (List (List ℤ) → α) → α
  | row :: rows, b :: bs, k => schurRow p b row (b :: bs) fun r => schur p rows bs fun rs => k (r :: rs)
  | _, _, k => k []

/-- Greatest common divisor of a row and a number. -/
def rowGcd {α : Type} : List ℤ → ℕ → (ℕ → α) → α
  | [], g, k => k g
  | a :: as, g, k => seqNat (Nat.gcd g a.natAbs) fun g' => rowGcd as g' k

/-- Greatest common divisor of all entries and a number. -/
def allGcd {α : Type} : List (List ℤ) → ℕ → (ℕ → α) → α
  | [], g, k => k g
  | a :: as, g, k => rowGcd a g fun g' => allGcd as g' k

/-- A row divided by a number. -/
def divRow {α : Type} (g : ℕ) : List ℤ → (List ℤ → α) → α
  | a :: as, k => seqInt (Int.tdiv a g) fun z => divRow g as fun zs => k (z :: zs)
  | [], k => k []

/-- The matrix divided by a number. -/
def divAll {α : Type} (g : ℕ) : List (List ℤ) → (List (List ℤ) → α) → α
  | r :: rs, k => divRow g r fun r' => divAll g rs fun rs' => k (r' :: rs')
  | [], k => k []

/-- Elimination: all pivots are positive. -/
def check : ℕ → List (List ℤ) → Bool
  | 0, rows => rows.isEmpty
  | n + 1, (p :: bs) :: rows => decide (0 < p) && schur p rows bs fun rs => allGcd rs 0 fun g => divAll g rs (check n)
  | _ + 1, _ => false

/-- `a · x`. -/
def dot : List ℤ → List ℝ → ℝ
  | a :: as, x :: xs => a * x + dot as xs
  | _, _ => 0

/-- The quadratic form of a matrix given by its upper triangle. -/
def qf : List (List ℤ) → List ℝ → ℝ
  | (p :: bs) :: rows, x :: xs => p * x ^ 2 + 2 * x * dot bs xs + qf rows xs
  | _, _ => 0

/-- The rows of an upper triangle. -/
def Tri : ℕ → List (List ℤ) → Prop
  | 0, rows => rows = []
  | n + 1, rows => ∃ r rs, rows = r :: rs ∧ r.length = n + 1 ∧ Tri n rs

theorem seqNat_eq {α : Type} (n : ℕ) (f : ℕ → α) : seqNat n f = f n := by cases n <;> rfl

theorem seqInt_eq {α : Type} (z : ℤ) (f : ℤ → α) : seqInt z f = f z := by
  cases z <;> simp [seqInt, seqNat_eq]

/-- Direct version of `schur`. -/
def schurL (p : ℤ) : List (List ℤ) → List ℤ → List (List ℤ)
  | row :: rows, b :: bs => List.zipWith (fun a c => p * a - b * c) row (b :: bs) :: schurL p rows bs
  | _, _ => []

theorem schurRow_eq {α : Type} (p b : ℤ) (as cs : List ℤ) (k : List ℤ → α) :
    schurRow p b as cs k = k (List.zipWith (fun a c => p * a - b * c) as cs) := by
  induction as generalizing cs k with
  | nil => cases cs <;> simp [schurRow]
  | cons a as ih =>
    cases cs with
    | nil => simp [schurRow]
    | cons c cs => rw [schurRow, seqInt_eq, ih]; rfl

theorem schur_eq {α : Type} (p : ℤ) (rows : List (List ℤ)) (bs : List ℤ) (k : List (List ℤ) → α) :
    schur p rows bs k = k (schurL p rows bs) := by
  induction rows generalizing bs k with
  | nil => cases bs <;> simp [schur, schurL]
  | cons r rs ih =>
    cases bs with
    | nil => simp [schur, schurL]
    | cons b bs => rw [schur, schurRow_eq, ih]; rfl

theorem rowGcd_eq {α : Type} (as : List ℤ) (g : ℕ) (k : ℕ → α) : ∃ g' : ℕ, rowGcd as g k = k g' ∧ g' ∣ g ∧ ∀ a ∈ as, (g' : ℤ) ∣ a := by
  induction as generalizing g with
  | nil => exact ⟨g, rfl, dvd_rfl, by simp⟩
  | cons a as ih =>
    obtain ⟨g', h1, h2, h3⟩ := ih (Nat.gcd g a.natAbs)
    refine ⟨g', by rw [rowGcd, seqNat_eq, h1], h2.trans (Nat.gcd_dvd_left _ _), ?_⟩
    intro b hb
    rcases List.mem_cons.1 hb with rfl | hb
    · exact Int.natCast_dvd.2 (h2.trans (Nat.gcd_dvd_right _ _))
    · exact h3 b hb

theorem allGcd_eq {α : Type} (rows : List (List ℤ)) (g : ℕ) (k : ℕ → α) :
    ∃ g' : ℕ, allGcd rows g k = k g' ∧ g' ∣ g ∧ ∀ r ∈ rows, ∀ a ∈ r, (g' : ℤ) ∣ a := by
  induction rows generalizing g with
  | nil => exact ⟨g, rfl, dvd_rfl, by simp⟩
  | cons r rs ih =>
    obtain ⟨g₁, h1, h2, h3⟩ := rowGcd_eq r g (fun g' => allGcd rs g' k)
    obtain ⟨g', k1, k2, k3⟩ := ih g₁
    refine ⟨g', by rw [allGcd, h1, k1], k2.trans h2, ?_⟩
    intro r' hr'
    rcases List.mem_cons.1 hr' with rfl | hr'
    · intro a ha; exact (Int.natCast_dvd_natCast.2 k2).trans (h3 a ha)
    · exact k3 r' hr'

theorem divRow_eq {α : Type} (g : ℕ) (as : List ℤ) (k : List ℤ → α) : divRow g as k = k (as.map fun a => Int.tdiv a g) := by
  induction as generalizing k with
  | nil => rfl
  | cons a as ih => rw [divRow, seqInt_eq, ih]; rfl

theorem divAll_eq {α : Type} (g : ℕ) (rows : List (List ℤ)) (k : List (List ℤ) → α) :
    divAll g rows k = k (rows.map fun r => r.map fun a => Int.tdiv a g) := by
  induction rows generalizing k with
  | nil => rfl
  | cons r rs ih => rw [divAll, divRow_eq, ih]; rfl

theorem dot_zip (p b : ℤ) (as cs : List ℤ) (xs : List ℝ) (h : as.length = cs.length) :
    dot (List.zipWith (fun a c => p * a - b * c) as cs) xs = p * dot as xs - b * dot cs xs := by
  induction as generalizing cs xs with
  | nil => cases cs with
    | nil => simp [dot]
    | cons c cs => simp at h
  | cons a as ih =>
    cases cs with
    | nil => simp at h
    | cons c cs =>
      cases xs with
      | nil => simp [dot]
      | cons x xs =>
        simp only [List.zipWith_cons_cons, dot, ih cs xs (by simpa using h)]
        push_cast; ring

theorem tri_schur (p : ℤ) : ∀ (n : ℕ) (rows : List (List ℤ)) (bs : List ℤ), Tri n rows → bs.length = n → Tri n (schurL p rows bs)
  | 0, rows, bs, h, _ => by
    obtain rfl : rows = [] := h
    cases bs <;> rfl
  | n + 1, rows, bs, h, hb => by
    obtain ⟨r, rs, rfl, h1, h2⟩ := h
    cases bs with
    | nil => simp at hb
    | cons b bs =>
      refine ⟨_, _, rfl, ?_, tri_schur p n rs bs h2 (by simpa using hb)⟩
      rw [List.length_zipWith, h1, hb]; simp

theorem qf_schur (p : ℤ) : ∀ (n : ℕ) (rows : List (List ℤ)) (bs : List ℤ) (xs : List ℝ), Tri n rows → bs.length = n →
    xs.length = n → qf (schurL p rows bs) xs = p * qf rows xs - dot bs xs ^ 2
  | 0, rows, bs, xs, h, hb, hx => by
    obtain rfl : rows = [] := h
    obtain rfl := List.length_eq_zero_iff.1 hb
    simp [schurL, qf, dot]
  | n + 1, rows, bs, xs, h, hb, hx => by
    obtain ⟨r, rs, rfl, h1, h2⟩ := h
    cases bs with
    | nil => simp at hb
    | cons b bs =>
      cases xs with
      | nil => simp at hx
      | cons x xs =>
        cases r with
        | nil => simp at h1
        | cons a as =>
          have ih := qf_schur p n rs bs xs h2 (by simpa using hb) (by simpa using hx)
          simp only [List.length_cons, Nat.add_right_cancel_iff] at h1 hb
          simp only [schurL, List.zipWith_cons_cons, qf, dot, ih, dot_zip p b as bs xs (by rw [h1, hb])]
          push_cast; ring

theorem tri_div (g : ℕ) : ∀ (n : ℕ) (rows : List (List ℤ)), Tri n rows → Tri n (rows.map fun r => r.map fun a => Int.tdiv a g)
  | 0, rows, h => by obtain rfl : rows = [] := h; rfl
  | n + 1, rows, h => by
    obtain ⟨r, rs, rfl, h1, h2⟩ := h
    exact ⟨_, _, rfl, by rw [List.length_map, h1], tri_div g n rs h2⟩

theorem dot_div (g : ℕ) (as : List ℤ) (xs : List ℝ) (h : ∀ a ∈ as, (g : ℤ) ∣ a) :
    dot as xs = g * dot (as.map fun a => Int.tdiv a g) xs := by
  induction as generalizing xs with
  | nil => simp [dot]
  | cons a as ih =>
    cases xs with
    | nil => simp [dot]
    | cons x xs =>
      have ha : (g : ℤ) * Int.tdiv a g = a := Int.mul_tdiv_cancel' (h a (by simp))
      have ha' : (a : ℝ) = g * (Int.tdiv a g : ℤ) := by exact_mod_cast ha.symm
      simp only [List.map_cons, dot]
      rw [ih xs fun b hb => h b (by simp [hb]), ha']; ring

theorem qf_div (g : ℕ) (rows : List (List ℤ)) (xs : List ℝ) (h : ∀ r ∈ rows, ∀ a ∈ r, (g : ℤ) ∣ a) :
    qf rows xs = g * qf (rows.map fun r => r.map fun a => Int.tdiv a g) xs := by
  induction rows generalizing xs with
  | nil => simp [qf]
  | cons r rs ih =>
    cases r with
    | nil => simp [qf]
    | cons a as =>
      cases xs with
      | nil => simp [qf]
      | cons x xs =>
        have ha : (g : ℤ) * Int.tdiv a g = a := Int.mul_tdiv_cancel' (h (a :: as) (by simp) a (by simp))
        have ha' : (a : ℝ) = g * (Int.tdiv a g : ℤ) := by exact_mod_cast ha.symm
        simp only [List.map_cons, qf]
        rw [ih xs fun r hr => h r (by simp [hr]), ha', dot_div g as xs fun b hb => h (a :: as) (by simp) b (by simp [hb])]; ring

/-- The criterion is sufficient. -/
theorem check_sound : ∀ (n : ℕ) (rows : List (List ℤ)), Tri n rows → check n rows = true → ∀ xs : List ℝ, xs.length = n → 0 ≤ qf rows xs
  | 0, rows, h, _, xs, _ => by obtain rfl : rows = [] := h; simp [qf]
  | n + 1, rows, h, hc, xs, hx => by
    obtain ⟨r, rs, rfl, h1, h2⟩ := h
    cases r with
    | nil => simp at h1
    | cons p bs =>
      cases xs with
      | nil => simp at hx
      | cons x xs =>
        simp only [List.length_cons, Nat.add_right_cancel_iff] at h1 hx
        rw [check, schur_eq, Bool.and_eq_true, decide_eq_true_eq] at hc
        obtain ⟨hp, hc⟩ := hc
        obtain ⟨g, hg, _, hd⟩ := allGcd_eq (schurL p rs bs) 0 (fun g => divAll g (schurL p rs bs) (check n))
        rw [hg, divAll_eq] at hc
        have ih := check_sound n _ (tri_div g n _ (tri_schur p n rs bs h2 h1)) hc xs hx
        have e1 := qf_div g _ xs hd
        have e2 := qf_schur p n rs bs xs h2 h1 hx
        have hs : 0 ≤ p * qf rs xs - dot bs xs ^ 2 := by rw [← e2, e1]; positivity
        have hp' : (0 : ℝ) < p := by exact_mod_cast hp
        simp only [qf]
        have : 0 ≤ (p : ℝ) * (p * x ^ 2 + 2 * x * dot bs xs + qf rs xs) := by nlinarith [sq_nonneg (p * x + dot bs xs)]
        exact nonneg_of_mul_nonneg_right this hp'

end Tandem.PsdCheck
