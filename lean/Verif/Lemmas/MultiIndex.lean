import Verif.Model.MultiIndex
import Verif.Spec.MultiIndex
/-! Helper lemmas for multi-indices. -/
namespace Tandem.MultiIndex
open Tandem.Spec

@[simp] theorem inShape_nil_nil : InShape [] [] := by simp [InShape]

theorem inShape_nil_iff (idx : List Nat) : InShape idx [] ↔ idx = [] := by
  constructor
  · intro h; exact List.eq_nil_of_length_eq_zero (by simpa [InShape] using h.1)
  · rintro rfl; simp

theorem inShape_cons_iff (idx : List Nat) (n : Nat) (shape : List Nat) :
    InShape idx (n :: shape) ↔ ∃ i t, idx = i :: t ∧ i < n ∧ InShape t shape := by
  constructor
  · rintro ⟨hl, h⟩
    cases idx with
    | nil => simp at hl
    | cons i t =>
      refine ⟨i, t, rfl, h 0 (by simp) (by simp), by simpa using hl, ?_⟩
      intro d hd hd'
      exact h (d + 1) (by simpa using hd) (by simpa using hd')
  · rintro ⟨i, t, rfl, hi, hl, h⟩
    refine ⟨by simpa using hl, ?_⟩
    intro d hd hd'
    cases d with
    | zero => simpa using hi
    | succ d => simpa using h d (by simpa using hd) (by simpa using hd')

theorem flatten_eq_position (idx shape : List Nat) : flatten idx shape = position idx shape := by
  induction idx generalizing shape with
  | nil => simp [flatten, position]
  | cons i idx ih =>
    cases shape with
    | nil => simp [flatten, position]
    | cons n shape =>
      have := ih shape
      simp only [flatten] at this
      simp only [flatten, position, List.zip_cons_cons, List.foldr_cons, this]
      rw [Nat.mul_comm n, Nat.add_comm]

theorem position_lt (idx shape : List Nat) (h : InShape idx shape) :
    position idx shape < volume shape := by
  induction shape generalizing idx with
  | nil => rw [inShape_nil_iff] at h; subst h; simp [position, volume]
  | cons n shape ih =>
    obtain ⟨i, t, rfl, hi, ht⟩ := (inShape_cons_iff _ _ _).1 h
    have h1 := ih t ht
    have h2 : n * (position t shape + 1) ≤ n * volume shape := Nat.mul_le_mul_left n h1
    simp only [position, volume, List.foldr_cons] at *
    rw [Nat.mul_add] at h2
    omega

theorem unflatten_position (idx shape : List Nat) (h : InShape idx shape) :
    unflatten (position idx shape) shape = some idx := by
  induction shape generalizing idx with
  | nil => rw [inShape_nil_iff] at h; subst h; simp [unflatten]
  | cons n shape ih =>
    obtain ⟨i, t, rfl, hi, ht⟩ := (inShape_cons_iff _ _ _).1 h
    have hn : n ≠ 0 := by omega
    simp only [unflatten, position, if_neg hn]
    rw [Nat.add_mul_div_left _ _ (by omega : 0 < n), Nat.div_eq_of_lt hi, Nat.zero_add, ih t ht,
      Nat.add_mul_mod_self_left, Nat.mod_eq_of_lt hi]
    rfl

theorem unflatten_inShape (k : Nat) (shape : List Nat) (hk : k < volume shape) :
    ∃ idx, unflatten k shape = some idx ∧ InShape idx shape ∧ position idx shape = k := by
  induction shape generalizing k with
  | nil => exact ⟨[], by simp [unflatten], by simp, by simp [volume] at hk; simp [position, hk]⟩
  | cons n shape ih =>
    have hn : 0 < n := by
      rcases Nat.eq_zero_or_pos n with h | h
      · subst h; simp [volume] at hk
      · exact h
    have hq : k / n < volume shape := by
      rw [Nat.div_lt_iff_lt_mul hn, Nat.mul_comm]
      simpa [volume] using hk
    obtain ⟨t, h1, h2, h3⟩ := ih (k / n) hq
    refine ⟨k % n :: t, ?_, (inShape_cons_iff _ _ _).2 ⟨_, _, rfl, Nat.mod_lt _ hn, h2⟩, ?_⟩
    · simp [unflatten, Nat.ne_of_gt hn, h1]
    · simp only [position, h3]
      exact Nat.mod_add_div k n

/-- Multi-index with unreduced last component. -/
def un : Nat → List Nat → List Nat
  | _, [] => []
  | k, [_] => [k]
  | k, n :: m :: ns => k % n :: un (k / n) (m :: ns)

/-- All extents but the last are positive. -/
def InnerPos : List Nat → Prop
  | [] => True
  | [_] => True
  | n :: m :: ns => 0 < n ∧ InnerPos (m :: ns)

theorem un_ne_nil (k n : Nat) (ns : List Nat) : un k (n :: ns) ≠ [] := by
  cases ns <;> simp [un]

theorem first_eq (shape : List Nat) : first shape = un 0 shape := by
  induction shape with
  | nil => simp [first, un]
  | cons n ns ih =>
    cases ns with
    | nil => simp [first, un]
    | cons m ns => simp only [first, List.map_cons, un] at *; simp [ih]

theorem last_eq (shape : List Nat) (h : InnerPos shape) : last shape = un (volume shape) shape := by
  induction shape with
  | nil => simp [last, un]
  | cons n ns ih =>
    cases ns with
    | nil => simp [last, un, volume]
    | cons m ns =>
      have hv : volume (n :: m :: ns) = n * volume (m :: ns) := by simp [volume]
      simp only [last, un, hv, ih h.2, Nat.mul_mod_right, Nat.mul_div_cancel_left _ h.1]

theorem step_un (k n : Nat) (ns : List Nat) (h : InnerPos (n :: ns)) :
    step (n :: ns) (un k (n :: ns)) = un (k + 1) (n :: ns) := by
  induction ns generalizing k n with
  | nil => simp [step, un, carry]
  | cons m ns ih =>
    have ih' := ih (k / n) m h.2
    have hn := h.1
    cases hu : un (k / n) (m :: ns) with
    | nil => exact absurd hu (un_ne_nil _ _ _)
    | cons y ys =>
      rw [hu] at ih'
      simp only [un, hu, step, carry]
      simp only [step] at ih'
      by_cases hc : k % n + 1 ≥ n
      · have hm : k % n < n := Nat.mod_lt _ hn
        have he : k + 1 = n * (k / n + 1) := by
          have := Nat.mod_add_div k n
          rw [Nat.mul_add]; omega
        rw [if_pos hc, ih', he, Nat.mul_mod_right, Nat.mul_div_cancel_left _ hn]
      · rw [if_neg hc]
        have he : k + 1 = k % n + 1 + n * (k / n) := by
          have := Nat.mod_add_div k n
          omega
        have h1 : (k + 1) / n = k / n := by
          rw [he, Nat.add_mul_div_left _ _ hn, Nat.div_eq_of_lt (by omega)]; simp
        have h2 : (k + 1) % n = k % n + 1 := by
          rw [he, Nat.add_mul_mod_self_left, Nat.mod_eq_of_lt (by omega)]
        rw [h1, h2, hu]

theorem un_inj (j k : Nat) (n : Nat) (ns : List Nat)
    (h : un j (n :: ns) = un k (n :: ns)) : j = k := by
  induction ns generalizing j k n with
  | nil => simpa [un] using h
  | cons m ns ih =>
    simp only [un, List.cons.injEq] at h
    have h2 := ih _ _ _ h.2
    have e1 := Nat.mod_add_div j n
    have e2 := Nat.mod_add_div k n
    rw [← e1, ← e2, h.1, h2]

theorem un_eq_unflatten (k : Nat) (shape : List Nat) (hk : k < volume shape) :
    unflatten k shape = some (un k shape) := by
  induction shape generalizing k with
  | nil => simp [un, unflatten]
  | cons n ns ih =>
    have hn : 0 < n := by
      rcases Nat.eq_zero_or_pos n with h | h
      · subst h; simp [volume] at hk
      · exact h
    cases ns with
    | nil =>
      have : k < n := by simpa [volume] using hk
      simp [un, unflatten, Nat.ne_of_gt hn, Nat.mod_eq_of_lt this]
    | cons m ns =>
      have hq : k / n < volume (m :: ns) := by
        rw [Nat.div_lt_iff_lt_mul hn, Nat.mul_comm]
        simpa [volume] using hk
      have := ih _ hq
      rw [unflatten, if_neg (Nat.ne_of_gt hn), this]
      simp [un]

theorem loop_un (n : Nat) (ns : List Nat) (h : InnerPos (n :: ns)) (d k fuel : Nat)
    (hk : k + d = volume (n :: ns)) (hf : d ≤ fuel) :
    loop (n :: ns) fuel (un k (n :: ns)) =
      some ((List.range' k d).map (fun j => un j (n :: ns))) := by
  induction d generalizing k fuel with
  | zero =>
    have : un k (n :: ns) = last (n :: ns) := by rw [last_eq _ h, ← hk]; rfl
    unfold loop
    simp [this]
  | succ d ih =>
    have hne : un k (n :: ns) ≠ last (n :: ns) := by
      rw [last_eq _ h]; intro he; have := un_inj _ _ _ _ he; omega
    unfold loop
    rw [if_neg hne]
    cases fuel with
    | zero => omega
    | succ fuel =>
      simp only [step_un k n ns h, ih (k + 1) fuel (by omega) (by omega), Option.map_some,
        List.range'_succ, List.map_cons]

theorem loop_short (n : Nat) (ns : List Nat) (h : InnerPos (n :: ns)) (fuel k : Nat)
    (hk : k + fuel < volume (n :: ns)) :
    loop (n :: ns) fuel (un k (n :: ns)) = none := by
  induction fuel generalizing k with
  | zero =>
    unfold loop
    have hne : un k (n :: ns) ≠ last (n :: ns) := by
      rw [last_eq _ h]; intro he; have := un_inj _ _ _ _ he; omega
    rw [if_neg hne]
  | succ f ih =>
    unfold loop
    have hne : un k (n :: ns) ≠ last (n :: ns) := by
      rw [last_eq _ h]; intro he; have := un_inj _ _ _ _ he; omega
    rw [if_neg hne]
    simp [step_un k n ns h, ih (k + 1) (by omega)]

theorem innerPos_iff (shape : List Nat) : InnerPos shape ↔ ∀ n ∈ shape.dropLast, 0 < n := by
  induction shape with
  | nil => simp [InnerPos]
  | cons n ns ih =>
    cases ns with
    | nil => simp [InnerPos]
    | cons m ns => simp [InnerPos, ih]

end Tandem.MultiIndex
