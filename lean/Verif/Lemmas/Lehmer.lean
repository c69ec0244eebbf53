import Verif.Model.Combinatorics
import Mathlib.Data.Nat.Factorial.Basic
import Mathlib.Data.List.Nodup
import Mathlib.Data.List.Perm.Subperm
import Mathlib.Data.List.GetD
import Mathlib.Tactic.Ring
import Mathlib.Tactic.Linarith
/-! Helper lemmas for `Permutation.h`. -/
namespace Tandem.Combinatorics

theorem count_shift (N k : Nat) (b : Bitset) (hk : k ≤ N) :
    count N (shiftLeft b (N - k)) = count k b := by
  unfold count
  have hN : N = (N - k) + k := by omega
  have e : List.range N = List.range (N - k) ++ (List.range k).map (fun j => N - k + j) := by
    conv_lhs => rw [hN]
    rw [List.range_add]
  rw [e, List.countP_append, List.countP_map]
  have h1 : List.countP (shiftLeft b (N - k)) (List.range (N - k)) = 0 := by
    rw [List.countP_eq_zero]
    intro a ha
    have : a < N - k := by simpa using ha
    simp [shiftLeft]; omega
  rw [h1, Nat.zero_add]
  congr 1
  funext j
  simp [shiftLeft]

/-- number of unseen numbers below `k` -/
def unseen (b : Bitset) (k : Nat) : Nat := (List.range k).countP (fun j => !b j)

theorem unseen_add (b : Bitset) (k : Nat) : count k b + unseen b k = k := by
  unfold count unseen
  have := List.length_eq_countP_add_countP b (l := List.range k)
  simp only [List.length_range] at this
  have e : List.countP (fun j => !b j) (List.range k) =
      List.countP (fun a => decide ¬b a = true) (List.range k) := by
    congr 1; funext j; simp
  rw [e]; omega

theorem unseen_lt (b : Bitset) (k l : Nat) (hkl : k < l) (hb : b k = false) :
    unseen b k < unseen b l := by
  unfold unseen
  have e : List.range l = List.range (k + 1) ++ (List.range (l - (k + 1))).map (fun j => k + 1 + j) := by
    conv_lhs => rw [show l = (k + 1) + (l - (k + 1)) by omega]
    rw [List.range_add]
  rw [e, List.countP_append, List.range_succ, List.countP_append]
  simp [hb]; omega

theorem unseen_inj (b : Bitset) (k l : Nat) (hk : b k = false) (hl : b l = false)
    (h : unseen b k = unseen b l) : k = l := by
  rcases Nat.lt_trichotomy k l with h1 | h1 | h1
  · have := unseen_lt b k l h1 hk; omega
  · exact h1
  · have := unseen_lt b l k h1 hl; omega

/-- adding `k` to the seen set -/
def setBit (b : Bitset) (k : Nat) : Bitset := fun j => decide (j = k) || b j

theorem count_setBit_self (b : Bitset) (k : Nat) : count k (setBit b k) = count k b := by
  unfold count
  apply List.countP_congr
  intro x hx
  have : x < k := by simpa using hx
  simp [setBit]; omega

theorem unseen_setBit (b : Bitset) (k N : Nat) (hk : k < N) (hb : b k = false) :
    unseen (setBit b k) N + 1 = unseen b N := by
  unfold unseen
  have e : List.range N = List.range k ++ k :: (List.range (N - (k + 1))).map (fun j => k + 1 + j) := by
    conv_lhs => rw [show N = (k + 1) + (N - (k + 1)) by omega]
    rw [List.range_add, List.range_succ]; simp
  rw [e, List.countP_append, List.countP_append, List.countP_cons, List.countP_cons]
  have h1 : List.countP (fun j => !setBit b k j) (List.range k) =
      List.countP (fun j => !b j) (List.range k) := by
    apply List.countP_congr; intro x hx
    have : x < k := by simpa using hx
    simp [setBit]; omega
  have h2 : List.countP (fun j => !setBit b k j) (List.map (fun j => k + 1 + j) (List.range (N - (k + 1)))) =
      List.countP (fun j => !b j) (List.map (fun j => k + 1 + j) (List.range (N - (k + 1)))) := by
    apply List.countP_congr; intro x hx
    obtain ⟨y, _, rfl⟩ := List.mem_map.1 hx
    simp [setBit]; omega
  rw [h1, h2]
  simp [setBit, hb]; omega

/-- the code of an admissible list: entries below `N`, distinct, not seen before -/
theorem lehmerLoop_eq (N : Nat) (seen : Bitset) (p : List Nat) (hp : ∀ x ∈ p, x < N)
    (hn : p.Nodup) (hs : ∀ x ∈ p, seen x = false) :
    ∃ L, lehmerLoop N seen p = some L ∧ L.length = p.length ∧
      (∀ i (hi : i < L.length), L[i] + i < unseen seen N) := by
  induction p generalizing seen with
  | nil => exact ⟨[], rfl, rfl, by simp⟩
  | cons k p ih =>
    have hk : k < N := hp k (by simp)
    have hn' := List.nodup_cons.1 hn
    have hsk : seen k = false := hs k (by simp)
    have hs' : ∀ x ∈ p, setBit seen k x = false := by
      intro x hx
      have hxk : x ≠ k := by rintro rfl; exact hn'.1 hx
      simp [setBit, hxk, hs x (by simp [hx])]
    obtain ⟨L, h1, h2, h3⟩ := ih (setBit seen k) (fun x hx => hp x (by simp [hx])) hn'.2 hs'
    refine ⟨(k - count N (shiftLeft (setBit seen k) (N - k))) :: L, ?_, by simp [h2], ?_⟩
    · simp only [lehmerLoop, if_pos hk]
      change (lehmerLoop N (setBit seen k) p).map _ = _
      rw [h1]; rfl
    · intro i hi
      have hcount := unseen_setBit seen k N hk hsk
      cases i with
      | zero =>
        simp only [List.getElem_cons_zero, Nat.add_zero]
        rw [count_shift N k _ (by omega), count_setBit_self]
        have e1 := unseen_add seen k
        have e2 := unseen_lt seen k N hk hsk
        omega
      | succ i =>
        have := h3 i (by simpa using hi)
        simp only [List.getElem_cons_succ]
        omega

theorem lehmerLoop_inj (N : Nat) (seen : Bitset) (p q : List Nat)
    (hp : ∀ x ∈ p, x < N) (hq : ∀ x ∈ q, x < N) (hnp : p.Nodup) (hnq : q.Nodup)
    (hsp : ∀ x ∈ p, seen x = false) (hsq : ∀ x ∈ q, seen x = false)
    (h : lehmerLoop N seen p = lehmerLoop N seen q) : p = q := by
  induction p generalizing seen q with
  | nil =>
    cases q with
    | nil => rfl
    | cons l q =>
      simp only [lehmerLoop, if_pos (hq l (by simp))] at h
      cases hh : lehmerLoop N (fun j => decide (j = l) || seen j) q <;> simp [hh] at h
  | cons k p ih =>
    have hk : k < N := hp k (by simp)
    have hnp' := List.nodup_cons.1 hnp
    have hsk : seen k = false := hsp k (by simp)
    have hsp' : ∀ x ∈ p, setBit seen k x = false := by
      intro x hx
      have hxk : x ≠ k := by rintro rfl; exact hnp'.1 hx
      simp [setBit, hxk, hsp x (by simp [hx])]
    obtain ⟨L, h1, _, _⟩ := lehmerLoop_eq N (setBit seen k) p (fun x hx => hp x (by simp [hx])) hnp'.2 hsp'
    cases q with
    | nil =>
      simp only [lehmerLoop, if_pos hk] at h
      cases hh : lehmerLoop N (fun j => decide (j = k) || seen j) p with
      | none => simp [hh] at h
      | some t => simp [hh] at h
    | cons l q =>
      have hl : l < N := hq l (by simp)
      have hnq' := List.nodup_cons.1 hnq
      have hsl : seen l = false := hsq l (by simp)
      have hsq' : ∀ x ∈ q, setBit seen l x = false := by
        intro x hx
        have hxk : x ≠ l := by rintro rfl; exact hnq'.1 hx
        simp [setBit, hxk, hsq x (by simp [hx])]
      obtain ⟨M, g1, _, _⟩ := lehmerLoop_eq N (setBit seen l) q (fun x hx => hq x (by simp [hx])) hnq'.2 hsq'
      simp only [lehmerLoop, if_pos hk, if_pos hl] at h
      change (lehmerLoop N (setBit seen k) p).map (fun t => (k - count N (shiftLeft (setBit seen k) (N - k))) :: t) =
        (lehmerLoop N (setBit seen l) q).map (fun t => (l - count N (shiftLeft (setBit seen l) (N - l))) :: t) at h
      rw [h1, g1] at h
      simp only [Option.map_some, Option.some.injEq, List.cons.injEq] at h
      have e : k = l := by
        apply unseen_inj seen k l hsk hsl
        have := h.1
        rw [count_shift N k _ (by omega), count_shift N l _ (by omega), count_setBit_self,
          count_setBit_self] at this
        have a1 := unseen_add seen k
        have a2 := unseen_add seen l
        omega
      subst e
      rw [ih (setBit seen k) q (fun x hx => hp x (by simp [hx])) (fun x hx => hq x (by simp [hx]))
        hnp'.2 hnq'.2 hsp' hsq' (by rw [h1, g1, h.2])]

/-! ### factorial number system -/

/-- exact value of a code -/
def value : List Nat → Nat
  | [] => 0
  | l :: L => l * (L.length).factorial + value L

/-- digits respect the factorial radix -/
def Digits : List Nat → Prop
  | [] => True
  | l :: L => l ≤ L.length ∧ Digits L

theorem value_lt (L : List Nat) (h : Digits L) : value L < L.length.factorial := by
  induction L with
  | nil => simp [value]
  | cons l L ih =>
    have := ih h.2
    have hl := h.1
    simp only [value, List.length_cons, Nat.factorial_succ]
    have : l * L.length.factorial ≤ L.length * L.length.factorial := Nat.mul_le_mul_right _ hl
    rw [Nat.add_mul]; omega

theorem value_inj (L M : List Nat) (hl : L.length = M.length) (hL : Digits L) (hM : Digits M)
    (h : value L = value M) : L = M := by
  induction L generalizing M with
  | nil => exact (List.eq_nil_of_length_eq_zero hl.symm).symm
  | cons l L ih =>
    cases M with
    | nil => simp at hl
    | cons m M =>
      have hlen : L.length = M.length := by simpa using hl
      have v1 := value_lt L hL.2
      have v2 := value_lt M hM.2
      simp only [value, hlen] at h
      rw [hlen] at v1
      have hF : 0 < M.length.factorial := Nat.factorial_pos _
      have e1 : l = m := by
        have q1 := congrArg (· / M.length.factorial) h
        beta_reduce at q1
        rw [Nat.add_comm, Nat.add_mul_div_right _ _ hF, Nat.div_eq_of_lt v1,
          Nat.add_comm (m * _), Nat.add_mul_div_right _ _ hF, Nat.div_eq_of_lt v2] at q1
        omega
      subst e1
      rw [ih M hlen hL.2 hM.2 (by omega)]

/-- exact state after processing the codes `R` (least significant first) -/
theorem lehmerToIntegerLoop_eq (R : List Nat) (a n : Nat) (hn : n + R.length ≤ 12)
    (hdig : ∀ i (hi : i < R.length), R[i] ≤ n + i) (ha : a < n.factorial) :
    lehmerToIntegerLoop R (a, n.factorial, n + 1) =
      a + ((List.range R.length).map (fun i => R.getD i 0 * (n + i).factorial)).sum := by
  induction R generalizing a n with
  | nil => simp [lehmerToIntegerLoop]
  | cons r R ih =>
    have h0 : r ≤ n := hdig 0 (by simp)
    have hn' : n + 1 ≤ 12 := by simp at hn; omega
    have hfac : (n + 1).factorial ≤ 479001600 := by
      have := Nat.factorial_le hn'
      have e : Nat.factorial 12 = 479001600 := by decide
      omega
    have hlt : a + r * n.factorial < (n + 1).factorial := by
      rw [Nat.factorial_succ, Nat.add_mul]
      have := Nat.mul_le_mul_right n.factorial h0
      omega
    have e1 : (a + r * n.factorial % 2 ^ 32) % 2 ^ 32 = a + r * n.factorial := by
      rw [Nat.mod_eq_of_lt (a := r * n.factorial), Nat.mod_eq_of_lt] <;> omega
    have e2 : n.factorial * (n + 1) % 2 ^ 32 = (n + 1).factorial := by
      rw [Nat.mul_comm, ← Nat.factorial_succ, Nat.mod_eq_of_lt]; omega
    have e3 : (n + 1 + 1) % 2 ^ 32 = n + 1 + 1 := by rw [Nat.mod_eq_of_lt]; omega
    simp only [lehmerToIntegerLoop, e1, e2, e3]
    rw [ih (a + r * n.factorial) (n + 1) (by simp at hn; omega) ?_ hlt]
    · rw [List.length_cons, List.range_succ_eq_map]
      simp only [List.map_cons, List.map_map, List.sum_cons, List.getD_cons_zero, Nat.add_zero]
      rw [Nat.add_assoc]
      congr 2
      congr 1
      apply List.map_congr_left
      intro i _
      simp [Nat.add_assoc, Nat.add_comm 1 i]
    · intro i hi
      have := hdig (i + 1) (by simpa using hi)
      simp at this; omega

theorem value_eq_sum (L : List Nat) :
    value L = ((List.range L.length).map (fun i => L.reverse.getD i 0 * i.factorial)).sum := by
  induction L with
  | nil => rfl
  | cons l L ih =>
    rw [value, ih, List.length_cons, List.range_succ, List.map_append, List.sum_append]
    simp only [List.reverse_cons, List.map_cons, List.map_nil, List.sum_cons, List.sum_nil]
    have : List.map (fun i => (L.reverse ++ [l]).getD i 0 * i.factorial) (List.range L.length) =
        List.map (fun i => L.reverse.getD i 0 * i.factorial) (List.range L.length) := by
      apply List.map_congr_left
      intro i hi
      have hi' : i < L.length := by simpa using hi
      rw [List.getD_append _ _ _ _ (by simpa using hi')]
    rw [this]
    have h2 : (L.reverse ++ [l]).getD L.length 0 = l := by
      rw [List.getD_append_right _ _ _ _ (by simp)]; simp
    rw [h2]; omega

theorem digits_getElem (L : List Nat) (h : ∀ i (hi : i < L.length), L[i] + i < L.length) :
    Digits L := by
  induction L with
  | nil => trivial
  | cons l L ih =>
    refine ⟨by have := h 0 (by simp); simp at this; omega, ih ?_⟩
    intro i hi
    have := h (i + 1) (by simpa using hi)
    simp at this; omega

theorem lehmerToInteger_eq (L : List Nat) (hN : L.length ≤ 12)
    (h : ∀ i (hi : i < L.length), L[i] + i < L.length) : lehmerToInteger L = value L := by
  unfold lehmerToInteger
  have := lehmerToIntegerLoop_eq L.reverse 0 0 (by simpa using hN) ?_ (by simp)
  · simp only [Nat.factorial_zero, Nat.zero_add, List.length_reverse] at this
    rw [this, value_eq_sum]
  · intro i hi
    have hi' : i < L.length := by simpa using hi
    rw [List.getElem_reverse]
    have := h (L.length - 1 - i) (by omega)
    omega

theorem unseen_empty (N : Nat) : unseen (fun _ => false) N = N := by
  simp [unseen]

end Tandem.Combinatorics
