import Verif.Model.Combinatorics
import Mathlib.Data.Nat.Choose.Basic
import Mathlib.Data.Nat.Factorial.Basic
import Mathlib.Tactic.Ring
/-! Helper lemmas for `Combinatorics.h`. -/
namespace Tandem.Combinatorics

theorem binom_eq (n k : Nat) (h : k ≤ n) : binom n k = some (n.choose k) := by
  induction n generalizing k with
  | zero => obtain rfl : k = 0 := by omega
            simp [binom]
  | succ n ih =>
    unfold binom
    by_cases h1 : k = 0 ∨ k = n + 1
    · rw [if_pos h1]; rcases h1 with rfl | rfl <;> simp
    · rw [if_neg h1]
      by_cases h2 : k = 1 ∨ k = n
      · rw [if_pos h2]; rcases h2 with rfl | rfl
        · simp
        · simp [Nat.choose_succ_self_right]
      · rw [if_neg h2]
        push Not at h1 h2
        obtain ⟨j, rfl⟩ : ∃ j, k = j + 1 := ⟨k - 1, by omega⟩
        rw [ih (j + 1 - 1) (by omega), ih (j + 1) (by omega)]
        simp [Nat.choose_succ_succ]

@[simp] theorem iota_length (x len : Nat) : (iota x len).length = len := by
  induction len generalizing x with
  | zero => rfl
  | succ n ih => simp [iota, ih]

theorem chooseNextFrom_cons (n k : Nat) (x : Nat) (t : List Nat) (i : Nat) (hi : i ≤ k) :
    chooseNextFrom n (k + 1) (x :: t) (i + 1) =
      match chooseNextFrom n k t i with
      | some t' => some (x :: t')
      | none => if i ≤ t.length then
          (if x < n - (k + 1) then some ((x + 1) :: iota ((x + 1) + 1) k) else none)
        else chooseNextFrom n (k+1) (x :: t) (i+1) := by
  induction i with
  | zero => simp [chooseNextFrom]
  | succ i ih =>
    have ih' := ih (by omega)
    by_cases hl : i < t.length
    · have e1 : t[i]? = some t[i] := List.getElem?_eq_getElem hl
      rw [chooseNextFrom]
      simp only [List.getElem?_cons_succ, e1]
      have e2 : k + 1 - (i + 1) = k - i := by omega
      have e3 : k + 1 - (i + 1 + 1) = k - (i + 1) := by omega
      rw [e2, e3]
      conv_rhs => rw [chooseNextFrom, e1]
      simp only
      by_cases hc : t[i] < n - (k - i)
      · simp [hc]
      · simp only [if_neg hc]
        rw [ih']
        cases hh : chooseNextFrom n k t i with
        | some t' => simp
        | none => simp [show i ≤ t.length by omega, show i + 1 ≤ t.length by omega]
    · have e1 : t[i]? = none := List.getElem?_eq_none (by omega)
      have : chooseNextFrom n k t (i + 1) = none := by rw [chooseNextFrom, e1]
      rw [this]
      simp [show ¬ (i + 1 ≤ t.length) by omega]

theorem chooseNext_cons (n x : Nat) (t : List Nat) :
    chooseNext n (t.length + 1) (x :: t) =
      match chooseNext n t.length t with
      | some t' => some (x :: t')
      | none => if x < n - (t.length + 1) then some (iota (x + 1) (t.length + 1)) else none := by
  unfold chooseNext
  rw [chooseNextFrom_cons n t.length x t t.length (Nat.le_refl _)]
  split
  · rfl
  · simp [iota]

/-- all increasing `k`-lists with entries in `[lo, lo + m)`, lexicographically -/
def combos : Nat → Nat → Nat → List (List Nat)
  | 0, _, _ => [[]]
  | _ + 1, _, 0 => []
  | k + 1, lo, m + 1 => (combos k (lo + 1) m).map (fun t => lo :: t) ++ combos (k + 1) (lo + 1) m

theorem combos_length (k lo m : Nat) : (combos k lo m).length = m.choose k := by
  induction m generalizing k lo with
  | zero => cases k <;> simp [combos]
  | succ m ih => cases k with
    | zero => simp [combos]
    | succ k => simp [combos, ih, Nat.choose_succ_succ]

/-- strictly increasing with all entries in `[lo, hi)` -/
def IncFrom : Nat → Nat → List Nat → Prop
  | _, _, [] => True
  | lo, hi, x :: t => lo ≤ x ∧ x < hi ∧ IncFrom (x + 1) hi t

theorem IncFrom.mono {lo lo' hi : Nat} (h : lo' ≤ lo) {t : List Nat} (ht : IncFrom lo hi t) :
    IncFrom lo' hi t := by
  cases t with
  | nil => trivial
  | cons x t => exact ⟨by have := ht.1; omega, ht.2⟩

theorem mem_combos (k lo m : Nat) (c : List Nat) :
    c ∈ combos k lo m ↔ c.length = k ∧ IncFrom lo (lo + m) c := by
  induction m generalizing k lo c with
  | zero =>
    cases k with
    | zero => cases c <;> simp [combos, IncFrom]
    | succ k =>
      cases c with
      | nil => simp [combos]
      | cons x t => simp only [combos, IncFrom]; simp; omega
  | succ m ih =>
    cases k with
    | zero => cases c <;> simp [combos, IncFrom]
    | succ k =>
      simp only [combos, List.mem_append, List.mem_map, ih]
      constructor
      · rintro (⟨t, ⟨hl, ht⟩, rfl⟩ | ⟨hl, h⟩)
        · refine ⟨by simp [hl], Nat.le_refl _, by omega, ?_⟩
          rw [show lo + (m + 1) = lo + 1 + m by omega]; exact ht
        · refine ⟨hl, ?_⟩
          rw [show lo + (m + 1) = lo + 1 + m by omega]
          exact h.mono (by omega)
      · rintro ⟨hl, h⟩
        cases c with
        | nil => simp at hl
        | cons x t =>
          rw [show lo + (m + 1) = lo + 1 + m by omega] at h
          by_cases hx : x = lo
          · left; subst hx; exact ⟨t, ⟨by simpa using hl, h.2.2⟩, rfl⟩
          · right; exact ⟨hl, by have := h.1; omega, h.2⟩

/-- head of lexicographic order on lists of equal length -/
def LexLt : List Nat → List Nat → Prop
  | x :: s, y :: t => x < y ∨ (x = y ∧ LexLt s t)
  | _, _ => False

theorem combos_lex (k lo m : Nat) : (combos k lo m).Pairwise LexLt := by
  induction m generalizing k lo with
  | zero => cases k <;> simp [combos]
  | succ m ih =>
    cases k with
    | zero => simp [combos]
    | succ k =>
      simp only [combos, List.pairwise_append, List.pairwise_map]
      refine ⟨(ih k (lo + 1)).imp (fun h => Or.inr ⟨rfl, h⟩), ih (k + 1) (lo + 1), ?_⟩
      intro a ha b hb
      obtain ⟨t, _, rfl⟩ := List.mem_map.1 ha
      have := (mem_combos _ _ _ _).1 hb
      cases b with
      | nil => simp at this
      | cons y u => exact Or.inl (by have := this.2.1; omega)

theorem LexLt.irrefl (c : List Nat) : ¬ LexLt c c := by
  induction c with
  | nil => simp [LexLt]
  | cons x c ih => simp [LexLt, ih]

/-- `L` is the chain of successive `next` results from its head, the last having no successor -/
def IsChain (n k : Nat) : List (List Nat) → Prop
  | [] => False
  | [c] => chooseNext n k c = none
  | c :: d :: L => chooseNext n k c = some d ∧ IsChain n k (d :: L)

theorem chooseLoop_chain (n k : Nat) (L : List (List Nat)) (c : List Nat) (fuel : Nat)
    (h : IsChain n k (c :: L)) (hf : L.length ≤ fuel) :
    chooseLoop n k fuel c = some (c :: L) := by
  induction L generalizing c fuel with
  | nil => unfold chooseLoop; simp only [IsChain] at h; rw [h]
  | cons d L ih =>
    cases fuel with
    | zero => simp at hf
    | succ fuel =>
      unfold chooseLoop
      rw [h.1]
      simp only
      rw [ih d fuel h.2 (by simpa using hf)]; rfl

theorem chain_map_append (n k lo : Nat) (L M : List (List Nat)) (d : List Nat)
    (hlen : ∀ c ∈ L, c.length = k) (hL : IsChain n k L)
    (hlast : ∀ c, c.length = k → chooseNext n k c = none → chooseNext n (k + 1) (lo :: c) = some d)
    (hM : IsChain n (k + 1) (d :: M)) :
    IsChain n (k + 1) (L.map (fun t => lo :: t) ++ d :: M) := by
  induction L with
  | nil => exact absurd hL (by simp [IsChain])
  | cons c L ih =>
    cases L with
    | nil =>
      simp only [IsChain] at hL
      exact ⟨hlast c (hlen c (by simp)) hL, hM⟩
    | cons e L =>
      refine ⟨?_, ?_⟩
      · have hc : c.length = k := hlen c (by simp)
        subst hc
        rw [chooseNext_cons, hL.1]
      · exact ih (fun c hc => hlen c (by simp [hc])) hL.2

theorem chain_map (n k lo : Nat) (L : List (List Nat))
    (hlen : ∀ c ∈ L, c.length = k) (hL : IsChain n k L)
    (hlast : ∀ c, c.length = k → chooseNext n k c = none → chooseNext n (k + 1) (lo :: c) = none) :
    IsChain n (k + 1) (L.map (fun t => lo :: t)) := by
  induction L with
  | nil => exact absurd hL (by simp [IsChain])
  | cons c L ih =>
    cases L with
    | nil =>
      simp only [IsChain] at hL
      exact hlast c (hlen c (by simp)) hL
    | cons e L =>
      refine ⟨?_, ?_⟩
      · have hc : c.length = k := hlen c (by simp)
        subst hc
        rw [chooseNext_cons, hL.1]
      · exact ih (fun c hc => hlen c (by simp [hc])) hL.2

theorem combos_head (k lo m : Nat) (h : k ≤ m) : ∃ L, combos k lo m = iota lo k :: L := by
  induction k generalizing lo m with
  | zero => exact ⟨[], by simp [combos, iota]⟩
  | succ k ih =>
    cases m with
    | zero => omega
    | succ m =>
      obtain ⟨L, hL⟩ := ih (lo + 1) m (by omega)
      exact ⟨_, by simp only [combos, hL, List.map_cons, List.cons_append, iota]; rfl⟩

theorem combos_chain (n k lo m : Nat) (hn : lo + m = n) (h : k ≤ m) :
    IsChain n k (combos k lo m) := by
  induction m generalizing k lo with
  | zero =>
    obtain rfl : k = 0 := by omega
    simp [combos, IsChain, chooseNext, chooseNextFrom]
  | succ m ih =>
    cases k with
    | zero => simp [combos, IsChain, chooseNext, chooseNextFrom]
    | succ k =>
      have h1 := ih k (lo + 1) (by omega) (by omega)
      have hlen : ∀ c ∈ combos k (lo + 1) m, c.length = k := fun c hc => ((mem_combos _ _ _ _).1 hc).1
      by_cases hk : k + 1 ≤ m
      · obtain ⟨L, hL⟩ := combos_head (k + 1) (lo + 1) m hk
        simp only [combos]
        rw [hL]
        apply chain_map_append n k lo _ _ _ hlen h1
        · intro c hc hnone
          subst hc
          rw [chooseNext_cons, hnone]
          simp only
          rw [if_pos (by omega)]
        · rw [← hL]; exact ih (k + 1) (lo + 1) (by omega) hk
      · have hkm : k = m := by omega
        have : combos (k + 1) (lo + 1) m = [] := by
          apply List.eq_nil_of_length_eq_zero
          rw [combos_length]; exact Nat.choose_eq_zero_of_lt (by omega)
        simp only [combos, this, List.append_nil]
        apply chain_map n k lo _ hlen h1
        intro c hc hnone
        subst hc
        rw [chooseNext_cons, hnone]
        simp only
        rw [if_neg (by omega)]

end Tandem.Combinatorics
