import Verif.Spec.Main
import Mathlib.Tactic.Common
import Mathlib.Data.List.Induction
namespace Tandem.Main
open Tandem.Schema Tandem.Spec

theorem splitLast_spec : ∀ (p : List Char), p = (splitLast p).1 ++ (splitLast p).2 ∧
    '/' ∉ (splitLast p).2 ∧ ((splitLast p).1 = [] ∨ ∃ d, (splitLast p).1 = d ++ ['/'])
  | [] => by simp [splitLast]
  | c :: r => by
    obtain ⟨h1, h2, h3⟩ := splitLast_spec r
    rw [splitLast]
    by_cases hc : c = '/'
    · rw [if_pos hc]
      refine ⟨by simp [← h1], h2, Or.inr ?_⟩
      rcases h3 with h3 | ⟨d, h3⟩
      · exact ⟨[], by simp [h3, hc]⟩
      · exact ⟨c :: d, by simp [h3]⟩
    · rw [if_neg hc]
      by_cases he : (splitLast r).1 = []
      · rw [if_pos he]
        rw [he] at h1
        refine ⟨by simpa using h1, ?_, Or.inl rfl⟩
        simp only [List.mem_cons, not_or]
        exact ⟨fun h => hc h.symm, h2⟩
      · rw [if_neg he]
        refine ⟨by simp [← h1], h2, Or.inr ?_⟩
        rcases h3 with h3 | ⟨d, h3⟩
        · exact absurd h3 he
        · exact ⟨c :: d, by simp [h3]⟩

theorem splitLast_unique {d f p : List Char} (h1 : p = d ++ f) (h2 : '/' ∉ f)
    (h3 : d = [] ∨ ∃ d', d = d' ++ ['/']) : splitLast p = (d, f) := by
  subst h1
  induction d with
  | nil =>
    clear h3
    rw [List.nil_append]
    induction f with
    | nil => rfl
    | cons c f ih =>
      simp only [List.mem_cons, not_or] at h2
      rw [splitLast, ih h2.2, if_neg (fun h => h2.1 h.symm), if_pos rfl]
  | cons c d ih =>
    rw [List.cons_append, splitLast]
    by_cases hd : d = []
    · subst hd
      rcases h3 with h3 | ⟨d', h3⟩
      · cases h3
      · have hc : c = '/' := by
          cases d' with
          | nil => simpa using h3
          | cons x d' => simp at h3
        rw [ih (Or.inl rfl), if_pos hc]
    · have h3' : d = [] ∨ ∃ d', d = d' ++ ['/'] := by
        rcases h3 with h3 | ⟨d', h3⟩
        · cases h3
        · cases d' with
          | nil => simp at h3; exact absurd h3.2 hd
          | cons x d' => simp at h3; exact Or.inr ⟨d', h3.2⟩
      rw [ih h3']
      by_cases hc : c = '/'
      · rw [if_pos hc]
      · rw [if_neg hc, if_neg hd]

theorem names_nil : names [] = [] := rfl

theorem names_append_slash (a b : List Char) : names (a ++ '/' :: b) = names a ++ names b := by
  unfold names
  rw [List.splitOn_append_cons_of_beq a b (by decide), List.filter_append]

theorem names_slash (b : List Char) : names ('/' :: b) = names b := by
  have := names_append_slash [] b
  simpa [names_nil] using this

theorem names_append_one (a : List Char) : names (a ++ ['/']) = names a := by
  rw [names_append_slash, names_nil, List.append_nil]

theorem names_file {f : List Char} (h : '/' ∉ f) (hf : f ≠ []) : names f = [f] := by
  unfold names
  rw [List.splitOn_eq_singleton h]
  simp [hf]

theorem strip_slash (l : List Char) : stripSlashes (l ++ ['/']) = stripSlashes l := by
  simp [stripSlashes]

theorem strip_other (l : List Char) {c : Char} (hc : c ≠ '/') :
    stripSlashes (l ++ [c]) = l ++ [c] := by
  simp [stripSlashes, hc]

theorem names_strip (l : List Char) : names (stripSlashes l) = names l := by
  induction l using List.reverseRecOn with
  | nil => rfl
  | append_singleton l c ih =>
    by_cases hc : c = '/'
    · subst hc; rw [strip_slash, ih, names_append_one]
    · rw [strip_other l hc]

/-- Stripping removes slashes only, and the result does not end with one. -/
theorem strip_spec (l : List Char) : (∃ n, l = stripSlashes l ++ List.replicate n '/') ∧
    (stripSlashes l).getLast? ≠ some '/' := by
  induction l using List.reverseRecOn with
  | nil => exact ⟨⟨0, rfl⟩, by simp [stripSlashes]⟩
  | append_singleton l c ih =>
    by_cases hc : c = '/'
    · subst hc
      rw [strip_slash]
      obtain ⟨⟨n, hn⟩, h2⟩ := ih
      refine ⟨⟨n + 1, ?_⟩, h2⟩
      rw [List.replicate_succ', ← List.append_assoc, ← hn]
    · rw [strip_other l hc]
      exact ⟨⟨0, by simp⟩, by simpa using hc⟩

theorem parent_nil_iff (p : List Char) : parentPath p = [] ↔ '/' ∉ p := by
  obtain ⟨h1, h2, h3⟩ := splitLast_spec p
  unfold parentPath
  by_cases hd : (splitLast p).1 = []
  · rw [if_pos hd]
    rw [hd] at h1
    simp only [true_iff]
    rw [h1]; simpa using h2
  · rw [if_neg hd]
    have : '/' ∈ p := by
      rcases h3 with h3 | ⟨d, h3⟩
      · exact absurd h3 hd
      · rw [h1, h3]; simp
    by_cases hs : stripSlashes (splitLast p).1 = []
    · rw [if_pos hs]; simp [this]
    · rw [if_neg hs]; simp [this, hs]

theorem parent_spec (p : List Char) : names (parentPath p) = names (splitLast p).1 ∧
    (isRelative (parentPath p) = isRelative p ∨ parentPath p = []) ∧
    (parentPath p = [] → isRelative p = true) ∧
    (parentPath p = ['/'] ∨ (parentPath p).getLast? ≠ some '/') := by
  obtain ⟨h1, h2, h3⟩ := splitLast_spec p
  unfold parentPath
  by_cases hd : (splitLast p).1 = []
  · rw [if_pos hd]
    refine ⟨by rw [hd], Or.inr rfl, fun _ => ?_, by simp⟩
    have hnot : '/' ∉ p := by
      rw [h1, hd, List.nil_append]
      exact h2
    cases p with
    | nil => rfl
    | cons c r =>
      simp only [List.mem_cons, not_or] at hnot
      simp [isRelative, Ne.symm hnot.1]
  · rw [if_neg hd]
    obtain ⟨⟨n, hn⟩, hlast⟩ := strip_spec (splitLast p).1
    by_cases hs : stripSlashes (splitLast p).1 = []
    · rw [if_pos hs]
      rw [hs, List.nil_append] at hn
      refine ⟨?_, Or.inl ?_, fun h => (by cases h), Or.inl rfl⟩
      · rw [← names_strip (splitLast p).1, hs]; rfl
      · cases n with
        | zero => exact absurd hn hd
        | succ n =>
          rw [h1, hn, List.replicate_succ]
          simp [isRelative]
    · rw [if_neg hs]
      refine ⟨names_strip _, Or.inl ?_, fun h => absurd h hs, Or.inr hlast⟩
      generalize hst : stripSlashes (splitLast p).1 = st at hn hs
      cases st with
      | nil => exact absurd rfl hs
      | cons c st =>
        have : p = c :: (st ++ List.replicate n '/' ++ (splitLast p).2) := by
          rw [hn] at h1
          simpa using h1
        rw [this]
        simp [isRelative]

theorem names_last (p : List Char) (hf : (splitLast p).2 ≠ []) :
    names p = names (splitLast p).1 ++ [(splitLast p).2] := by
  obtain ⟨h1, h2, h3⟩ := splitLast_spec p
  rcases h3 with h3 | ⟨d, h3⟩
  · rw [h3, names_nil, List.nil_append]
    rw [h3, List.nil_append] at h1
    rw [← names_file h2 hf, ← h1]
  · rw [h3, names_append_one]
    conv_lhs => rw [h1, h3]
    rw [List.append_assoc, List.singleton_append, names_append_slash, names_file h2 hf]

theorem isRelative_iff (p : List Char) : isRelative p = true ↔ p.head? ≠ some '/' := by
  simp [isRelative]

theorem names_append {a b : List Char} (hb : isRelative b = true) (ha : a = [] ∨ a = ['/'] ∨
    a.getLast? ≠ some '/') : names (append a b) = names a ++ names b := by
  unfold append
  rw [if_neg (by simp [hb])]
  rcases ha with rfl | rfl | ha
  · simp [names_nil]
  · rw [if_pos (by decide)]
    show names ('/' :: b) = _
    rw [names_slash]; rfl
  · by_cases h0 : a = []
    · subst h0; simp [names_nil]
    · rw [if_neg (by simp [h0, ha]), names_append_slash]

theorem append_relative {a b : List Char} (hb : isRelative b = true) :
    isRelative (append a b) = isRelative a := by
  unfold append
  rw [if_neg (by simp [hb])]
  cases a with
  | nil => rw [if_pos (Or.inl rfl), List.nil_append, hb]; rfl
  | cons c a =>
    split <;> simp [isRelative]

end Tandem.Main
