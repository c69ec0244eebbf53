import Verif.Model.TablePrinter
import Mathlib.Data.List.Basic
import Mathlib.Tactic.Linarith
/-! # The lines of a table (C105) -/
namespace Tandem.TablePrinter

/-- A line of a table: the items in columns of these widths. -/
def Spec.line (ws : List Nat) (items : List String) : List Tok := List.zipWith Tok.cell ws items ++ [.newline]

theorem columns_tail : ∀ (l : List String) (a : List (Nat × String)), ∃ c, l.foldl (fun cols s =>
      cols ++ [(max (cols.getLastD (0, "")).1 (1 + s.length), s)]) a = a ++ c ∧ c.map (·.2) = l ∧ ∀ x ∈ c, x.2.length < x.1
  | [], a => ⟨[], by simp⟩
  | s :: l, a => by
    obtain ⟨c, h1, h2, h3⟩ := columns_tail l (a ++ [(max (a.getLastD (0, "")).1 (1 + s.length), s)])
    refine ⟨(max (a.getLastD (0, "")).1 (1 + s.length), s) :: c, ?_, by simp [h2], ?_⟩
    · rw [List.foldl_cons, h1, List.append_assoc]; rfl
    · intro x hx
      rcases List.mem_cons.1 hx with rfl | hx
      · show s.length < max _ (1 + s.length)
        omega
      · exact h3 x hx

/-- **C105 (header)**: the table has as many columns as there are widths or titles, whichever is more; the first line has the titles, and the number of
the column where there is none; each column is wider than its title. -/
theorem C105_header (widths : List Nat) (names : List String) : ∃ ws titles, (start widths names).1 = ws ∧
    (start widths names).2 = Spec.line ws titles ++ [.rule ws.sum] ∧ ws.length = max widths.length names.length ∧ titles.length = ws.length ∧
    (∀ (c : Nat) (s : String), names[c]? = some s → titles[c]? = some s ∧ ∃ w, ws[c]? = some w ∧ s.length < w) ∧
    ∀ c : Nat, names.length ≤ c → c < widths.length → titles[c]? = some (toString c) := by
  obtain ⟨c, h1, h2, h3⟩ := columns_tail (names.drop widths.length) (widths.zipIdx.map (column names))
  have hcols : columns widths names = widths.zipIdx.map (column names) ++ c := h1
  have hc : c.length = names.length - widths.length := by rw [← List.length_map (f := (·.2)), h2, List.length_drop]
  have hlen : (columns widths names).length = max widths.length names.length := by
    rw [hcols, List.length_append, List.length_map, List.length_zipIdx, hc]; omega
  have hget : ∀ i, i < widths.length → (columns widths names)[i]? = some (column names (widths.getD i 0, i)) := by
    intro i hi
    rw [hcols, List.getElem?_append_left (by simpa using hi), List.getElem?_map, List.getElem?_zipIdx, List.getElem?_eq_getElem hi]
    simp [List.getD_eq_getElem?_getD, List.getElem?_eq_getElem hi]
  refine ⟨(columns widths names).map (·.1), (columns widths names).map (·.2), rfl, ?_, by rw [List.length_map, hlen], by simp, ?_, ?_⟩
  · unfold start separator Spec.line
    simp only [List.zipWith_map, List.zipWith_self, List.append_assoc, List.cons_append, List.nil_append]
  · intro i s hs
    by_cases hi : i < widths.length
    · rw [List.getElem?_map, List.getElem?_map, hget i hi]
      unfold column
      simp only [hs, Option.map_some]
      exact ⟨trivial, _, rfl, by omega⟩
    · have hx : (columns widths names)[i]? = c[i - widths.length]? := by
        rw [hcols, List.getElem?_append_right (by simpa using hi)]
        simp
      have hs' : (c[i - widths.length]?).map (·.2) = some s := by
        rw [← List.getElem?_map, h2, List.getElem?_drop, show widths.length + (i - widths.length) = i by omega, hs]
      rw [List.getElem?_map, List.getElem?_map, hx]
      refine ⟨hs', ?_⟩
      cases hci : c[i - widths.length]? with
      | none => rw [hci] at hs'; simp at hs'
      | some x =>
        rw [hci] at hs'
        obtain rfl : x.2 = s := Option.some.inj hs'
        exact ⟨x.1, rfl, h3 x (List.mem_of_getElem? hci)⟩
  · intro i hn hi
    rw [List.getElem?_map, hget i hi]
    unfold column
    simp [List.getElem?_eq_none hn]

theorem putAll_append (ws : List Nat) : ∀ (a b : List String) (col : Nat), putAll ws col (a ++ b) =
    ((putAll ws (putAll ws col a).1 b).1, (putAll ws col a).2 ++ (putAll ws (putAll ws col a).1 b).2)
  | [], b, col => rfl
  | s :: a, b, col => by
    simp only [List.cons_append, putAll, putAll_append ws a b, List.append_assoc]

theorem putAll_rest (ws : List Nat) : ∀ (row : List String) (col : Nat), row ≠ [] → col + row.length = ws.length →
    putAll ws col row = (0, List.zipWith Tok.cell (ws.drop col) row ++ [.newline])
  | [], _, h, _ => absurd rfl h
  | [s], col, _, h => by
    have hl : col < ws.length := by simp at h; omega
    have h' : ws.length ≤ col + 1 := by simp at h; omega
    simp only [putAll, put, h', if_true, List.drop_eq_getElem_cons hl, List.zipWith_cons_cons, List.zipWith_nil_right, List.getD_eq_getElem?_getD,
      List.getElem?_eq_getElem hl, Option.getD_some, List.append_nil, List.cons_append, List.nil_append]
  | s :: t :: row, col, _, h => by
    have hl : col < ws.length := by simp at h; omega
    have h' : ¬ ws.length ≤ col + 1 := by simp at h; omega
    have ih := putAll_rest ws (t :: row) (col + 1) (by simp) (by simp at h ⊢; omega)
    rw [putAll]
    unfold put
    rw [List.drop_eq_getElem_cons hl]
    simp only [h', if_false, ih, List.zipWith_cons_cons, List.cons_append, List.nil_append, List.getD_eq_getElem?_getD,
      List.getElem?_eq_getElem hl, Option.getD_some]

/-- **C105 (lines)**: items that are written row by row give one line for each row, each item in its column. -/
theorem C105_lines (ws : List Nat) (hws : ws ≠ []) (rows : List (List String)) (h : ∀ row ∈ rows, row.length = ws.length) :
    putAll ws 0 rows.flatten = (0, rows.flatMap (Spec.line ws)) := by
  induction rows with
  | nil => rfl
  | cons row rows ih =>
    have hr := h row (by simp)
    have hrow : row ≠ [] := by
      rintro rfl
      exact hws (List.length_eq_zero_iff.1 hr.symm)
    rw [List.flatten_cons, putAll_append, putAll_rest ws row 0 hrow (by omega), ih fun x hx => h x (by simp [hx])]
    rfl

/-- **C105 (text of the table)**: the table of a profile is a line with the seven titles, a rule, a line for each region, a rule, a
line for the total and a rule, all with the same seven columns, which are wider than the titles; the first is wider than the name of each region. -/
theorem C105_text (regions : List String) (rows : List (List String)) (total : List String) (hr : ∀ row ∈ rows, row.length = 7)
    (ht : total.length = 7) : ∃ ws : List Nat, ws.length = 7 ∧
    profileTable regions rows total = Spec.line ws ["Region", "t_min", "t_median", "t_mean", "t_max", "TFLOP", "GFLOP/s"] ++ [.rule ws.sum] ++
      rows.flatMap (Spec.line ws) ++ [.rule ws.sum] ++ Spec.line ws total ++ [.rule ws.sum] ∧
    (∃ w, ws[0]? = some w ∧ ∀ s ∈ regions, s.length < w) ∧ ∀ w ∈ ws, 6 < w := by
  have hmax : ∀ (l : List Nat) (a : Nat), a ≤ l.foldl max a ∧ ∀ x ∈ l, x ≤ l.foldl max a := by
    intro l
    induction l with
    | nil => intro a; simp
    | cons y l ih =>
      intro a
      obtain ⟨h1, h2⟩ := ih (max a y)
      refine ⟨by rw [List.foldl_cons]; omega, fun x hx => ?_⟩
      rw [List.foldl_cons]
      rcases List.mem_cons.1 hx with rfl | hx
      · omega
      · exact h2 x hx
  set w1 := 1 + (regions.map String.length).foldl max 0 with hw1
  have hst : start [w1, 10] ["Region", "t_min", "t_median", "t_mean", "t_max", "TFLOP", "GFLOP/s"] =
      ([max w1 7, 10, 10, 10, 10, 10, 10], Spec.line [max w1 7, 10, 10, 10, 10, 10, 10] ["Region", "t_min", "t_median", "t_mean", "t_max", "TFLOP", "GFLOP/s"] ++
        [.rule [max w1 7, 10, 10, 10, 10, 10, 10].sum]) := rfl
  refine ⟨[max w1 7, 10, 10, 10, 10, 10, 10], rfl, ?_, ⟨_, rfl, fun s hs => ?_⟩, ?_⟩
  · unfold profileTable
    rw [← hw1]
    simp only [hst]
    rw [C105_lines _ (by simp) rows (by simpa using hr)]
    have := C105_lines [max w1 7, 10, 10, 10, 10, 10, 10] (by simp) [total] (by simpa using ht)
    simp only [List.flatten_cons, List.flatten_nil, List.append_nil, List.flatMap_cons, List.flatMap_nil] at this
    simp only [this, separator]
  · have := (hmax (regions.map String.length) 0).2 s.length (List.mem_map.2 ⟨s, hs, rfl⟩)
    omega
  · intro w hw
    simp only [List.mem_cons, List.not_mem_nil, or_false] at hw
    omega

/-- A table with two widths and three titles, and one with fewer titles than widths. -/
example : (start [3, 4] ["a", "bc", "defghi"]).1 = [3, 4, 7] ∧ (start [3, 4] ["a"]).1 = [3, 4] := by decide

example : putAll [3, 4] 0 ["1", "2", "3", "4"] = (0, [.cell 3 "1", .cell 4 "2", .newline, .cell 3 "3", .cell 4 "4", .newline]) := by decide

end Tandem.TablePrinter
