import Verif.Lemmas.GMSHParser
import Verif.Props.GMSHLexer
/-! # Property C35: the GMSH parser -/
namespace Tandem.GMSHParser
open Tandem.GMSHLexer Tandem.Spec

/-- C35: for the tokens of a well-formed file (supported version; any number of node and element
sections, and other tokens, in any order) the builder receives exactly the vertices and elements in
file order with zero-based numbers and their first tag; no error is logged; the result is `true` iff
there was a node section and an element section. -/
theorem C35_well_formed (supported : Num → Bool) (v : Num) (hv : supported v = true) (d : Tok)
    (items : List MshItem) (hok : ∀ i ∈ items, i.Ok) (fuel : Nat) (hf : items.length < fuel) :
    parse supported fuel (header v d ++ items.flatMap MshItem.toks) =
      some (hasNodes items && hasElements items,
        ⟨[], items.flatMap MshItem.calls, 0⟩) := by
  have hm : parseMeshFormat ⟨header v d ++ items.flatMap MshItem.toks, [], 0⟩ =
      (some v, ⟨items.flatMap MshItem.toks, [], 0⟩) := by
    simp [parseMeshFormat, header, cur, next, getNumber_numTok]
  simp only [parse, hm, hv]
  rw [sections_ok items fuel false false _ hok rfl hf]
  simp

/-- C35 end to end: a text consisting of the printed tokens of a well-formed file, separated by white
space and ended by one white-space character, is lexed and parsed to the same builder calls. -/
theorem C35_text (supported : Num → Bool) (v : Num) (hv : supported v = true) (d : Tok)
    (items : List MshItem) (hok : ∀ i ∈ items, i.Ok)
    (lead : List Char) (hlead : ∀ c ∈ lead, isSpace c = true)
    (ts : List (PTok × List Char)) (hts : ∀ p ∈ ts, p.1.Ok) (hsep : SepOk ts)
    (hmean : ts.map (fun p => p.1.meaning) = header v d ++ items.flatMap MshItem.toks)
    (fuel : Nat) (hf : (lead ++ layout ts).length + 1 < fuel) (hf' : items.length < fuel) :
    ∃ toks, lexAll fuel (ts.length + 1) (start (lead ++ layout ts)) = .toks toks ∧
      parse supported fuel toks = some (hasNodes items && hasElements items,
        ⟨[], items.flatMap MshItem.calls, 0⟩) := by
  refine ⟨_, C34_roundtrip_partial lead hlead ts ?_ hts hsep fuel hf, ?_⟩
  · rintro rfl; simp [header] at hmean
  · rw [hmean]; exact C35_well_formed supported v hv d items hok fuel hf'

/-- C35: on every finite token stream the parser terminates. -/
theorem C35_terminates (supported : Num → Bool) (toks : List Tok) :
    ∃ r, parse supported (toks.length + 1) toks = some r := by
  unfold parse
  simp only
  have hlen : (parseMeshFormat ⟨toks, [], 0⟩).2.toks.length ≤ toks.length := by
    simp only [parseMeshFormat]
    split
    · simp [logError]
    · split
      · simp [logError, next]
      · split
        · simp [logError, next]; omega
        · split
          · simp [logError, next]; omega
          · simp [next]; omega
  split
  · exact ⟨_, rfl⟩
  · rename_i v s hm
    rw [hm] at hlen
    split
    · exact ⟨_, rfl⟩
    · obtain ⟨r, hr⟩ := sections_terminates (toks.length + 1) false false s (by simp at hlen; omega)
      rw [hr]; exact ⟨_, rfl⟩

/-- C35 (header): a file that does not start with a format section of a supported version is rejected
before anything is built. -/
theorem C35_bad_header (supported : Num → Bool) (fuel : Nat) (toks : List Tok)
    (h : ¬ ∃ v d r, supported v = true ∧ toks = header v d ++ r) :
    ∃ s, parse supported fuel toks = some (false, s) ∧ s.calls = [] ∧ 0 < s.errors := by
  unfold parse
  simp only
  split
  · rename_i s hm
    refine ⟨_, rfl, ?_, by simp [logError]⟩
    have := congrArg (fun r => r.2.calls) hm
    simp only [parseMeshFormat] at this
    simp only [logError]
    rw [← this]
    split
    · rfl
    · split
      · rfl
      · split
        · rfl
        · split <;> rfl
  · rename_i v s hm
    by_cases hv : supported v = true
    · exfalso
      apply h
      simp only [parseMeshFormat] at hm
      split at hm
      · simp at hm
      · rename_i h1
        split at hm
        · simp at hm
        · rename_i ver h2
          split at hm
          · simp at hm
          · rename_i h3
            split at hm
            · simp at hm
            · rename_i h4
              simp only [Prod.mk.injEq, Option.some.injEq] at hm
              simp only [cur, next, ne_eq, Decidable.not_not] at h1 h2 h3 h4
              rcases toks with _ | ⟨t0, _ | ⟨t1, _ | ⟨t2, _ | ⟨t3, _ | ⟨t4, r⟩⟩⟩⟩⟩ <;>
                simp at h1 h2 h3 h4
              refine ⟨v, t3, r, hv, ?_⟩
              have : t1 = numTok v := by
                rw [hm.1] at h2
                cases t1 <;> simp [getNumber] at h2 <;> subst h2 <;> rfl
              simp [header, h1, h3, h4, this]
    · refine ⟨logError s, by simp [hv], ?_, by simp [logError]⟩
      have := congrArg (fun r => r.2.calls) hm
      simp only [parseMeshFormat] at this
      simp only [logError]
      rw [← this]
      split
      · rfl
      · split
        · rfl
        · split
          · rfl
          · split <;> rfl

/-- C35 (defect): a malformed node section is not reported: here the second node line is broken, the
vertex is never set, an error is logged, and yet the parse succeeds. -/
theorem C35_malformed_nodes_accepted :
    (parse (fun _ => true) 100
      (header (.int 2) (.integer 8) ++
        [.nodes, .integer 2, .integer 1, .integer 0, .integer 0, .integer 0,
          .integer 7, .integer 1, .integer 0, .integer 0, .endNodes] ++
        (MshItem.elements [⟨1, 1, [1], [1, 2]⟩]).toks)).map
      (fun r => (r.1, r.2.calls, r.2.errors)) =
    some (true, [.setNumVertices 2, .setVertex 0 [.int 0, .int 0, .int 0], .setNumElements 1,
      .addElement 1 1 [0, 1]], 1) := by decide +kernel

/-- C35 (defect): an element without tags silently gets the tag of the element before it. -/
theorem C35_untagged_inherits :
    (parse (fun _ => true) 100
      (header (.int 2) (.integer 8) ++ (MshItem.nodes []).toks ++
        (MshItem.elements [⟨1, 15, [5], [1]⟩, ⟨2, 15, [], [1]⟩]).toks)).map
      (fun r => (r.1, r.2.calls, r.2.errors)) =
    some (true, [.setNumVertices 0, .setNumElements 2, .addElement 15 5 [0],
      .addElement 15 5 [0]], 0) := by decide +kernel

/-- C35 (defect): node numbers of elements are not checked against the number of vertices. -/
theorem C35_node_out_of_range :
    (parse (fun _ => true) 100
      (header (.int 2) (.integer 8) ++
        (MshItem.nodes [⟨1, .int 0, .int 0, .int 0⟩]).toks ++
        (MshItem.elements [⟨1, 1, [5], [1, 99]⟩]).toks)).map
      (fun r => (r.1, r.2.calls.getLast?, r.2.errors)) =
    some (true, some (.addElement 1 5 [0, 98]), 0) := by decide +kernel

/-- Non-vacuity: a file with one unknown section, a node section and an element section. -/
example : (∀ i ∈ [MshItem.other .unknownSection, .other (.integer 3),
      .nodes [⟨2, .int 0, .real "0.5".toList, .int 1⟩, ⟨1, .int 0, .int 0, .int 0⟩],
      .elements [⟨1, 1, [5, 6], [1, 2]⟩]], i.Ok) := by
  intro i hi
  simp at hi
  rcases hi with rfl | rfl | rfl | rfl
  · exact ⟨by decide, by decide, by decide⟩
  · exact ⟨by decide, by decide, by decide⟩
  · intro n hn; simp at hn; rcases hn with rfl | rfl <;> simp
  · intro e he; simp at he; subst he
    exact ⟨by decide, by decide, rfl, by decide, by decide⟩

/-- C35 (node counts): the number of nodes the reader expects for the complete (Lagrange) elements of
each shape and degree is the dimension of the corresponding polynomial space.  Lists are indexed by
degree, starting from 1, and contain the element type numbers of the MSH format. -/
theorem C35_node_counts :
    (∀ q ∈ [1, 8, 26, 27, 28, 62, 63, 64, 65, 66].zipIdx 1,
      numNodes[q.1 - 1]? = some (q.2 + 1)) ∧
    (∀ q ∈ [2, 9, 21, 23, 25, 42, 43, 44, 45, 46].zipIdx 1,
      numNodes[q.1 - 1]? = some ((q.2 + 1) * (q.2 + 2) / 2)) ∧
    (∀ q ∈ [3, 10, 36, 37, 38, 47, 48, 49, 50, 51].zipIdx 1,
      numNodes[q.1 - 1]? = some ((q.2 + 1) ^ 2)) ∧
    (∀ q ∈ [4, 11, 29, 30, 31, 71, 72, 73, 74, 75].zipIdx 1,
      numNodes[q.1 - 1]? = some ((q.2 + 1) * (q.2 + 2) * (q.2 + 3) / 6)) ∧
    (∀ q ∈ [5, 12].zipIdx 1, numNodes[q.1 - 1]? = some ((q.2 + 1) ^ 3)) ∧
    (∀ q ∈ [6, 13].zipIdx 1, numNodes[q.1 - 1]? = some ((q.2 + 1) ^ 2 * (q.2 + 2) / 2)) ∧
    (∀ q ∈ [7, 14].zipIdx 1,
      numNodes[q.1 - 1]? = some ((q.2 + 1) * (q.2 + 2) * (2 * q.2 + 3) / 6)) ∧
    numNodes[15 - 1]? = some 1 := by decide +kernel

/-- C35 (defect): the MSH format numbers the third-order hexahedron with 64 nodes 92 and the
fourth-order one with 125 nodes 93; the table lists other counts for these types (from type 76 on the
entries of the table are three places too early; src/io/MeshParser.h lines 110-163). -/
theorem C35_hexahedron_counts_wrong :
    numNodes[92 - 1]? = some 343 ∧ numNodes[93 - 1]? = some 512 := by decide +kernel

end Tandem.GMSHParser
