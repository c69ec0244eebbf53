import Verif.Spec.GMSHParser
namespace Tandem.GMSHParser
open Tandem.GMSHLexer Tandem.Spec

/-- `s'` results from `s` by consuming tokens and making builder calls `cs` without errors. -/
def Adv (s s' : St) (cs : List Call) (rest : List Tok) : Prop :=
  s'.toks.tail = rest ∧ s'.calls = s.calls ++ cs ∧ s'.errors = s.errors

theorem getNumber_numTok (n : Num) : getNumber (numTok n) = some n := by cases n <;> rfl

theorem coords_ok : ∀ (xs : List Num) (s : St) (rest : List Tok),
    s.toks.tail = xs.map numTok ++ rest →
    ∃ s', coords xs.length s = (some xs, s') ∧ Adv s s' [] rest := by
  intro xs
  induction xs with
  | nil => intro s rest h; exact ⟨s, rfl, by simpa using h, by simp, rfl⟩
  | cons x xs ih =>
    intro s rest h
    obtain ⟨s', h1, h2, h3, h4⟩ := ih (next s) rest (by simp [next, h])
    refine ⟨s', ?_, h2, by simpa [next] using h3, by simpa [next] using h4⟩
    have hc : cur (next s) = numTok x := by simp [cur, next, h]
    simp only [List.length_cons, coords, hc, getNumber_numTok, h1]

theorem nodeLoop_ok (N : Nat) : ∀ (l : List MshNode) (s : St) (rest : List Tok),
    (∀ n ∈ l, 1 ≤ n.id ∧ n.id ≤ N) → s.toks.tail = l.flatMap MshNode.toks ++ rest →
    ∃ s', nodeLoop N l.length s = (true, s') ∧
      Adv s s' (l.map (fun n => .setVertex (n.id - 1) [n.x, n.y, n.z])) rest := by
  intro l
  induction l with
  | nil => intro s rest _ h; exact ⟨s, rfl, by simpa using h, by simp, rfl⟩
  | cons n l ih =>
    intro s rest hok h
    have hn := hok n (by simp)
    have hc : cur (next s) = .integer n.id := by simp [cur, next, h, MshNode.toks]
    have hr : ¬ (n.id < 1 ∨ n.id > (N : Int)) := by omega
    obtain ⟨s1, h1, h2, h3, h4⟩ := coords_ok [n.x, n.y, n.z] (next s)
      (l.flatMap MshNode.toks ++ rest) (by simp [next, h, MshNode.toks])
    obtain ⟨s', h5, h6, h7, h8⟩ := ih (call s1 (.setVertex (n.id - 1) [n.x, n.y, n.z])) rest
      (fun m hm => hok m (by simp [hm])) (by simpa [call] using h2)
    refine ⟨s', ?_, h6, ?_, ?_⟩
    · simp only [List.length_cons, nodeLoop, hc, if_neg hr]
      rw [show (3 : Nat) = [n.x, n.y, n.z].length from rfl, h1]
      exact h5
    · rw [h7]; simp [call, h3, next]
    · rw [h8]; simp [call, h4, next]

theorem parseNodes_ok (l : List MshNode) (hok : ∀ n ∈ l, 1 ≤ n.id ∧ n.id ≤ l.length) (s : St)
    (rest : List Tok) (h : s.toks = (MshItem.nodes l).toks ++ rest) :
    parseNodes s = (true, ⟨rest, s.calls ++ (MshItem.nodes l).calls, s.errors⟩) := by
  have hc : cur (next s) = .integer l.length := by simp [cur, next, h, MshItem.toks]
  obtain ⟨s1, h1, h2, h3, h4⟩ := nodeLoop_ok l.length l (call (next s) (.setNumVertices l.length))
    ([.endNodes] ++ rest) hok (by simp [call, next, h, MshItem.toks])
  have hc1 : cur (next s1) = .endNodes := by simp [cur, next, h2]
  have hneg : ¬ ((l.length : Int) < 0) := by omega
  simp only [parseNodes, hc, if_neg hneg, Int.toNat_natCast, h1, hc1, ne_eq, not_true_eq_false,
    if_false]
  simp [next, h2, h3, h4, call, MshItem.calls]

theorem tagLoop_ok : ∀ (tags : List Int) (i : Nat) (tag : Int) (s : St) (rest : List Tok),
    s.toks.tail = tags.map Tok.integer ++ rest →
    ∃ s', tagLoop tags.length i tag s = (some (if i = 0 then tags.headD tag else tag), s') ∧
      Adv s s' [] rest := by
  intro tags
  induction tags with
  | nil => intro i tag s rest h; exact ⟨s, by simp [tagLoop], by simpa using h, by simp, rfl⟩
  | cons v tags ih =>
    intro i tag s rest h
    have hc : cur (next s) = .integer v := by simp [cur, next, h]
    obtain ⟨s', h1, h2, h3, h4⟩ := ih (i + 1) (if i = 0 then v else tag) (next s) rest
      (by simp [next, h])
    refine ⟨s', ?_, h2, by simpa [next] using h3, by simpa [next] using h4⟩
    simp only [List.length_cons, tagLoop, hc, h1, List.headD_cons]
    simp

theorem elemNodes_ok : ∀ (ns : List Int) (s : St) (rest : List Tok), (∀ v ∈ ns, 1 ≤ v) →
    s.toks.tail = ns.map Tok.integer ++ rest →
    ∃ s', elemNodes ns.length s = (some (ns.map (· - 1)), s') ∧ Adv s s' [] rest := by
  intro ns
  induction ns with
  | nil => intro s rest _ h; exact ⟨s, rfl, by simpa using h, by simp, rfl⟩
  | cons v ns ih =>
    intro s rest hv h
    have hc : cur (next s) = .integer v := by simp [cur, next, h]
    have : ¬ v < 1 := by have := hv v (by simp); omega
    obtain ⟨s', h1, h2, h3, h4⟩ := ih (next s) rest (fun w hw => hv w (by simp [hw])) (by simp [next, h])
    refine ⟨s', ?_, h2, by simpa [next] using h3, by simpa [next] using h4⟩
    simp only [List.length_cons, elemNodes, hc, if_neg this, h1, List.map_cons]

theorem elemLoop_ok : ∀ (l : List MshElem) (tag : Int) (s : St) (rest : List Tok),
    (∀ e ∈ l, e.Ok) → s.toks.tail = l.flatMap MshElem.toks ++ rest →
    ∃ s', elemLoop l.length tag s = (true, s') ∧
      Adv s s' (l.map (fun e => .addElement e.type (e.tags.headD 0) (e.nodes.map (· - 1)))) rest := by
  intro l
  induction l with
  | nil => intro tag s rest _ h; exact ⟨s, rfl, by simpa using h, by simp, rfl⟩
  | cons e l ih =>
    intro tag s rest hok h
    obtain ⟨ht1, ht2, hnn, hpos, htag⟩ := hok e (by simp)
    have hc1 : cur (next s) = .integer e.number := by simp [cur, next, h, MshElem.toks]
    have hc2 : cur (next (next s)) = .integer e.type := by simp [cur, next, h, MshElem.toks]
    have hc3 : cur (next (next (next s))) = .integer e.tags.length := by
      simp [cur, next, h, MshElem.toks]
    have hr : ¬ (e.type < 1 ∨ e.type > (numNodes.length : Int)) := by
      have : numNodes.length = 128 := rfl
      omega
    have hneg : ¬ ((e.tags.length : Int) < 0) := by omega
    obtain ⟨s1, h1, h2, h3, h4⟩ := tagLoop_ok e.tags 0 tag (next (next (next s)))
      (e.nodes.map Tok.integer ++ (l.flatMap MshElem.toks ++ rest))
      (by simp [next, h, MshElem.toks])
    obtain ⟨s2, h5, h6, h7, h8⟩ := elemNodes_ok e.nodes s1 (l.flatMap MshElem.toks ++ rest) hpos h2
    have hhead : e.tags.headD tag = e.tags.headD 0 := by
      obtain ⟨a, r, he⟩ := List.exists_cons_of_ne_nil htag
      simp [he]
    obtain ⟨s', h9, h10, h11, h12⟩ := ih (e.tags.headD 0)
      (call s2 (.addElement e.type (e.tags.headD 0) (e.nodes.map (· - 1)))) rest
      (fun e' he' => hok e' (by simp [he'])) (by simpa [call] using h6)
    refine ⟨s', ?_, h10, ?_, ?_⟩
    · simp only [List.length_cons, elemLoop, hc1, hc2, hc3, if_neg hr, if_neg hneg,
        Int.toNat_natCast, h1, if_true, hhead, ← hnn, h5]
      exact h9
    · rw [h11]; simp [call, h7, h3, next]
    · rw [h12]; simp [call, h8, h4, next]

theorem parseElements_ok (l : List MshElem) (hok : ∀ e ∈ l, e.Ok) (s : St)
    (rest : List Tok) (h : s.toks = (MshItem.elements l).toks ++ rest) :
    parseElements s = (true, ⟨rest, s.calls ++ (MshItem.elements l).calls, s.errors⟩) := by
  have hc : cur (next s) = .integer l.length := by simp [cur, next, h, MshItem.toks]
  obtain ⟨s1, h1, h2, h3, h4⟩ := elemLoop_ok l (-1) (call (next s) (.setNumElements l.length))
    ([.endElements] ++ rest) hok (by simp [call, next, h, MshItem.toks])
  have hc1 : cur (next s1) = .endElements := by simp [cur, next, h2]
  have hneg : ¬ ((l.length : Int) < 0) := by omega
  simp only [parseElements, hc, if_neg hneg, Int.toNat_natCast, h1, hc1, ne_eq, not_true_eq_false,
    if_false]
  simp [next, h2, h3, h4, call, MshItem.calls]

theorem sections_ok : ∀ (items : List MshItem) (f : Nat) (hn he : Bool) (s : St),
    (∀ i ∈ items, i.Ok) → s.toks = items.flatMap MshItem.toks → items.length < f →
    sections f hn he s = some (hn || hasNodes items, he || hasElements items,
      { toks := [], calls := s.calls ++ items.flatMap MshItem.calls, errors := s.errors }) := by
  intro items
  induction items with
  | nil =>
    intro f hn he s _ h hf
    obtain ⟨f, rfl⟩ : ∃ g, f = g + 1 := ⟨f - 1, by simp at hf; omega⟩
    obtain ⟨t, c, e⟩ := s
    simp at h; subst h
    simp [sections, cur, hasNodes, hasElements]
  | cons i items ih =>
    intro f hn he s hok h hf
    obtain ⟨f, rfl⟩ : ∃ g, f = g + 1 := ⟨f - 1, by simp at hf; omega⟩
    have hok' : ∀ j ∈ items, j.Ok := fun j hj => hok j (by simp [hj])
    have hi := hok i (by simp)
    have hf' : items.length < f := by simp at hf; omega
    rw [List.flatMap_cons] at h
    cases i with
    | nodes l =>
      have hc : cur s = .nodes := by simp [cur, h, MshItem.toks]
      have hp := parseNodes_ok l hi s _ h
      simp only [sections, hc, hp]
      rw [ih f true he _ hok' rfl hf']
      simp [hasNodes, hasElements]
    | elements l =>
      have hc : cur s = .elements := by simp [cur, h, MshItem.toks]
      have hp := parseElements_ok l hi s _ h
      simp only [sections, hc, hp]
      rw [ih f hn true _ hok' rfl hf']
      simp [hasNodes, hasElements]
    | other t =>
      have hc : cur s = t := by simp [cur, h, MshItem.toks]
      obtain ⟨h1, h2, h3⟩ := hi
      have : sections (f + 1) hn he s = sections f hn he (next s) := by
        rw [sections, hc]
        cases t <;> first | rfl | exact absurd rfl h1 | exact absurd rfl h2 | exact absurd rfl h3
      rw [this, ih f hn he (next s) hok' (by simp [next, h, MshItem.toks]) hf']
      simp [hasNodes, hasElements, next, MshItem.calls]

/-! Termination: every section parser consumes tokens. -/

theorem coords_len : ∀ k s, (coords k s).2.toks.length ≤ s.toks.length := by
  intro k
  induction k with
  | zero => intro s; exact Nat.le_refl _
  | succ k ih =>
    intro s
    have h0 : (next s).toks.length ≤ s.toks.length := by simp [next]
    simp only [coords]
    split
    · simpa [logError] using h0
    · split <;> (rename_i hh; have := ih (next s); rw [hh] at this; exact Nat.le_trans this h0)

theorem nodeLoop_len (N : Nat) : ∀ k s, (nodeLoop N k s).2.toks.length ≤ s.toks.length := by
  intro k
  induction k with
  | zero => intro s; exact Nat.le_refl _
  | succ k ih =>
    intro s
    have h0 : (next s).toks.length ≤ s.toks.length := by simp [next]
    simp only [nodeLoop]
    split
    · split
      · simpa [logError] using h0
      · have hc := coords_len 3 (next s)
        split
        · rename_i hh; rw [hh] at hc; exact Nat.le_trans hc h0
        · rename_i hh; rw [hh] at hc
          refine Nat.le_trans (ih _) ?_
          exact Nat.le_trans hc h0
    · simpa [logError] using h0

theorem parseNodes_len (s : St) : (parseNodes s).2.toks.length ≤ (next s).toks.length := by
  simp only [parseNodes]
  split
  · split
    · simp [logError]
    · rename_i n _ _
      have hc := nodeLoop_len n.toNat n.toNat (call (next s) (.setNumVertices n.toNat))
      split
      · rename_i hh; rw [hh] at hc; exact hc
      · rename_i s2 hh; rw [hh] at hc
        have : (next s2).toks.length ≤ s2.toks.length := by simp [next]
        have h2 : (next (next s2)).toks.length ≤ (next s2).toks.length := by simp [next]
        have h3 : (call (next s) (.setNumVertices n.toNat)).toks = (next s).toks := rfl
        rw [h3] at hc
        simp only at hc
        split
        · simp only [logError]; omega
        · simp only; omega
  · simp [logError]

theorem tagLoop_len : ∀ k i tag s, (tagLoop k i tag s).2.toks.length ≤ s.toks.length := by
  intro k
  induction k with
  | zero => intro i tag s; exact Nat.le_refl _
  | succ k ih =>
    intro i tag s
    have h0 : (next s).toks.length ≤ s.toks.length := by simp [next]
    simp only [tagLoop]
    split
    · exact Nat.le_trans (ih _ _ _) h0
    · simpa [logError] using h0

theorem elemNodes_len : ∀ k s, (elemNodes k s).2.toks.length ≤ s.toks.length := by
  intro k
  induction k with
  | zero => intro s; exact Nat.le_refl _
  | succ k ih =>
    intro s
    have h0 : (next s).toks.length ≤ s.toks.length := by simp [next]
    simp only [elemNodes]
    split
    · split
      · simpa [logError] using h0
      · split <;> (rename_i hh; have := ih (next s); rw [hh] at this; exact Nat.le_trans this h0)
    · simpa [logError] using h0

theorem elemNodes_len' {k s o s'} (h : elemNodes k s = (o, s')) : s'.toks.length ≤ s.toks.length := by
  have := elemNodes_len k s
  rw [h] at this; exact this

theorem elemLoop_len : ∀ k tag s, (elemLoop k tag s).2.toks.length ≤ s.toks.length := by
  intro k
  induction k with
  | zero => intro tag s; exact Nat.le_refl _
  | succ k ih =>
    intro tag s
    have h0 : (next s).toks.length ≤ s.toks.length := by simp [next]
    have h1 : (next (next s)).toks.length ≤ (next s).toks.length := by simp [next]
    have h2 : (next (next (next s))).toks.length ≤ (next (next s)).toks.length := by simp [next]
    simp only [elemLoop]
    split
    · split
      · split
        · simp only [logError]; omega
        · split
          · split
            · simp only [logError]; omega
            · rename_i numTags _ _
              have ht := tagLoop_len numTags.toNat 0 tag (next (next (next s)))
              split
              · rename_i hh; rw [hh] at ht; simp only at ht ⊢; omega
              · rename_i tg s3 hh; rw [hh] at ht; simp only at ht
                split
                · rename_i s4 hh4
                  have he := elemNodes_len' hh4
                  simp only; omega
                · rename_i nodes s4 hh4
                  have he := elemNodes_len' hh4
                  refine Nat.le_trans (ih _ _) ?_
                  simp only [call]; omega
          · simp only [logError]; omega
      · simp only [logError]; omega
    · simp only [logError]; omega

theorem parseElements_len (s : St) : (parseElements s).2.toks.length ≤ (next s).toks.length := by
  simp only [parseElements]
  split
  · split
    · simp [logError]
    · rename_i n _ _
      have hc := elemLoop_len n.toNat (-1) (call (next s) (.setNumElements n.toNat))
      split
      · rename_i hh; rw [hh] at hc; exact hc
      · rename_i s2 hh; rw [hh] at hc
        have : (next s2).toks.length ≤ s2.toks.length := by simp [next]
        have h2 : (next (next s2)).toks.length ≤ (next s2).toks.length := by simp [next]
        have h3 : (call (next s) (.setNumElements n.toNat)).toks = (next s).toks := rfl
        rw [h3] at hc
        simp only at hc
        split
        · simp only [logError]; omega
        · simp only; omega
  · simp [logError]

theorem sections_terminates : ∀ f hn he s, s.toks.length < f → ∃ r, sections f hn he s = some r := by
  intro f
  induction f with
  | zero => intro _ _ s h; omega
  | succ f ih =>
    intro hn he s h
    cases hs : s.toks with
    | nil => exact ⟨_, by simp only [sections, cur, hs]; rfl⟩
    | cons t ts =>
      have hnx : (next s).toks.length < f := by simp [next, hs] at h ⊢; omega
      have hc : cur s = t := by simp [cur, hs]
      simp only [sections, hc]
      split
      · exact ⟨_, rfl⟩
      · exact ih _ _ _ (Nat.lt_of_le_of_lt (parseNodes_len s) hnx)
      · exact ih _ _ _ (Nat.lt_of_le_of_lt (parseElements_len s) hnx)
      · exact ih _ _ _ hnx

end Tandem.GMSHParser
