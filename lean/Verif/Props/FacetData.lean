import Verif.Model.FacetData
import Verif.Props.Faces
import Verif.Props.Partition
/-! # Property C30: boundary conditions reach the right facets -/
namespace Tandem.FacetData
open Tandem.LocalFaces Tandem.Spec Tandem.Partition Tandem.Faces

/-- The answer for one facet. -/
def valueOf {σ β : Type} [DecidableEq σ] (dflt : β) (boundary : List σ) (data : List β) (f : σ) : β :=
  match g2l boundary f with
  | none => dflt
  | some i => data.getD i dflt

theorem g2l_lt {σ : Type} [DecidableEq σ] (l : List σ) (f : σ) (i : Nat) (h : g2l l f = some i) :
    l[i]? = some f := by
  unfold g2l at h
  have key : ∀ (l : List (σ × Nat)) (acc : Option Nat), (∀ i, acc = some i → False) ∨ True →
      ∀ i, l.foldl (fun acc p => if p.1 = f then some p.2 else acc) acc = some i →
      acc = some i ∨ (f, i) ∈ l := by
    intro l
    induction l with
    | nil => intro acc _ i h; exact Or.inl h
    | cons p l ih =>
      intro acc _ i h
      rw [List.foldl_cons] at h
      rcases ih _ (Or.inr trivial) i h with h' | h'
      · split at h'
        · rename_i hp
          right
          have : p.2 = i := Option.some.inj h'
          rw [← hp, ← this]; simp
        · exact Or.inl h'
      · exact Or.inr (by simp [h'])
  rcases key _ none (Or.inr trivial) i h with h' | h'
  · cases h'
  · have := List.mem_zipIdx_iff_getElem?.1 h'
    simpa using this

theorem answers_ok {σ β : Type} [DecidableEq σ] (dflt : β) (boundary : List σ) (data : List β)
    (hlen : data.length = boundary.length) (hsmall : boundary.length < 2 ^ 64 - 1) : ∀ requested : List σ,
    answers dflt boundary data requested = some (requested.map (valueOf dflt boundary data))
  | [] => rfl
  | f :: fs => by
    have ih := answers_ok dflt boundary data hlen hsmall fs
    unfold answers lids at *
    simp only [List.map_cons, gatherDefault, ih]
    unfold valueOf
    cases h : g2l boundary f with
    | none => simp
    | some i =>
      have hi := (List.getElem?_eq_some_iff.1 (g2l_lt boundary f i h)).1
      have h1 : i ≠ 2 ^ 64 - 1 := by omega
      have h2 : i < data.length := by omega
      simp [h1, List.getElem?_eq_getElem h2]

variable {σ : Type} [LinearOrder σ]

/-- C30: let the boundary mesh be distributed in any way over the ranks (`bE s` the tagged facets of
rank `s`, `bD s` their tags), each tagged facet occurring once.  Then re-distributing it by hash
succeeds, the lookups on the rendezvous ranks succeed, and on every rank every facet of the local mesh
gets its own tag if it is tagged and the default (`BC::None`) if it is not. -/
theorem C30_facet_tags {β : Type} (dflt : β) (P : Nat) (h : σ → Nat)
    (dw : Nat → List (List σ)) (own : Nat → Nat) (hh : ∀ f, InMesh P dw f → h f < P)
    (bE : Nat → List σ) (bD : Nat → List β) (enum : Nat → List Nat)
    (hlen : ∀ s, s < P → (bD s).length = (bE s).length)
    (hb : ∀ s, s < P → ∀ f ∈ bE s, h f < P)
    (huniq : ∀ (s s' e e' : Nat) (f : σ), s < P → s' < P → (bE s)[e]? = some f → (bE s')[e']? = some f →
      s = s' ∧ e = e')
    (henum : ∀ s, s < P → IsEnumeration (hashPartition h (bE s)) (enum s))
    (hsmall : ((List.range P).map (fun s => (bE s).length)).sum < 2 ^ 64 - 1) :
    ∃ (sides : Nat → List Nat × List σ) (gd : Nat → List β),
      (∀ s, s < P → sendSide P (hashPartition h (bE s)) (enum s) (bE s) = some (sides s) ∧
        gather (bD s) (enum s) = some (gd s)) ∧
      ∃ val : Nat → σ → β,
        (∀ p, p < P → ∀ req, answers dflt (newElems P sides p) (newData P (fun s => (sides s).1) gd p) req =
          some (req.map (val p))) ∧
        ∀ r, r < P → ∀ perm, SortedBy P h dw own none (some val) r perm →
          ∃ lf, getFaces P h dw own none (some val) perm r = some lf ∧ ∃ d, lf.data = some d ∧
            ∀ (i : Nat) (f : σ), lf.faces[i]? = some f →
              (∀ (s e : Nat) (bc : β), s < P → (bE s)[e]? = some f → (bD s)[e]? = some bc → d[i]? = some bc) ∧
              ((∀ s, s < P → f ∉ bE s) → d[i]? = some dflt) := by
  obtain ⟨sides, gd, _, src, h1, h2⟩ := C21_partition P bE bD bD (fun s => hashPartition h (bE s)) enum
    (fun s hs => ⟨by simp [hashPartition], fun q hq => by
      obtain ⟨f, hf, rfl⟩ := List.mem_map.1 hq
      exact hb s hs f hf⟩) hlen hlen henum
  refine ⟨sides, gd, fun s hs => ⟨(h1 s hs).1, (h1 s hs).2.1⟩,
    fun p => valueOf dflt (newElems P sides p) (newData P (fun s => (sides s).1) gd p), ?_, ?_⟩
  · intro p hp req
    obtain ⟨a, b, -, c, c'⟩ := h2 p hp
    have e1 := congrArg List.length a
    have e2 := congrArg List.length b
    simp only [List.length_map] at e1 e2
    have hsub : src p ⊆ (List.range P).flatMap (fun s => (List.range (bE s).length).map (fun e => (s, e))) := by
      intro o ho
      obtain ⟨ho1, ho2⟩ := (c' o.1 o.2).1 ho
      have hl := (List.getElem?_eq_some_iff.1 ho2).1
      simp only [hashPartition, List.length_map] at hl
      simp only [List.mem_flatMap, List.mem_map, List.mem_range]
      exact ⟨o.1, ho1, o.2, hl, rfl⟩
    have hle := (c.subperm hsub).length_le
    simp only [List.length_flatMap, List.length_map, List.length_range] at hle
    exact answers_ok dflt _ _ (by omega) (by omega) req
  · intro r hr perm hp
    obtain ⟨lf, hlf, table⟩ := getFaces_table P h dw own hh none
      (some (fun p => valueOf dflt (newElems P sides p) (newData P (fun s => (sides s).1) gd p)))
      r hr perm hp.1 hp.2
    obtain ⟨d, hd, hdv⟩ := table.dataOf _ rfl
    refine ⟨lf, hlf, d, hd, fun i f hf => ?_⟩
    have hfm : InMesh P dw f := ⟨r, hr, (table.exactly f).1 (List.mem_iff_getElem?.2 ⟨i, hf⟩)⟩
    have hp' := hh f hfm
    obtain ⟨a, b, -, c, c'⟩ := h2 (h f) hp'
    have hnd : ∀ (i j : Nat) (g : σ), (newElems P sides (h f))[i]? = some g →
        (newElems P sides (h f))[j]? = some g → i = j := by
      intro i j g hi hj
      have ei := congrArg (fun l => l[i]?) a
      have ej := congrArg (fun l => l[j]?) a
      simp only [List.getElem?_map, hi, hj, Option.map_some] at ei ej
      cases si : (src (h f))[i]? with
      | none => rw [si] at ei; simp at ei
      | some oi =>
        cases sj : (src (h f))[j]? with
        | none => rw [sj] at ej; simp at ej
        | some oj =>
          rw [si] at ei; rw [sj] at ej
          simp only [Option.map_some, Option.some.injEq] at ei ej
          have hi' := (c' oi.1 oi.2).1 (List.mem_iff_getElem?.2 ⟨i, si⟩)
          have hj' := (c' oj.1 oj.2).1 (List.mem_iff_getElem?.2 ⟨j, sj⟩)
          have := huniq oi.1 oj.1 oi.2 oj.2 g hi'.1 hj'.1 ei.symm ej.symm
          have e : oi = oj := Prod.ext this.1 this.2
          obtain ⟨x1, x2⟩ := List.getElem?_eq_some_iff.1 si
          obtain ⟨y1, y2⟩ := List.getElem?_eq_some_iff.1 sj
          exact (List.Nodup.getElem_inj_iff c).1 (x2.trans (e.trans y2.symm))
    constructor
    · intro s e bc hs he hbc
      rw [hdv i f hf]
      have hsrc : (s, e) ∈ src (h f) := (c' s e).2 ⟨hs, by simp [hashPartition, he]⟩
      obtain ⟨k, hk⟩ := List.mem_iff_getElem?.1 hsrc
      have ek := congrArg (fun l => l[k]?) a
      have dk := congrArg (fun l => l[k]?) b
      simp only [List.getElem?_map, hk, Option.map_some, he, hbc] at ek dk
      have ek' : (newElems P sides (h f))[k]? = some f := by
        cases hx : (newElems P sides (h f))[k]? with
        | none => rw [hx] at ek; simp at ek
        | some g => rw [hx] at ek; simp at ek; rw [ek]
      have dk' : (newData P (fun s => (sides s).1) gd (h f))[k]? = some bc := by
        cases hx : (newData P (fun s => (sides s).1) gd (h f))[k]? with
        | none => rw [hx] at dk; simp at dk
        | some g => rw [hx] at dk; simp at dk; rw [dk]
      congr 1
      unfold valueOf
      cases hg : g2l (newElems P sides (h f)) f with
      | none =>
        exact absurd (List.mem_iff_getElem?.2 ⟨k, ek'⟩) ((g2l_none _ f).1 hg)
      | some k' =>
        have : k' = k := hnd k' k f (g2l_lt _ f k' hg) ek'
        subst this
        simp [dk']
    · intro hno
      rw [hdv i f hf]
      congr 1
      unfold valueOf
      cases hg : g2l (newElems P sides (h f)) f with
      | none => rfl
      | some k =>
        exfalso
        have hk := g2l_lt _ f k hg
        have ek := congrArg (fun l => l[k]?) a
        simp only [List.getElem?_map, hk, Option.map_some] at ek
        cases sk : (src (h f))[k]? with
        | none => rw [sk] at ek; simp at ek
        | some o =>
          rw [sk] at ek
          simp only [Option.map_some, Option.some.injEq] at ek
          have ho := (c' o.1 o.2).1 (List.mem_iff_getElem?.2 ⟨k, sk⟩)
          exact hno o.1 ho.1 (List.mem_iff_getElem?.2 ⟨o.2, ek.symm⟩)

/-- One tagged facet, held by the wrong rank at first: two ranks, `h f = f % 2`, the mesh of
`twoTriangles`; facet 12 carries tag 3. -/
example : ∃ (bE : Nat → List Nat) (bD : Nat → List Nat) (enum : Nat → List Nat),
    bE 1 = [12] ∧ bD 1 = [3] ∧
    (∀ s, s < 2 → (bD s).length = (bE s).length) ∧ (∀ s, s < 2 → ∀ f ∈ bE s, f % 2 < 2) ∧
    (∀ (s s' e e' f : Nat), s < 2 → s' < 2 → (bE s)[e]? = some f → (bE s')[e']? = some f → s = s' ∧ e = e') ∧
    (∀ s, s < 2 → IsEnumeration (hashPartition (· % 2) (bE s)) (enum s)) ∧
    ((List.range 2).map (fun s => (bE s).length)).sum < 2 ^ 64 - 1 := by
  refine ⟨fun s => if s = 1 then [12] else [], fun s => if s = 1 then [3] else [],
    fun s => if s = 1 then [0] else [], rfl, rfl, ?_, ?_, ?_, ?_, by decide⟩
  · intro s _; dsimp only; split <;> rfl
  · intro s _ f _; exact Nat.mod_lt f (by decide)
  · intro s s' e e' f hs hs' h1 h2
    have a : s = 1 := by
      apply Classical.byContradiction; intro hc; simp [hc] at h1
    have b : s' = 1 := by
      apply Classical.byContradiction; intro hc; simp [hc] at h2
    subst a b
    have c := (List.getElem?_eq_some_iff.1 h1).1
    have d := (List.getElem?_eq_some_iff.1 h2).1
    simp at c d
    omega
  · intro s hs
    have : s = 0 ∨ s = 1 := by omega
    rcases this with rfl | rfl
    · exact ⟨by decide, by decide⟩
    · exact ⟨by decide, by decide⟩

end Tandem.FacetData
