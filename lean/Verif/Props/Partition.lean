import Verif.Model.Partition
import Verif.Lemmas.AllToAll
import Verif.Lemmas.Algorithm
import Mathlib.Data.List.Nodup
/-! # Property C21: repartitioning keeps every element and its data -/
namespace Tandem.Partition
open Tandem.CommPattern

theorem gather_ok {β} (data : List β) : ∀ (is : List Nat), (∀ i ∈ is, i < data.length) →
    ∃ out, gather data is = some out ∧ out.map some = is.map (fun i => data[i]?) := by
  intro is
  induction is with
  | nil => intro _; exact ⟨[], rfl, rfl⟩
  | cons i is ih =>
    intro h
    obtain ⟨out, h1, h2⟩ := ih (fun j hj => h j (by simp [hj]))
    have hi := h i (by simp)
    refine ⟨data[i] :: out, ?_, ?_⟩
    · simp [gather, h1, List.getElem?_eq_getElem hi]
    · simp [h2, List.getElem?_eq_getElem hi]

theorem gather_append {β} (data : List β) (a b : List Nat) (x y : List β)
    (hx : gather data a = some x) (hy : gather data b = some y) : gather data (a ++ b) = some (x ++ y) := by
  induction a generalizing x with
  | nil => simp [gather] at hx; subst hx; simpa using hy
  | cons i a ih =>
    simp only [gather] at hx
    cases hi : data[i]? with
    | none => rw [hi] at hx; simp at hx
    | some d =>
      cases hg : gather data a with
      | none => rw [hi, hg] at hx; simp at hx
      | some ds =>
        rw [hi, hg] at hx
        simp at hx
        subst hx
        simp [gather, hi, ih ds hg]

theorem takeUpTo_ok (partition : List Nat) (p : Nat) : ∀ (es : List Nat),
    (∀ e ∈ es, e < partition.length) →
    es.Pairwise (fun a b => partition.getD a 0 ≤ partition.getD b 0) →
    takeUpTo partition p es = some (es.filter (fun e => partition.getD e 0 ≤ p),
      es.filter (fun e => ¬ partition.getD e 0 ≤ p)) := by
  intro es
  induction es with
  | nil => intro _ _; rfl
  | cons e es ih =>
    intro h hs
    have he := h e (by simp)
    rw [List.pairwise_cons] at hs
    have hg : partition.getD e 0 = partition[e] := by
      rw [List.getD_eq_getElem?_getD, List.getElem?_eq_getElem he]; rfl
    simp only [takeUpTo, List.getElem?_eq_getElem he]
    by_cases hp : partition[e] ≤ p
    · rw [if_pos hp, ih (fun x hx => h x (by simp [hx])) hs.2]
      simp only [Option.map_some]
      rw [List.filter_cons_of_pos (by rw [hg]; simpa using hp),
        List.filter_cons_of_neg (by rw [hg]; simpa using hp)]
    · rw [if_neg hp]
      have hall : ∀ x ∈ e :: es, ¬ partition.getD x 0 ≤ p := by
        intro x hx
        rcases List.mem_cons.1 hx with rfl | hx
        · rw [hg]; exact hp
        · have := hs.1 x hx
          rw [hg] at this; omega
      have h1 : (e :: es).filter (fun e => decide (partition.getD e 0 ≤ p)) = [] := by
        rw [List.filter_eq_nil_iff]; intro x hx; simpa using hall x hx
      have h2 : (e :: es).filter (fun e => decide (¬ partition.getD e 0 ≤ p)) = e :: es := by
        rw [List.filter_eq_self]; intro x hx; simpa using hall x hx
      rw [h1, h2]

theorem groups_ok (partition : List Nat) : ∀ (todo p : Nat) (es : List Nat),
    (∀ e ∈ es, e < partition.length) →
    es.Pairwise (fun a b => partition.getD a 0 ≤ partition.getD b 0) →
    (∀ e ∈ es, p ≤ partition.getD e 0) →
    groups partition todo p es = some
      ((List.range todo).map (fun q => es.filter (fun e => partition.getD e 0 = p + q)),
        es.filter (fun e => p + todo ≤ partition.getD e 0)) := by
  intro todo
  induction todo with
  | zero =>
    intro p es _ _ h3
    have : es.filter (fun e => decide (p + 0 ≤ partition.getD e 0)) = es := by
      rw [List.filter_eq_self]; intro e he; simpa using h3 e he
    rw [this]; rfl
  | succ t ih =>
    intro p es h1 h2 h3
    have hrest := ih (p + 1) (es.filter (fun e => ¬ partition.getD e 0 ≤ p))
      (fun e he => h1 e (List.mem_filter.1 he).1) (h2.sublist List.filter_sublist) (by
        intro e he
        have := (List.mem_filter.1 he).2
        simp only [decide_eq_true_eq] at this
        omega)
    simp only [groups, takeUpTo_ok partition p es h1 h2, Option.bind_eq_bind, Option.bind_some, hrest]
    simp only [Option.pure_def, Option.some.injEq, Prod.mk.injEq]
    constructor
    · rw [List.range_succ_eq_map, List.map_cons, List.map_map]
      congr 1
      · apply List.filter_congr
        intro e he
        have := h3 e he
        simp only [decide_eq_decide, Nat.add_zero]; omega
      · apply List.map_congr_left
        intro q _
        rw [List.filter_filter]
        apply List.filter_congr
        intro e he
        rw [Bool.eq_iff_iff]
        simp only [Bool.and_eq_true, decide_eq_true_eq, Nat.succ_eq_add_one]
        omega
    · rw [List.filter_filter]
      apply List.filter_congr
      intro e he
      have := h3 e he
      rw [Bool.eq_iff_iff]
      simp only [Bool.and_eq_true, decide_eq_true_eq]
      omega

/-- `enumeration` as left behind by `std::iota` and `std::sort` with the comparison by partition: some
permutation of the element numbers sorted by target rank (the order of equal ones is unspecified). -/
structure IsEnumeration (partition enumeration : List Nat) : Prop where
  perm : enumeration.Perm (List.range partition.length)
  sorted : enumeration.Pairwise (fun a b => partition.getD a 0 ≤ partition.getD b 0)

theorem flatMap_gather {β} (data : List β) (L : List Nat) (f : Nat → List Nat)
    (h : ∀ q ∈ L, ∀ i ∈ f q, i < data.length) :
    ∃ msg : Nat → List β, gather data (L.map f).flatten = some (L.flatMap msg) ∧
      ∀ q ∈ L, (msg q).map some = (f q).map (fun i => data[i]?) := by
  refine ⟨fun q => (gather data (f q)).getD [], ?_, ?_⟩
  · induction L with
    | nil => rfl
    | cons q L ih =>
      rw [List.map_cons, List.flatten_cons, List.flatMap_cons]
      obtain ⟨out, h1, _⟩ := gather_ok data (f q) (h q (by simp))
      rw [h1, Option.getD_some]
      exact gather_append _ _ _ _ _ h1 (ih (fun q' hq' => h q' (by simp [hq'])))
  · intro q hq
    obtain ⟨out, h1, h2⟩ := gather_ok data (f q) (h q hq)
    simp only [h1, Option.getD_some]
    exact h2

/-- C21: let rank `s` hold the elements `elems s` with one data item and one tag each, and let
`part s` assign to every element a rank below `procs`.  Then `doPartition` succeeds on all ranks, and
there is a list `src r` of origins (old rank, old number) for every rank `r` such that

* rank `r` holds afterwards exactly the elements at these origins, and its data items and tags are
  those of the same origins in the same order, so every element keeps its own data;
* `src r` names every element assigned to `r`, exactly once, and no other. -/
theorem C21_partition {ε β γ : Type} (procs : Nat) (elems : Nat → List ε) (data : Nat → List β)
    (tags : Nat → List γ) (part : Nat → List Nat) (enum : Nat → List Nat)
    (hpart : ∀ s, s < procs → (part s).length = (elems s).length ∧ ∀ q ∈ part s, q < procs)
    (hdata : ∀ s, s < procs → (data s).length = (elems s).length)
    (htags : ∀ s, s < procs → (tags s).length = (elems s).length)
    (henum : ∀ s, s < procs → IsEnumeration (part s) (enum s)) :
    ∃ (sides : Nat → List Nat × List ε) (gd : Nat → List β) (gt : Nat → List γ)
      (src : Nat → List (Nat × Nat)),
      (∀ s, s < procs → sendSide procs (part s) (enum s) (elems s) = some (sides s) ∧
        gather (data s) (enum s) = some (gd s) ∧ gather (tags s) (enum s) = some (gt s)) ∧
      (∀ r, r < procs →
        (newElems procs sides r).map some = (src r).map (fun o => (elems o.1)[o.2]?) ∧
        (newData procs (fun s => (sides s).1) gd r).map some = (src r).map (fun o => (data o.1)[o.2]?) ∧
        (newData procs (fun s => (sides s).1) gt r).map some = (src r).map (fun o => (tags o.1)[o.2]?) ∧
        (src r).Nodup ∧
        ∀ s e, (s, e) ∈ src r ↔ s < procs ∧ (part s)[e]? = some r) := by
  let grp : Nat → Nat → List Nat := fun s r => (enum s).filter (fun e => (part s).getD e 0 = r)
  have hlt : ∀ s, s < procs → ∀ e ∈ enum s, e < (part s).length := by
    intro s hs e he
    simpa using (henum s hs).perm.mem_iff.1 he
  have hval : ∀ s, s < procs → ∀ e, e < (part s).length → (part s).getD e 0 < procs := by
    intro s hs e he
    rw [List.getD_eq_getElem?_getD, List.getElem?_eq_getElem he]
    exact (hpart s hs).2 _ (List.getElem_mem he)
  have hgroups : ∀ s, s < procs → groups (part s) procs 0 (enum s) =
      some ((List.range procs).map (grp s), []) := by
    intro s hs
    rw [groups_ok (part s) procs 0 (enum s) (hlt s hs) (henum s hs).sorted (by simp)]
    simp only [Nat.zero_add, Option.some.injEq, Prod.mk.injEq, List.filter_eq_nil_iff]
    refine ⟨rfl, ?_⟩
    intro e he
    have := hval s hs e (hlt s hs e he)
    simp only [decide_eq_true_eq]; omega
  -- the groups, concatenated, are the enumeration
  have hflat : ∀ s, s < procs → ((List.range procs).map (grp s)).flatten = enum s := by
    intro s hs
    have key : ∀ (todo p : Nat) (es : List Nat), (∀ e ∈ es, e < (part s).length) →
        es.Pairwise (fun a b => (part s).getD a 0 ≤ (part s).getD b 0) →
        ∀ g rest, groups (part s) todo p es = some (g, rest) → g.flatten ++ rest = es := by
      have tk : ∀ (p : Nat) (es g rest : List Nat), takeUpTo (part s) p es = some (g, rest) → g ++ rest = es := by
        intro p es
        induction es with
        | nil => intro g rest h; simp [takeUpTo] at h; simp [h]
        | cons e es ih =>
          intro g rest h
          simp only [takeUpTo] at h
          cases hq : (part s)[e]? with
          | none => rw [hq] at h; simp at h
          | some q =>
            rw [hq] at h
            simp only at h
            split at h
            · cases ht : takeUpTo (part s) p es with
              | none => rw [ht] at h; simp at h
              | some r =>
                rw [ht] at h
                simp at h
                rw [← h.1, ← h.2, List.cons_append, ih r.1 r.2 ht]
            · simp at h; simp [← h.1, ← h.2]
      intro todo
      induction todo with
      | zero => intro p es _ _ g rest h; simp [groups] at h; simp [h.1, h.2]
      | succ t ih =>
        intro p es h1 h2 g rest h
        simp only [groups, takeUpTo_ok (part s) p es h1 h2, Option.bind_eq_bind, Option.bind_some] at h
        have ht := tk p es _ _ (takeUpTo_ok (part s) p es h1 h2)
        cases hg : groups (part s) t (p + 1) (es.filter (fun e => ¬ (part s).getD e 0 ≤ p)) with
        | none => rw [hg] at h; simp at h
        | some r =>
          rw [hg] at h
          simp at h
          have := ih (p + 1) _ (fun e he => h1 e (List.mem_filter.1 he).1)
            (h2.sublist List.filter_sublist) r.1 r.2 hg
          rw [← h.1, ← h.2, List.flatten_cons, List.append_assoc, this]
          exact ht
    have := key procs 0 (enum s) (hlt s hs) (henum s hs).sorted _ _ (hgroups s hs)
    simpa using this
  have hb : ∀ s, s < procs → ∀ (n : Nat), n = (elems s).length → ∀ q ∈ List.range procs, ∀ i ∈ grp s q,
      i < n := by
    intro s hs n hn q _ i hi
    have := hlt s hs i (List.mem_filter.1 hi).1
    have := (hpart s hs).1
    omega
  choose! me me1 me2 using fun s (hs : s < procs) =>
    flatMap_gather (elems s) (List.range procs) (grp s) (hb s hs _ rfl)
  choose! md md1 md2 using fun s (hs : s < procs) =>
    flatMap_gather (data s) (List.range procs) (grp s) (hb s hs _ (hdata s hs))
  choose! mt mt1 mt2 using fun s (hs : s < procs) =>
    flatMap_gather (tags s) (List.range procs) (grp s) (hb s hs _ (htags s hs))
  have hlen : ∀ {τ : Type} (d : Nat → List τ) (m : Nat → Nat → List τ) (s r : Nat),
      (m s r).map some = (grp s r).map (fun i => (d s)[i]?) → (m s r).length = (grp s r).length := by
    intro τ d m s r h
    have := congrArg List.length h
    simpa using this
  let sides : Nat → List Nat × List ε := fun s =>
    ((List.range procs).map (fun d => (grp s d).length), (List.range procs).flatMap (me s))
  have hcount : ∀ s d, d < procs → (sides s).1.getD d 0 = (grp s d).length := by
    intro s d hd
    simp [sides, hd]
  refine ⟨sides, fun s => (List.range procs).flatMap (md s), fun s => (List.range procs).flatMap (mt s),
    fun r => (List.range procs).flatMap (fun s => (grp s r).map (fun e => (s, e))), ?_, ?_⟩
  · intro s hs
    refine ⟨?_, ?_, ?_⟩
    · simp only [sendSide, hgroups s hs, Option.bind_eq_bind, Option.bind_some, ne_eq, not_true,
        if_false]
      rw [me1 s hs]
      simp [sides, Function.comp_def]
    · rw [← md1 s hs, hflat s hs]
    · rw [← mt1 s hs, hflat s hs]
  · intro r hr
    have hx : ∀ {τ : Type} (d : Nat → List τ) (m : Nat → Nat → List τ)
        (_ : ∀ s, s < procs → ∀ q ∈ List.range procs, (m s q).map some = (grp s q).map (fun i => (d s)[i]?)),
        (exch (fun _ => List.range procs) (fun s d => (sides s).1.getD d 0)
          (fun s => (List.range procs).flatMap (m s)) r).map some =
        ((List.range procs).flatMap (fun s => (grp s r).map (fun e => (s, e)))).map
          (fun o => (d o.1)[o.2]?) := by
      intro τ d m hm
      rw [exch_blocks procs (fun _ => List.range procs) (fun _ _ => List.Perm.refl _) m _ ?_ _
        (fun _ _ => rfl) r hr]
      · rw [List.map_flatMap, List.map_flatMap]
        apply List.flatMap_congr
        intro s hs
        rw [hm s (by simpa using hs) r (by simpa using hr), List.map_map]
        rfl
      · intro s hs d' hd'
        rw [hcount s d' hd', hlen d m s d' (hm s hs d' (by simpa using hd'))]
    refine ⟨hx elems me me2, hx data md md2, hx tags mt mt2, ?_, ?_⟩
    · rw [List.nodup_flatMap]
      refine ⟨?_, ?_⟩
      · intro s hs
        have hs' : s < procs := by simpa using hs
        rw [List.nodup_map_iff_inj_on]
        · intro a _ b _ h; simpa using h
        · exact ((henum s hs').perm.nodup_iff.2 List.nodup_range).filter _
      · refine List.Pairwise.imp ?_ (List.nodup_iff_pairwise_ne.1 List.nodup_range)
        intro a b hab x hx hy
        obtain ⟨e, _, rfl⟩ := List.mem_map.1 hx
        obtain ⟨e', _, h⟩ := List.mem_map.1 hy
        simp at h
        exact hab h.1.symm
    · intro s e
      simp only [List.mem_flatMap, List.mem_map, List.mem_range, Prod.mk.injEq]
      constructor
      · rintro ⟨s', hs', e', he', rfl, rfl⟩
        obtain ⟨h1, h2⟩ := List.mem_filter.1 he'
        have hl := hlt s' hs' e' h1
        refine ⟨hs', ?_⟩
        rw [List.getElem?_eq_getElem hl]
        simp only [decide_eq_true_eq, List.getD_eq_getElem?_getD, List.getElem?_eq_getElem hl,
          Option.getD_some] at h2
        rw [h2]
      · rintro ⟨hs, he⟩
        have hl : e < (part s).length := by
          apply Classical.byContradiction; intro h
          rw [List.getElem?_eq_none (by omega)] at he; simp at he
        refine ⟨s, hs, e, List.mem_filter.2 ⟨(henum s hs).perm.mem_iff.2 (by simpa using hl), ?_⟩, rfl, rfl⟩
        simp [he]

/-- C21: a target rank outside of `0 .. procs-1` is not delivered: the assertion after the loop
fails. -/
theorem C21_bad_target {ε} (procs : Nat) (part enum : List Nat) (elems : List ε)
    (henum : IsEnumeration part enum) (e : Nat) (q : Nat) (he : part[e]? = some q) (hq : procs ≤ q) :
    sendSide procs part enum elems = none := by
  have hlt : ∀ e ∈ enum, e < part.length := fun e he => by simpa using henum.perm.mem_iff.1 he
  have hl : e < part.length := by
    apply Classical.byContradiction; intro h
    rw [List.getElem?_eq_none (by omega)] at he; simp at he
  have hm : e ∈ enum.filter (fun e => 0 + procs ≤ part.getD e 0) := by
    refine List.mem_filter.2 ⟨henum.perm.mem_iff.2 (by simpa using hl), ?_⟩
    simp [he]; omega
  simp only [sendSide, groups_ok part procs 0 enum hlt henum.sorted (by simp), Option.bind_eq_bind,
    Option.bind_some]
  rw [if_pos (List.ne_nil_of_mem hm)]
  rfl

/-- Non-vacuity: two ranks exchanging elements. -/
example : IsEnumeration [1, 0, 1] [1, 0, 2] ∧ IsEnumeration [0, 0] [1, 0] ∧
    sendSide 2 [1, 0, 1] [1, 0, 2] ["a", "b", "c"] = some ([1, 2], ["b", "a", "c"]) ∧
    newElems 2 (fun s => if s = 0 then ([1, 2], ["b", "a", "c"]) else ([2, 0], ["e", "d"])) 0 =
      ["b", "e", "d"] :=
  ⟨⟨by decide, by decide⟩, ⟨by decide, by decide⟩, by decide, by decide⟩

end Tandem.Partition
