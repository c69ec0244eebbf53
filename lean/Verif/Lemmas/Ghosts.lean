import Verif.Model.Ghosts
import Verif.Spec.Ghosts
import Verif.Lemmas.Faces
import Verif.Props.Simplex
import Verif.Props.Distribute
import Verif.Props.Algorithm
namespace Tandem.Ghosts
open Tandem.CommPattern Tandem.Spec Tandem.LocalFaces Tandem.Algorithm

/-! ## counting sort -/

theorem takeWhile_range (P p : Nat) (hp : p < P) : (List.range P).takeWhile (· ≠ p) = List.range p := by
  have e := List.take_append_drop p (List.range P)
  rw [List.take_range, Nat.min_eq_left (Nat.le_of_lt hp)] at e
  rw [← e, List.drop_eq_getElem_cons (by simpa using hp), List.takeWhile_append_of_pos]
  · simp
  · intro a ha
    have : a < p := by simpa using ha
    simp; omega

theorem set_flatMap {α : Type} (L : List Nat) (hn : L.Nodup) (B : Nat → List α) (p : Nat) (hp : p ∈ L)
    (k : Nat) (hk : k < (B p).length) (x : α) :
    (L.flatMap B).set (((L.takeWhile (· ≠ p)).map (fun q => (B q).length)).sum + k) x =
      L.flatMap (fun q => if q = p then (B p).set k x else B q) := by
  induction L with
  | nil => simp at hp
  | cons a L ih =>
    rw [List.nodup_cons] at hn
    by_cases h : a = p
    · subst h
      rw [List.flatMap_cons, List.flatMap_cons, if_pos rfl]
      have : ((a :: L).takeWhile (· ≠ a)) = [] := by simp
      rw [this, List.map_nil, List.sum_nil, Nat.zero_add, List.set_append_left _ _ hk]
      congr 1
      apply List.flatMap_congr
      intro q hq
      have hne : q ≠ a := fun e => hn.1 (by rw [← e]; exact hq)
      rw [if_neg hne]
    · have hp' : p ∈ L := by
        rcases List.mem_cons.1 hp with e | e
        · exact absurd e.symm h
        · exact e
      rw [List.takeWhile_cons_of_pos (by simpa using h), List.map_cons, List.sum_cons,
        List.flatMap_cons, List.flatMap_cons, if_neg h, List.set_append_right _ _ (by omega)]
      congr 1
      rw [← ih hn.2 hp']
      congr 1
      omega

theorem sum_map_append_range (c c' : Nat → Nat) (p : Nat) (h : ∀ q, q < p → c q = c' q) :
    ((List.range p).map c).sum = ((List.range p).map c').sum := by
  congr 1
  apply List.map_congr_left
  intro q hq
  exact h q (by simpa using hq)

theorem place_aux {α : Type} (P : Nat) (key : α → Nat) (d : α) : ∀ (l2 l1 : List α) (off : List Nat),
    (∀ u ∈ l2, key u < P) → off.length = P + 1 →
    (∀ p, p < P → off.getD p 0 = ((List.range p).map (fun q =>
      ((l1 ++ l2).filter (fun u => key u = q)).length)).sum + (l1.filter (fun u => key u = p)).length) →
    (l2.foldl (placeStep key) ((List.range P).flatMap (fun p => l1.filter (fun u => key u = p) ++
      List.replicate (l2.filter (fun u => key u = p)).length d), off)).1 =
    (List.range P).flatMap (fun p => (l1 ++ l2).filter (fun u => key u = p)) := by
  intro l2
  induction l2 with
  | nil => intro l1 off _ _ _; simp
  | cons u l2 ih =>
    intro l1 off hk hlen hoff
    have hu := hk u (by simp)
    rw [List.foldl_cons]
    have hB : placeStep key ((List.range P).flatMap (fun p => l1.filter (fun u => key u = p) ++
        List.replicate ((u :: l2).filter (fun u => key u = p)).length d), off) u =
        ((List.range P).flatMap (fun p => (l1 ++ [u]).filter (fun u => key u = p) ++
          List.replicate (l2.filter (fun u => key u = p)).length d),
         off.set (key u) (off.getD (key u) 0 + 1)) := by
      unfold placeStep
      refine Prod.ext ?_ rfl
      simp only
      have hs := set_flatMap (List.range P) List.nodup_range (fun p => l1.filter (fun u => key u = p) ++
        List.replicate ((u :: l2).filter (fun u => key u = p)).length d) (key u) (by simpa using hu)
        (l1.filter (fun v => key v = key u)).length
        (by simp) u
      rw [takeWhile_range P _ hu] at hs
      rw [hoff (key u) hu]
      have hlen' : ((List.range (key u)).map (fun q => ((l1 ++ u :: l2).filter (fun u => key u = q)).length)).sum
          = ((List.range (key u)).map (fun q => (l1.filter (fun u => key u = q) ++
            List.replicate ((u :: l2).filter (fun u => key u = q)).length d).length)).sum := by
        apply sum_map_append_range
        intro q _
        simp [List.filter_append]
      rw [hlen', hs]
      apply List.flatMap_congr
      intro q _
      by_cases e : q = key u
      · subst e
        rw [if_pos rfl, List.set_append_right _ _ (Nat.le_refl _), Nat.sub_self,
          List.filter_cons_of_pos (by simp), List.length_cons, List.replicate_succ, List.set_cons_zero,
          List.filter_append, List.filter_cons_of_pos (by simp), List.filter_nil, List.append_assoc]
        rfl
      · rw [if_neg e, List.filter_append, List.filter_cons_of_neg (by simpa using fun h => e h.symm),
          List.filter_cons_of_neg (by simpa using fun h => e h.symm), List.filter_nil, List.append_nil]
    rw [hB]
    have := ih (l1 ++ [u]) (off.set (key u) (off.getD (key u) 0 + 1)) (fun v hv => hk v (by simp [hv]))
      (by simpa using hlen) (by
        intro p hp
        rw [List.append_assoc]
        simp only [List.singleton_append]
        by_cases e : p = key u
        · subst e
          have hl : key u < off.length := by omega
          rw [List.getD_eq_getElem?_getD, List.getElem?_set_self hl, Option.getD_some, hoff _ hp,
            List.filter_append, List.length_append, List.filter_cons_of_pos (by simp)]
          simp; omega
        · rw [List.getD_eq_getElem?_getD, List.getElem?_set_ne (fun h => e h.symm),
            ← List.getD_eq_getElem?_getD, hoff p hp, List.filter_append, List.length_append,
            List.filter_cons_of_neg (by simpa using fun h => e h.symm)]
          simp)
    rw [this]
    simp

theorem place_eq {α : Type} (P : Nat) (key : α → Nat) (d : α) (l : List α) (hk : ∀ u ∈ l, key u < P) :
    place P key d l = (List.range P).flatMap (fun p => l.filter (fun u => key u = p)) := by
  have := place_aux P key d l [] (Distribute.prefixSums 0
    ((List.range P).map (fun p => (l.filter (fun u => key u = p)).length))) hk
    (by rw [Distribute.prefixSums_length]; simp)
    (by
      intro p hp
      rw [List.getD_eq_getElem?_getD, Distribute.prefixSums_get _ _ _ (by simp; omega)]
      rw [← List.map_take, List.take_range, Nat.min_eq_left (Nat.le_of_lt hp)]
      simp)
  simp only [List.nil_append, List.filter_nil] at this
  rw [← this]
  unfold place
  simp only
  congr 3
  symm
  rw [List.eq_replicate_iff]
  refine ⟨?_, ?_⟩
  · rw [List.length_flatMap]; simp
  · intro b hb
    simp only [List.mem_flatMap] at hb
    obtain ⟨p, _, hb⟩ := hb
    exact (List.mem_replicate.1 hb).2

theorem place_perm {α : Type} (P : Nat) (key : α → Nat) (d : α) (l : List α) (hk : ∀ u ∈ l, key u < P)
    (x : α) : x ∈ place P key d l ↔ x ∈ l := by
  rw [place_eq P key d l hk]
  simp only [List.mem_flatMap, List.mem_range, List.mem_filter, decide_eq_true_eq]
  constructor
  · rintro ⟨_, _, h, _⟩; exact h
  · intro h; exact ⟨key x, hk x h, h, rfl⟩

/-! ## rendezvous -/

section
variable {α : Type} (P : Nat) (key : α → Nat) (d : α) (items : Nat → List α)
  (hk : ∀ s, s < P → ∀ u ∈ items s, key u < P)

include hk in
theorem received_eq (r : Nat) (hr : r < P) : received P key d items r =
    (List.range P).flatMap (fun s => (items s).filter (fun u => key u = r)) := by
  unfold received
  exact exch_blocks P (fun _ => List.range P) (fun _ _ => List.Perm.refl _)
    (fun s p => (items s).filter (fun u => key u = p)) _ (fun s _ p _ => rfl) _
    (fun s hs => place_eq P key d (items s) (hk s hs)) r hr

include hk in
theorem mem_received (r : Nat) (hr : r < P) (x : α) : x ∈ received P key d items r ↔
    key x = r ∧ ∃ s, s < P ∧ x ∈ items s := by
  rw [received_eq P key d items hk r hr]
  simp only [List.mem_flatMap, List.mem_range, List.mem_filter, decide_eq_true_eq]
  constructor
  · rintro ⟨s, a, b, c⟩; exact ⟨c, s, a, b⟩
  · rintro ⟨c, s, a, b⟩; exact ⟨s, a, b, c⟩

include hk in
theorem answered_eq {β : Type} (v : Nat → α → β) (r : Nat) (hr : r < P) :
    answered P key items (fun p => (received P key d items p).map (v p)) r =
      (place P key d (items r)).map (fun u => v (key u) u) := by
  unfold answered
  rw [exch_blocks P (fun _ => List.range P) (fun _ _ => List.Perm.refl _)
    (fun s t => ((items t).filter (fun u => key u = s)).map (v s)) _
    (fun s _ t _ => by simp [sendCount]) _
    (fun s hs => by rw [received_eq P key d items hk s hs, List.map_flatMap]) r hr,
    place_eq P key d (items r) (hk r hr), List.map_flatMap]
  apply List.flatMap_congr
  intro s _
  apply List.map_congr_left
  intro u hu
  have : key u = s := by simpa using (List.mem_filter.1 hu).2
  rw [this]
end

/-! ## facets -/

theorem isFacet_iff (e f : List Nat) (D : Nat) (hD : 0 < D) (he : e.length = D + 1) :
    Simplex.IsFace e (D - 1) f ↔ IsFacet e f := by
  unfold Simplex.IsFace IsFacet
  constructor
  · rintro ⟨a, b, c⟩; exact ⟨by omega, b, c⟩
  · rintro ⟨a, b, c⟩; exact ⟨by omega, b, c⟩

theorem facets_spec (D : Nat) (hD : 0 < D) (e : Elem) (he : e.length = D + 1) (hs : e.Pairwise (· < ·)) :
    (facets D e).Nodup ∧ ∀ f, f ∈ facets D e ↔ IsFacet e f := by
  obtain ⟨fs, h1, h2, h3⟩ := Simplex.C20_downward D (D - 1) (by omega) e he hs (D + 1)
    (by rw [show D - 1 + 1 = D by omega, Nat.choose_succ_self_right]; omega)
  unfold facets
  rw [h1]
  refine ⟨h2.1, fun f => ?_⟩
  rw [← isFacet_iff e f D hD he]
  exact h2.2 f

theorem nodup_of_lt {l : List Nat} (h : l.Pairwise (· < ·)) : l.Nodup :=
  List.Pairwise.imp (fun h => Nat.ne_of_lt h) h

theorem missing_spec : ∀ (e : Elem) (f : Facet), e.Pairwise (· < ·) → IsFacet e f →
    missingVertex e f ∈ e ∧ missingVertex e f ∉ f
  | [], f, _, h => by have := h.1; simp at this
  | a :: es, [], _, _ => by simp [missingVertex]
  | a :: es, b :: fs, hs, h => by
    rw [List.pairwise_cons] at hs
    obtain ⟨h1, h2, h3⟩ := h
    rw [List.pairwise_cons] at h2
    unfold missingVertex
    by_cases e : a = b
    · rw [if_pos e]
      subst e
      have hf : IsFacet es fs := by
        refine ⟨by simp at h1; omega, h2.2, ?_⟩
        intro v hv
        rcases List.mem_cons.1 (h3 v (by simp [hv])) with rfl | h'
        · exact absurd (h2.1 v hv) (Nat.lt_irrefl _)
        · exact h'
      obtain ⟨x, y⟩ := missing_spec es fs hs.2 hf
      refine ⟨by simp [x], ?_⟩
      intro hm
      rcases List.mem_cons.1 hm with h' | h'
      · have := hs.1 _ x; omega
      · exact y h'
    · rw [if_neg e]
      refine ⟨by simp, ?_⟩
      have hb : b ∈ es := by
        rcases List.mem_cons.1 (h3 b (by simp)) with h' | h'
        · exact absurd h'.symm e
        · exact h'
      have hlt := hs.1 b hb
      intro hm
      rcases List.mem_cons.1 hm with h' | h'
      · exact e h'
      · have := h2.1 a h'; omega

/-- Two simplices with a common facet are equal as soon as one contains the other's missing vertex. -/
theorem eq_of_missing (e e' : Elem) (f : Facet) (he : e.Pairwise (· < ·)) (he' : e'.Pairwise (· < ·))
    (hf : IsFacet e f) (hf' : IsFacet e' f) (hm : missingVertex e f ∈ e') : e = e' := by
  obtain ⟨m1, m2⟩ := missing_spec e f he hf
  have hnd : (missingVertex e f :: f).Nodup := List.nodup_cons.2 ⟨m2, nodup_of_lt hf.2.1⟩
  have h1 : (missingVertex e f :: f) ⊆ e := by
    intro v hv
    rcases List.mem_cons.1 hv with rfl | h
    · exact m1
    · exact hf.2.2 v h
  have h2 : (missingVertex e f :: f) ⊆ e' := by
    intro v hv
    rcases List.mem_cons.1 hv with rfl | h
    · exact hm
    · exact hf'.2.2 v h
  have p1 := (hnd.subperm h1).perm_of_length_le (by rw [List.length_cons, hf.1])
  have p2 := (hnd.subperm h2).perm_of_length_le (by rw [List.length_cons, hf'.1])
  exact Simplex.sorted_unique e e' (he.imp (fun h => Nat.le_of_lt h)) (he'.imp (fun h => Nat.le_of_lt h))
    (p1.symm.trans p2)

/-! ## upward map -/

/-- The elements are valid simplices. -/
def Valid (D : Nat) (E : List Elem) : Prop := ∀ e ∈ E, e.length = D + 1 ∧ e.Pairwise (· < ·)

theorem mem_equalRange (D : Nat) (E : List Elem) (f : Facet) (i : Nat) :
    i ∈ equalRange (upward D E) f ↔ ∃ e, E[i]? = some e ∧ f ∈ facets D e := by
  unfold equalRange upward
  simp only [List.mem_map, List.mem_filter, List.mem_flatMap, decide_eq_true_eq]
  constructor
  · rintro ⟨p, ⟨⟨q, hq, g, hg, rfl⟩, rfl⟩, rfl⟩
    exact ⟨q.1, List.mem_zipIdx_iff_getElem?.1 hq, hg⟩
  · rintro ⟨e, he, hf⟩
    exact ⟨(f, i), ⟨⟨(e, i), List.mem_zipIdx_iff_getElem?.2 he, f, hf, rfl⟩, rfl⟩, rfl⟩

theorem upCount_aux (D : Nat) (hD : 0 < D) (f : Facet) : ∀ (E : List Elem) (k : Nat), Valid D E →
    (((E.zipIdx k).flatMap (fun p => (facets D p.1).map (fun g => (g, p.2)))).filter
      (fun p => p.1 = f)).length = (E.filter (fun e => f ∈ facets D e)).length
  | [], _, _ => by simp
  | e :: E, k, hv => by
    have ih := upCount_aux D hD f E (k + 1) (fun x hx => hv x (by simp [hx]))
    rw [List.zipIdx_cons, List.flatMap_cons, List.filter_append, List.length_append, ih]
    obtain ⟨v1, v2⟩ := hv e (by simp)
    obtain ⟨n1, n2⟩ := facets_spec D hD e v1 v2
    have hc : (((facets D e).map (fun g => (g, k))).filter (fun p => p.1 = f)).length =
        (facets D e).count f := by
      rw [List.count_eq_length_filter, List.filter_map, List.length_map]
      congr 1
      apply List.filter_congr
      intro g _
      show decide (g = f) = (g == f)
      rw [Bool.eq_iff_iff]; simp
    simp only [hc]
    rw [n1.count]
    by_cases h : f ∈ facets D e
    · rw [if_pos h, List.filter_cons_of_pos (by simpa using h), List.length_cons]; omega
    · rw [if_neg h, List.filter_cons_of_neg (by simpa using h)]; omega

theorem upCount_eq (D : Nat) (hD : 0 < D) (f : Facet) (E : List Elem) (hv : Valid D E) :
    upCount (upward D E) f = (E.filter (fun e => f ∈ facets D e)).length :=
  upCount_aux D hD f E 0 hv

theorem count_up (up : List (Facet × Nat)) (f : Facet) : (up.map (·.1)).count f = upCount up f := by
  unfold upCount
  rw [List.count_eq_length_filter, List.filter_map, List.length_map]
  congr 1
  apply List.filter_congr
  intro p _
  show (p.1 == f) = decide (p.1 = f)
  rw [Bool.eq_iff_iff]; simp

theorem boundaryFaces_nodup (up : List (Facet × Nat)) : (boundaryFaces up).Nodup := by
  rw [List.nodup_iff_count_le_one]
  intro f
  unfold boundaryFaces
  by_cases h : upCount up f = 1
  · rw [List.count_filter (by simpa using h), count_up, h]
  · rw [List.count_eq_zero_of_not_mem]
    · omega
    · intro hm; exact h (by simpa using (List.mem_filter.1 hm).2)

theorem mem_boundaryFaces (D : Nat) (hD : 0 < D) (E : List Elem) (hv : Valid D E) (f : Facet) :
    f ∈ boundaryFaces (upward D E) ↔ (E.filter (fun e => f ∈ facets D e)).length = 1 := by
  unfold boundaryFaces
  rw [List.mem_filter]
  have : f ∈ (upward D E).map (·.1) ↔ 0 < ((upward D E).map (·.1)).count f := List.count_pos_iff.symm
  rw [this, count_up, upCount_eq D hD f E hv]
  constructor
  · rintro ⟨_, h⟩
    simpa [upCount_eq D hD f E hv] using h
  · intro h
    refine ⟨by omega, ?_⟩
    simp [upCount_eq D hD f E hv, h]

theorem filter_length_one {α : Type} [DecidableEq α] (E : List α) (hn : E.Nodup) (p : α → Bool) :
    (E.filter p).length = 1 ↔ ∃ e ∈ E, p e ∧ ∀ e' ∈ E, p e' → e' = e := by
  constructor
  · intro h
    obtain ⟨e, he⟩ := List.length_eq_one_iff.1 h
    have hm : e ∈ E.filter p := by rw [he]; simp
    rw [List.mem_filter] at hm
    refine ⟨e, hm.1, hm.2, fun e' h1 h2 => ?_⟩
    have : e' ∈ E.filter p := List.mem_filter.2 ⟨h1, h2⟩
    rw [he] at this; simpa using this
  · rintro ⟨e, he, hp, hu⟩
    have : E.filter p = [e] := by
      have hsub : (E.filter p).Perm [e] := by
        rw [List.perm_ext_iff_of_nodup (hn.filter p) (by simp)]
        intro x
        rw [List.mem_filter, List.mem_singleton]
        constructor
        · rintro ⟨a, b⟩; exact hu x a b
        · rintro rfl; exact ⟨he, hp⟩
      exact List.perm_singleton.1 hsub
    rw [this]; rfl

/-! ## domain boundary -/

theorem fold_delete (g : Facet) : ∀ (l : List (Facet × Nat)) (s : List Facet),
    g ∈ l.foldl (fun s fc => if fc.2 = 1 then s.filter (fun g => g ≠ fc.1) else s) s ↔
      g ∈ s ∧ ∀ fc ∈ l, fc.2 = 1 → g ≠ fc.1
  | [], s => by simp
  | x :: l, s => by
    rw [List.foldl_cons, fold_delete g l]
    by_cases h : x.2 = 1
    · rw [if_pos h, List.mem_filter]
      simp only [List.mem_cons, forall_eq_or_imp, decide_eq_true_eq]
      tauto
    · rw [if_neg h]
      simp only [List.mem_cons, forall_eq_or_imp]
      tauto

/-- The ranks whose list contains `g`. -/
def holdersN (P : Nat) (items : Nat → List Facet) (g : Facet) : List Nat :=
  (List.range P).filter (fun p => g ∈ items p)

theorem length_filter_sum {α : Type} (p : α → Prop) [DecidablePred p] : ∀ l : List α,
    (l.filter (fun x => p x)).length = (l.map (fun x => if p x then 1 else 0)).sum
  | [] => rfl
  | x :: l => by
    rw [List.map_cons, List.sum_cons, ← length_filter_sum p l, List.filter_cons]
    by_cases h : p x
    · simp [h]; omega
    · simp [h]

theorem count_received (P : Nat) (h : Facet → Nat) (items : Nat → List Facet)
    (hk : ∀ s, s < P → ∀ u ∈ items s, h u < P) (hn : ∀ s, s < P → (items s).Nodup)
    (g : Facet) (hg : h g < P) :
    (received P h [] items (h g)).count g = (holdersN P items g).length := by
  rw [received_eq P h [] items hk _ hg, List.count_flatMap]
  unfold holdersN
  rw [length_filter_sum]
  congr 1
  apply List.map_congr_left
  intro s hs
  have hsP : s < P := by simpa using hs
  simp only [Function.comp]
  rw [List.count_filter (by simp), (hn s hsP).count]

theorem mem_deleteDomain (env : Env) (hset : ∀ s l, (env.setOrder s l).Perm l) (bf : Nat → List Facet)
    (hn : ∀ s, s < env.P → (bf s).Nodup) (hk : ∀ s, s < env.P → ∀ f ∈ bf s, env.plex2rank f < env.P)
    (r : Nat) (hr : r < env.P) (g : Facet) :
    g ∈ deleteDomain env bf r ↔ g ∈ bf r ∧ (holdersN env.P bf g).length ≠ 1 := by
  have hk' : ∀ s, s < env.P → ∀ u ∈ env.setOrder s (bf s), env.plex2rank u < env.P :=
    fun s hs u hu => hk s hs u ((hset s _).mem_iff.1 hu)
  have hn' : ∀ s, s < env.P → (env.setOrder s (bf s)).Nodup := fun s hs =>
    (hset s _).nodup_iff.2 (hn s hs)
  have hh : ∀ g, holdersN env.P (fun s => env.setOrder s (bf s)) g = holdersN env.P bf g := by
    intro g
    unfold holdersN
    apply List.filter_congr
    intro s _
    simp only [(hset s (bf s)).mem_iff]
  unfold deleteDomain
  simp only
  rw [fold_delete]
  rw [answered_eq env.P env.plex2rank [] (fun s => env.setOrder s (bf s)) hk'
    (fun p f => (received env.P env.plex2rank [] (fun s => env.setOrder s (bf s)) p).count f) r hr]
  constructor
  · rintro ⟨h1, h2⟩
    refine ⟨h1, fun hc => ?_⟩
    have hm : g ∈ place env.P env.plex2rank [] (env.setOrder r (bf r)) :=
      (place_perm env.P env.plex2rank [] _ (hk' r hr) g).2 ((hset r _).mem_iff.2 h1)
    refine h2 (g, (received env.P env.plex2rank [] (fun s => env.setOrder s (bf s)) (env.plex2rank g)).count g)
      ?_ ?_ rfl
    · rw [List.mem_iff_getElem?] at hm ⊢
      obtain ⟨i, hi⟩ := hm
      exact ⟨i, by simp [List.getElem?_zip_eq_some, hi]⟩
    · simp only
      rw [count_received env.P env.plex2rank _ hk' hn' g (hk r hr g h1), hh, hc]
  · rintro ⟨h1, h2⟩
    refine ⟨h1, ?_⟩
    intro fc hfc hc e
    obtain ⟨i, hi⟩ := List.mem_iff_getElem?.1 hfc
    rw [List.getElem?_zip_eq_some] at hi
    obtain ⟨ha, hb⟩ := hi
    rw [List.getElem?_map, ha] at hb
    have hb' := Option.some.inj hb
    rw [← hb', ← e] at hc
    simp only at hc
    rw [count_received env.P env.plex2rank _ hk' hn' g (hk r hr g h1), hh] at hc
    exact h2 hc

end Tandem.Ghosts
