import Verif.Model.Faces
import Verif.Lemmas.AllToAll
import Verif.Props.LocalFaces
namespace Tandem.Faces
open Tandem.CommPattern Tandem.LocalFaces

variable {σ : Type} [LinearOrder σ]

/-! ## `std::set` -/

theorem mem_setInsert (x y : σ) : ∀ s : List σ, y ∈ setInsert x s ↔ y = x ∨ y ∈ s
  | [] => by simp [setInsert]
  | z :: zs => by
    unfold setInsert
    split
    · simp
    · split
      · rename_i h; subst h; simp
      · rw [List.mem_cons, mem_setInsert x y zs, List.mem_cons]; tauto

theorem sorted_setInsert (x : σ) : ∀ s : List σ, s.Pairwise (· < ·) → (setInsert x s).Pairwise (· < ·)
  | [], _ => by simp [setInsert]
  | z :: zs, h => by
    unfold setInsert
    rw [List.pairwise_cons] at h
    split
    · rename_i hlt
      refine List.pairwise_cons.2 ⟨?_, List.pairwise_cons.2 h⟩
      intro a ha
      rcases List.mem_cons.1 ha with e | e
      · subst e; exact hlt
      · exact lt_trans hlt (h.1 a e)
    · split
      · exact List.pairwise_cons.2 h
      · rename_i h1 h2
        refine List.pairwise_cons.2 ⟨?_, sorted_setInsert x zs h.2⟩
        intro a ha
        rcases (mem_setInsert x a zs).1 ha with e | e
        · subst e; exact lt_of_le_of_ne (not_lt.1 h1) (fun e => h2 e.symm)
        · exact h.1 a e

theorem required_aux (h : σ → Nat) (p : Nat) : ∀ (occ s : List σ), s.Pairwise (· < ·) →
    (occ.foldl (fun s f => if h f = p then setInsert f s else s) s).Pairwise (· < ·) ∧
    ∀ f, f ∈ occ.foldl (fun s f => if h f = p then setInsert f s else s) s ↔ f ∈ s ∨ (f ∈ occ ∧ h f = p)
  | [], s, hs => ⟨hs, by simp⟩
  | g :: occ, s, hs => by
    rw [List.foldl_cons]
    by_cases hg : h g = p
    · rw [if_pos hg]
      obtain ⟨a, b⟩ := required_aux h p occ (setInsert g s) (sorted_setInsert g s hs)
      refine ⟨a, fun f => ?_⟩
      rw [b, mem_setInsert]
      constructor
      · rintro ((rfl | h1) | h1)
        · exact Or.inr ⟨by simp, hg⟩
        · exact Or.inl h1
        · exact Or.inr ⟨by simp [h1.1], h1.2⟩
      · rintro (h1 | ⟨h1, h2⟩)
        · exact Or.inl (Or.inr h1)
        · rcases List.mem_cons.1 h1 with rfl | h1
          · exact Or.inl (Or.inl rfl)
          · exact Or.inr ⟨h1, h2⟩
    · rw [if_neg hg]
      obtain ⟨a, b⟩ := required_aux h p occ s hs
      refine ⟨a, fun f => ?_⟩
      rw [b]
      constructor
      · rintro (h1 | h1)
        · exact Or.inl h1
        · exact Or.inr ⟨by simp [h1.1], h1.2⟩
      · rintro (h1 | ⟨h1, h2⟩)
        · exact Or.inl h1
        · rcases List.mem_cons.1 h1 with rfl | h1
          · exact absurd h2 hg
          · exact Or.inr ⟨h1, h2⟩

theorem required_sorted (h : σ → Nat) (p : Nat) (occ : List σ) :
    (required h p occ).Pairwise (· < ·) := (required_aux h p occ [] (by simp)).1

theorem nodup_of_sorted {l : List σ} (h : l.Pairwise (· < ·)) : l.Nodup :=
  List.Pairwise.imp (fun h => ne_of_lt h) h

theorem required_nodup (h : σ → Nat) (p : Nat) (occ : List σ) : (required h p occ).Nodup :=
  nodup_of_sorted (required_sorted h p occ)

theorem mem_required (h : σ → Nat) (p : Nat) (occ : List σ) (f : σ) :
    f ∈ required h p occ ↔ f ∈ occ ∧ h f = p := by
  have := (required_aux h p occ [] (by simp)).2 f
  simpa [required] using this

/-! ## order of first appearance -/

theorem orderFold (l : List σ) : ∀ (order pre : List σ), order.Nodup → (∀ f, f ∈ order ↔ f ∈ pre) →
    order.Pairwise (fun a b => pre.idxOf a < pre.idxOf b) →
    (l.foldl orderStep order).Nodup ∧ (∀ f, f ∈ l.foldl orderStep order ↔ f ∈ pre ++ l) ∧
    (l.foldl orderStep order).Pairwise (fun a b => (pre ++ l).idxOf a < (pre ++ l).idxOf b) ∧
    order <+: l.foldl orderStep order := by
  induction l with
  | nil => intro order pre h1 h2 h3; simp [h1, h2]; simpa using h3
  | cons g l ih =>
    intro order pre h1 h2 h3
    rw [List.foldl_cons]
    have happ : pre ++ g :: l = (pre ++ [g]) ++ l := by simp
    have hlt : ∀ a b, a ∈ pre → b ∈ pre → pre.idxOf a < pre.idxOf b →
        (pre ++ [g]).idxOf a < (pre ++ [g]).idxOf b := by
      intro a b ha hb h
      rw [List.idxOf_append_of_mem ha, List.idxOf_append_of_mem hb]; exact h
    have h3' : order.Pairwise (fun a b => (pre ++ [g]).idxOf a < (pre ++ [g]).idxOf b) :=
      h3.imp_of_mem (fun ha hb h => hlt _ _ ((h2 _).1 ha) ((h2 _).1 hb) h)
    by_cases hg : g ∈ order
    · have : orderStep order g = order := by simp [orderStep, hg]
      rw [this, happ]
      refine ih order (pre ++ [g]) h1 ?_ h3'
      intro f
      rw [List.mem_append, List.mem_singleton, ← h2]
      constructor
      · exact Or.inl
      · rintro (h | h)
        · exact h
        · exact h ▸ hg
    · have : orderStep order g = order ++ [g] := by simp [orderStep, hg]
      rw [this, happ]
      have hgp : g ∉ pre := fun h => hg ((h2 g).2 h)
      obtain ⟨a, b, c, d⟩ := ih (order ++ [g]) (pre ++ [g])
        (by rw [List.nodup_append]; refine ⟨h1, by simp, ?_⟩
            intro x hx y hy e
            rw [List.mem_singleton] at hy
            exact hg (by rw [← hy, ← e]; exact hx))
        (by intro f; rw [List.mem_append, List.mem_append, h2])
        (by rw [List.pairwise_append]
            refine ⟨h3', by simp, ?_⟩
            intro x hx y hy
            rw [List.mem_singleton] at hy; subst hy
            have hxp := (h2 x).1 hx
            rw [List.idxOf_append_of_mem hxp, List.idxOf_append_of_notMem hgp]
            have := List.idxOf_lt_length_of_mem hxp
            omega)
      exact ⟨a, b, c, (List.prefix_append order [g]).trans d⟩

theorem scan_fst (L : Nat) : ∀ (dw : List (List σ)) (k : Nat) (order : List σ) (ls : Nat),
    (scan L k dw (order, ls)).1 = dw.flatten.foldl orderStep order
  | [], _, _, _ => by simp [scan]
  | fs :: rest, k, order, ls => by
    rw [scan, scan_fst L rest, List.flatten_cons, List.foldl_append]

theorem scan_snd (L : Nat) : ∀ (dw : List (List σ)) (k : Nat) (order : List σ) (ls : Nat),
    (scan L k dw (order, ls)).2 =
      if L - k = 0 ∨ dw = [] then ls
      else ((dw.take (L - k)).flatten.foldl orderStep order).length
  | [], _, _, _ => by simp [scan]
  | fs :: rest, k, order, ls => by
    rw [scan, scan_snd L rest]
    by_cases h : k < L
    · rw [if_pos h]
      obtain ⟨m, hm⟩ : ∃ m, L - k = m + 1 := ⟨L - k - 1, by omega⟩
      have hm' : L - (k + 1) = m := by omega
      rw [hm, hm', List.take_succ_cons, List.flatten_cons, List.foldl_append,
        if_neg (show ¬ (m + 1 = 0 ∨ fs :: rest = []) by simp)]
      by_cases hc : m = 0 ∨ rest = []
      · rw [if_pos hc]
        rcases hc with rfl | rfl <;> simp
      · rw [if_neg hc]
    · have e1 : L - k = 0 := by omega
      have e2 : L - (k + 1) = 0 := by omega
      simp [e1, e2, h]

/-! ## exchanges -/

section
variable (P : Nat) (h : σ → Nat) (occ : Nat → List σ) (hh : ∀ s, s < P → ∀ f ∈ occ s, h f < P)

theorem requested_eq (r : Nat) (hr : r < P) :
    requested P h occ r = (List.range P).flatMap (fun s => required h r (occ s)) := by
  unfold requested
  exact exch_blocks P (fun _ => List.range P) (fun _ _ => List.Perm.refl _)
    (fun s d => required h d (occ s)) (counts h occ) (fun s _ d _ => rfl) _ (fun s _ => rfl) r hr

theorem requestBuf_map {τ : Type} (v : Nat → σ → τ) (l : List σ) :
    (List.range P).flatMap (fun s => (required h s l).map (v s)) =
      (requestBuf P h l).map (fun f => v (h f) f) := by
  rw [requestBuf, List.map_flatMap]
  apply List.flatMap_congr
  intro s _
  apply List.map_congr_left
  intro f hf
  rw [((mem_required h s l f).1 hf).2]

theorem requestBuf_flatMap {τ : Type} (v : Nat → σ → List τ) (l : List σ) :
    (List.range P).flatMap (fun s => (required h s l).flatMap (v s)) =
      (requestBuf P h l).flatMap (fun f => v (h f) f) := by
  rw [requestBuf, List.flatMap_assoc]
  apply List.flatMap_congr
  intro s _
  apply List.flatMap_congr
  intro f hf
  rw [((mem_required h s l f).1 hf).2]

theorem reply {τ : Type} (v : Nat → σ → τ) (r : Nat) (hr : r < P) :
    replyExchange P h occ (fun p => (requested P h occ p).map (v p)) r =
      (requestBuf P h (occ r)).map (fun f => v (h f) f) := by
  unfold replyExchange
  rw [exch_blocks P (fun _ => List.range P) (fun _ _ => List.Perm.refl _)
    (fun s d => (required h s (occ d)).map (v s)) _ (fun s _ d _ => by simp [counts])
    _ (fun s hs => by rw [requested_eq P h occ s hs, List.map_flatMap]) r hr]
  exact requestBuf_map P h v (occ r)

theorem filter_eq_map (f : σ) (p : Nat) : ∀ (l : List σ), l.Nodup →
    (l.filter (fun g => g = f)).map (fun _ => p) = if f ∈ l then [p] else []
  | [], _ => by simp
  | g :: l, hn => by
    rw [List.nodup_cons] at hn
    have ih := filter_eq_map f p l hn.2
    by_cases e : g = f
    · subst e
      rw [List.filter_cons_of_pos (by simp), List.map_cons, ih, if_neg hn.1]; simp
    · rw [List.filter_cons_of_neg (by simpa using e), ih]
      have : f ∈ g :: l ↔ f ∈ l := by
        rw [List.mem_cons]; exact or_iff_right (fun h => e h.symm)
      simp only [this]

theorem flatMap_ite {β : Type} (q : β → Prop) [DecidablePred q] : ∀ (l : List β),
    l.flatMap (fun x => if q x then [x] else []) = l.filter q
  | [] => rfl
  | x :: l => by
    rw [List.flatMap_cons, flatMap_ite q l]
    by_cases e : q x
    · rw [if_pos e, List.filter_cons_of_pos (by simpa using e)]; rfl
    · rw [if_neg e, List.filter_cons_of_neg (by simpa using e)]; rfl

theorem exch_congr {α : Type} (π : Nat → List Nat) (r : Nat) (hπ : ∀ s ∈ π r, s < P) (cnt : Nat → Nat → Nat)
    (b b' : Nat → List α) (hb : ∀ s, s < P → b s = b' s) : exch π cnt b r = exch π cnt b' r := by
  unfold exch
  apply List.flatMap_congr
  intro s hs
  rw [hb s (hπ s hs)]

/-- All ranks that hold `f`. -/
def holders (P : Nat) (occ : Nat → List σ) (f : σ) : List Nat :=
  (List.range P).filter (fun p => f ∈ occ p)

theorem holders_erase (occ : Nat → List σ) (p : Nat) (hp : p < P) (f : σ) (hf : f ∈ occ p) :
    ((holders P occ f).filter (fun s => s ≠ p)).length = (holders P occ f).length - 1 := by
  have hm : p ∈ holders P occ f := by simp [holders, hp, hf]
  have hn : (holders P occ f).Nodup := List.nodup_range.filter _
  have : (holders P occ f).filter (fun s => s ≠ p) = (holders P occ f).erase p := by
    rw [List.Nodup.erase_eq_filter hn]
    apply List.filter_congr
    intro s _
    simp [bne, BEq.beq, decide_not]
  rw [this, List.length_erase_of_mem hm]

end

/-! ## shared ranks, for any block structure

Rank `s` requests the faces `B s d` from rank `d`. -/
section
variable (P : Nat) (π : Nat → List Nat) (hπ : ∀ r, r < P → (π r).Perm (List.range P))
  (B : Nat → Nat → List σ) (hB : ∀ s, s < P → ∀ d, d < P → (B s d).Nodup)
  (cnt : Nat → Nat → Nat) (hcnt : ∀ s, s < P → ∀ d, d < P → cnt s d = (B s d).length)
  (req : Nat → List σ) (hreq : ∀ r, r < P → req r = (π r).flatMap (fun s => B s r))

include hπ hcnt hreq in
theorem rangeOf_map {τ : Type} (v : σ → τ) (r p : Nat) (hr : r < P) (hp : p < P) :
    rangeOf π cnt r ((req r).map v) p = (B p r).map v := by
  unfold rangeOf
  rw [hreq r hr, List.map_flatMap]
  have h := slice_of_blocks (π r) ((hπ r hr).nodup_iff.2 List.nodup_range) (fun s => (B s r).map v) p
    ((hπ r hr).mem_iff.2 (by simpa using hp))
  simp only [List.length_map] at h
  rw [hcnt p hp r hr]
  have e : ((π r).takeWhile (· ≠ p)).map (fun s => cnt s r) =
      ((π r).takeWhile (· ≠ p)).map (fun s => (B s r).length) := by
    apply List.map_congr_left
    intro s hs
    have hsP : s < P := by simpa using (hπ r hr).mem_iff.1 (List.takeWhile_subset _ hs)
    exact hcnt s hsP r hr
  rw [e]
  exact h

include hπ hcnt hreq in
theorem rangeOf_req (r p : Nat) (hr : r < P) (hp : p < P) : rangeOf π cnt r (req r) p = B p r := by
  have := rangeOf_map P π hπ B cnt hcnt req hreq id r p hr hp
  simpa using this

/-- Ranks that request `f` from `d`. -/
def reqHolders (P : Nat) (B : Nat → Nat → List σ) (d : Nat) (f : σ) : List Nat :=
  holders P (fun p => B p d) f

include hπ hB hcnt hreq in
theorem sharedInfo_eq (r : Nat) (hr : r < P) (f : σ) :
    sharedInfo P π cnt req r f = reqHolders P B r f := by
  unfold sharedInfo reqHolders holders
  rw [← flatMap_ite (fun p => f ∈ B p r)]
  apply List.flatMap_congr
  intro p hp
  have hpP : p < P := by simpa using hp
  rw [rangeOf_req P π hπ B cnt hcnt req hreq r p hr hpP, filter_eq_map f p _ (hB p hpP r hr)]

include hπ hB hcnt hreq in
theorem sharedSendCount_eq (r : Nat) (hr : r < P) :
    sharedSendCount P π cnt req r = (req r).map (fun f => (reqHolders P B r f).length - 1) := by
  unfold sharedSendCount
  apply List.map_congr_left
  intro f _
  rw [sharedInfo_eq P π hπ B hB cnt hcnt req hreq r hr f]

include hπ hB hcnt hreq in
theorem sharedRecvCount_eq (r : Nat) (hr : r < P) :
    sharedRecvCount P π cnt req r =
      (π r).flatMap (fun d => (B r d).map (fun f => (reqHolders P B d f).length - 1)) := by
  unfold sharedRecvCount
  exact exch_blocks P π hπ (fun s d => (B d s).map (fun f => (reqHolders P B s f).length - 1)) _
    (fun s hs d hd => by simp [hcnt d hd s hs]) _
    (fun s hs => by
      rw [sharedSendCount_eq P π hπ B hB cnt hcnt req hreq s hs, hreq s hs, List.map_flatMap]) r hr

/-- What rank `r` sends to rank `p` in the second exchange. -/
def sharedMsg (P : Nat) (B : Nat → Nat → List σ) (r p : Nat) : List Nat :=
  (B p r).flatMap (fun f => (reqHolders P B r f).filter (fun s => s ≠ p))

theorem sharedMsg_length (r p : Nat) (hp : p < P) : (sharedMsg P B r p).length =
    ((B p r).map (fun f => (reqHolders P B r f).length - 1)).sum := by
  unfold sharedMsg
  rw [List.length_flatMap]
  congr 1
  apply List.map_congr_left
  intro f hf
  exact holders_erase P (fun p => B p r) p hp f hf

include hπ hB hcnt hreq in
theorem sharedSendcounts_eq (r p : Nat) (hr : r < P) (hp : p < P) :
    sharedSendcounts P π cnt req r p = (sharedMsg P B r p).length := by
  unfold sharedSendcounts
  rw [sharedMsg_length P B r p hp, sharedSendCount_eq P π hπ B hB cnt hcnt req hreq r hr,
    rangeOf_map P π hπ B cnt hcnt req hreq _ r p hr hp]

include hπ hB hcnt hreq in
theorem sharedRecvcounts_eq (r p : Nat) (hr : r < P) (hp : p < P) :
    sharedRecvcounts P π cnt req r p = (sharedMsg P B p r).length := by
  unfold sharedRecvcounts
  rw [sharedMsg_length P B p r hr, sharedRecvCount_eq P π hπ B hB cnt hcnt req hreq r hr]
  have h := slice_of_blocks (π r) ((hπ r hr).nodup_iff.2 List.nodup_range)
    (fun s => (B r s).map (fun f => (reqHolders P B s f).length - 1)) p
    ((hπ r hr).mem_iff.2 (by simpa using hp))
  simp only [List.length_map] at h
  have e : ((π r).takeWhile (· ≠ p)).map (fun s => cnt r s) =
      ((π r).takeWhile (· ≠ p)).map (fun s => (B r s).length) := by
    apply List.map_congr_left
    intro s hs
    have hsP : s < P := by simpa using (hπ r hr).mem_iff.1 (List.takeWhile_subset _ hs)
    exact hcnt r hr s hsP
  rw [e, hcnt r hr p hp, h]

include hπ hB hcnt hreq in
theorem requestedShared_eq (r : Nat) (hr : r < P) :
    requestedShared P π cnt req r = (π r).flatMap (sharedMsg P B r) := by
  unfold requestedShared sharedMsg
  apply List.flatMap_congr
  intro p hp
  have hpP : p < P := by simpa using (hπ r hr).mem_iff.1 hp
  rw [rangeOf_req P π hπ B cnt hcnt req hreq r p hr hpP]
  apply List.flatMap_congr
  intro f _
  rw [sharedInfo_eq P π hπ B hB cnt hcnt req hreq r hr f]

include hπ hB hcnt hreq in
theorem sharedRanks_eq (r : Nat) (hr : r < P) :
    sharedRanks P π cnt req r = (π r).flatMap (fun d =>
      (B r d).flatMap (fun f => (reqHolders P B d f).filter (fun s => s ≠ r))) := by
  unfold sharedRanks
  rw [exch_blocks P π hπ (sharedMsg P B) _
    (fun s hs d hd => sharedSendcounts_eq P π hπ B hB cnt hcnt req hreq s d hs hd) _
    (fun s hs => requestedShared_eq P π hπ B hB cnt hcnt req hreq s hs) r hr]
  rfl
end

section
variable (P : Nat) (h : σ → Nat) (occ : Nat → List σ) (hh : ∀ s, s < P → ∀ f ∈ occ s, h f < P)

theorem mem_requested (r : Nat) (hr : r < P) (f : σ) :
    f ∈ requested P h occ r ↔ h f = r ∧ ∃ s, s < P ∧ f ∈ occ s := by
  rw [requested_eq P h occ r hr]
  simp only [List.mem_flatMap, List.mem_range, mem_required]
  constructor
  · rintro ⟨s, a, b, c⟩; exact ⟨c, s, a, b⟩
  · rintro ⟨c, s, a, b⟩; exact ⟨s, a, b, c⟩

theorem reqHolders_faces (d : Nat) (f : σ) (hf : h f = d) :
    reqHolders P (fun s d => required h d (occ s)) d f = holders P occ f := by
  unfold reqHolders holders
  apply List.filter_congr
  intro p _
  simp only [mem_required, hf, and_true]

theorem facesRecvCount_eq (r : Nat) (hr : r < P) :
    sharedRecvCount P (fun _ => List.range P) (counts h occ) (requested P h occ) r =
      (requestBuf P h (occ r)).map (fun f => (holders P occ f).length - 1) := by
  rw [sharedRecvCount_eq P (fun _ => List.range P) (fun _ _ => List.Perm.refl _)
    (fun s d => required h d (occ s)) (fun s _ d _ => required_nodup h d _) (counts h occ)
    (fun s _ d _ => rfl) (requested P h occ) (fun r hr => requested_eq P h occ r hr) r hr]
  rw [← requestBuf_map P h (fun _ f => (holders P occ f).length - 1) (occ r)]
  apply List.flatMap_congr
  intro d _
  apply List.map_congr_left
  intro f hf
  rw [reqHolders_faces P h occ d f ((mem_required h d _ f).1 hf).2]

theorem facesRanks_eq (r : Nat) (hr : r < P) :
    sharedRanks P (fun _ => List.range P) (counts h occ) (requested P h occ) r =
      (requestBuf P h (occ r)).flatMap (fun f => (holders P occ f).filter (fun s => s ≠ r)) := by
  rw [sharedRanks_eq P (fun _ => List.range P) (fun _ _ => List.Perm.refl _)
    (fun s d => required h d (occ s)) (fun s _ d _ => required_nodup h d _) (counts h occ)
    (fun s _ d _ => rfl) (requested P h occ) (fun r hr => requested_eq P h occ r hr) r hr]
  rw [← requestBuf_flatMap P h (fun _ f => (holders P occ f).filter (fun s => s ≠ r)) (occ r)]
  apply List.flatMap_congr
  intro d _
  apply List.flatMap_congr
  intro f hf
  rw [reqHolders_faces P h occ d f ((mem_required h d _ f).1 hf).2]

theorem requestBuf_nodup (l : List σ) : (requestBuf P h l).Nodup := by
  unfold requestBuf
  rw [List.nodup_flatMap]
  refine ⟨fun p _ => required_nodup h p l, ?_⟩
  refine List.Pairwise.imp ?_ (List.nodup_range (n := P))
  intro a b hab f ha hb
  exact hab (((mem_required h a l f).1 ha).2.symm.trans ((mem_required h b l f).1 hb).2)

theorem mem_requestBuf (l : List σ) (hl : ∀ f ∈ l, h f < P) (f : σ) : f ∈ requestBuf P h l ↔ f ∈ l := by
  unfold requestBuf
  simp only [List.mem_flatMap, List.mem_range, mem_required]
  constructor
  · rintro ⟨_, _, a, _⟩; exact a
  · intro hf; exact ⟨h f, hl f hf, hf, rfl⟩

theorem ownerBuf_eq (l : List σ) : ownerBuf P h l = (requestBuf P h l).map h := by
  unfold ownerBuf requestBuf
  rw [List.map_flatMap]
  apply List.flatMap_congr
  intro p _
  symm
  rw [List.eq_replicate_iff]
  refine ⟨by simp, ?_⟩
  intro b hb
  obtain ⟨f, hf, rfl⟩ := List.mem_map.1 hb
  exact ((mem_required h p l f).1 hf).2

/-! ## global numbers -/

theorem ownedSet_spec (r : Nat) (hr : r < P) : (ownedSet P h occ r).Pairwise (· < ·) ∧
    ∀ f, f ∈ ownedSet P h occ r ↔ h f = r ∧ ∃ s, s < P ∧ f ∈ occ s := by
  have := required_aux (fun _ : σ => 0) 0 (requested P h occ r) [] (by simp)
  simp only [if_true] at this
  refine ⟨this.1, fun f => ?_⟩
  unfold ownedSet
  rw [this.2 f, ← mem_requested P h occ r hr f]
  simp

/-- All faces of the mesh, rendezvous rank by rendezvous rank. -/
def allFaces (P : Nat) (h : σ → Nat) (occ : Nat → List σ) : List σ :=
  (List.range P).flatMap (ownedSet P h occ)

theorem allFaces_nodup : (allFaces P h occ).Nodup := by
  unfold allFaces
  rw [List.nodup_flatMap]
  refine ⟨fun r hr => nodup_of_sorted (ownedSet_spec P h occ r (by simpa using hr)).1, ?_⟩
  refine List.Pairwise.imp_of_mem ?_ (List.nodup_range (n := P))
  intro a b ha hb hab f h1 h2
  exact hab ((((ownedSet_spec P h occ a (by simpa using ha)).2 f).1 h1).1.symm.trans
    (((ownedSet_spec P h occ b (by simpa using hb)).2 f).1 h2).1)

include hh in
theorem mem_allFaces (f : σ) : f ∈ allFaces P h occ ↔ ∃ s, s < P ∧ f ∈ occ s := by
  unfold allFaces
  rw [List.mem_flatMap]
  constructor
  · rintro ⟨r, hr, hf⟩
    exact (((ownedSet_spec P h occ r (by simpa using hr)).2 f).1 hf).2
  · rintro ⟨s, hs, hf⟩
    have hlt := hh s hs f hf
    exact ⟨h f, by simpa using hlt, ((ownedSet_spec P h occ (h f) hlt).2 f).2 ⟨rfl, s, hs, hf⟩⟩

theorem cGID_eq (f : σ) (hf : f ∈ ownedSet P h occ (h f)) (hlt : h f < P) :
    cGID P h occ (h f) f = (allFaces P h occ).idxOf f := by
  have hsplit : List.range P = List.range (h f) ++ (h f :: (List.range P).drop (h f + 1)) := by
    have e := List.take_append_drop (h f) (List.range P)
    rw [List.take_range, Nat.min_eq_left (Nat.le_of_lt hlt)] at e
    conv => lhs; rw [← e]
    congr 1
    rw [List.drop_eq_getElem_cons (by simpa using hlt)]
    simp
  unfold allFaces
  rw [hsplit, List.flatMap_append, List.flatMap_cons, List.idxOf_append_of_notMem,
    List.idxOf_append_of_mem hf]
  · unfold cGID gidOffset
    rw [List.range_succ, List.map_append, List.sum_append, List.length_flatMap]
    simp
  · rw [List.mem_flatMap]
    rintro ⟨s, hs, hm⟩
    have hsl : s < h f := by simpa using hs
    have := (((ownedSet_spec P h occ s (by omega)).2 f).1 hm).1
    omega
end

end Tandem.Faces
