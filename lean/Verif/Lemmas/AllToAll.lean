import Verif.Props.CommPattern
namespace Tandem.CommPattern

/-- A concatenation of blocks can be cut back into the blocks. -/
theorem slice_of_blocks {α} (L : List Nat) (hn : L.Nodup) (msg : Nat → List α) (r : Nat) (hr : r ∈ L) :
    slice (L.flatMap msg) ((L.takeWhile (· ≠ r)).map (fun d => (msg d).length)).sum (msg r).length =
      msg r := by
  induction L with
  | nil => simp at hr
  | cons a L ih =>
    rw [List.nodup_cons] at hn
    by_cases h : a = r
    · subst h; simp [slice]
    · have hr' : r ∈ L := by
        rcases List.mem_cons.1 hr with h' | h'
        · exact absurd h'.symm h
        · exact h'
      rw [List.takeWhile_cons_of_pos (by simpa using h), List.map_cons, List.sum_cons, List.flatMap_cons]
      have := ih hn.2 hr'
      rw [← this]
      unfold slice
      rw [← List.drop_drop, List.drop_left]
      congr 1
      rw [show (L.flatMap msg).drop _ = _ from rfl]
      have e := ih hn.2 hr'
      unfold slice at e
      rw [e]

/-- Cutting a buffer and putting the pieces together gives the buffer. -/
theorem blocks_of_slices {α} (L : List Nat) (hn : L.Nodup) (c : Nat → Nat) : ∀ (buf : List α),
    buf.length = (L.map c).sum →
    L.flatMap (fun d => slice buf ((L.takeWhile (· ≠ d)).map c).sum (c d)) = buf := by
  induction L with
  | nil => intro buf h; simp at h; simp [h]
  | cons a L ih =>
    intro buf h
    rw [List.nodup_cons] at hn
    rw [List.flatMap_cons]
    have h1 : slice buf (((a :: L).takeWhile (· ≠ a)).map c).sum (c a) = buf.take (c a) := by
      simp [slice]
    have h2 : L.flatMap (fun d => slice buf (((a :: L).takeWhile (· ≠ d)).map c).sum (c d)) =
        L.flatMap (fun d => slice (buf.drop (c a)) ((L.takeWhile (· ≠ d)).map c).sum (c d)) := by
      apply List.flatMap_congr
      intro d hd
      have hne : a ≠ d := fun e => hn.1 (e ▸ hd)
      rw [List.takeWhile_cons_of_pos (by simpa using hne), List.map_cons, List.sum_cons]
      unfold slice
      rw [List.drop_drop]
    rw [h1, h2, ih hn.2 (buf.drop (c a)) (by simp at h ⊢; omega), List.take_append_drop]

/-- Delivery, for buffers that are concatenations of blocks. -/
theorem exch_blocks {α} (P : Nat) (π : Nat → List Nat) (hπ : ∀ r, r < P → (π r).Perm (List.range P))
    (msgs : Nat → Nat → List α) (cnt : Nat → Nat → Nat)
    (hcnt : ∀ s, s < P → ∀ d, d < P → cnt s d = (msgs s d).length)
    (bufs : Nat → List α) (hb : ∀ s, s < P → bufs s = (π s).flatMap (msgs s)) (r : Nat) (hr : r < P) :
    exch π cnt bufs r = (π r).flatMap (fun s => msgs s r) := by
  unfold exch
  apply List.flatMap_congr
  intro s hs
  have hsP : s < P := by simpa using (hπ r hr).mem_iff.1 hs
  rw [hb s hsP, hcnt s hsP r hr]
  have e : ((π s).takeWhile (· ≠ r)).map (cnt s) = ((π s).takeWhile (· ≠ r)).map (fun d => (msgs s d).length) := by
    apply List.map_congr_left
    intro d hd
    have hdP : d < P := by
      simpa using (hπ s hsP).mem_iff.1 (List.takeWhile_subset _ hd)
    exact hcnt s hsP d hdP
  rw [e]
  exact slice_of_blocks (π s) ((hπ s hsP).nodup_iff.2 List.nodup_range) (msgs s) r
    ((hπ s hsP).mem_iff.2 (by simpa using hr))

/-- The member-level model of `AllToAllV` computes `exch`. -/
theorem exchange_eq_exch {α} (zero : α) (P : Nat) (π : Nat → List Nat)
    (hπ : ∀ r, r < P → (π r).Perm (List.range P)) (cnt : Nat → Nat → Nat)
    (allSend : List (List Nat)) (hall : allSend = (List.range P).map (fun s => (List.range P).map (cnt s)))
    (as : List A2A) (hlen : as.length = P)
    (has : ∀ r, r < P → as[r]? = (make allSend r).bind (setRankPermutation (π r)))
    (bufs : Nat → List α) (hbl : ∀ s, s < P → (bufs s).length = ((List.range P).map (cnt s)).sum)
    (sends : List (List α)) (hs : ∀ s, s < P → sends[s]? = some (bufs s))
    (r : Nat) (hr : r < P) (arrival : List Nat) (ha : arrival.Perm (List.range P)) :
    exchange zero as sends r arrival = exch π cnt bufs r := by
  let msgs : Nat → Nat → List α := fun s d =>
    slice (bufs s) (((π s).takeWhile (· ≠ d)).map (cnt s)).sum (cnt s d)
  have hsum : ∀ s, s < P → (bufs s).length = ((π s).map (cnt s)).sum := by
    intro s hsP
    rw [hbl s hsP]
    exact (((hπ s hsP).map (cnt s)).sum_nat).symm
  have hcat : ∀ s, s < P → (π s).flatMap (msgs s) = bufs s := fun s hsP =>
    blocks_of_slices (π s) ((hπ s hsP).nodup_iff.2 List.nodup_range) (cnt s) (bufs s) (hsum s hsP)
  have hml : ∀ s, s < P → ∀ d, d < P → (msgs s d).length = cnt s d := by
    intro s hsP d hd
    have hdm : d ∈ π s := (hπ s hsP).mem_iff.2 (by simpa using hd)
    apply slice_length
    rw [hsum s hsP]
    have hsplit : π s = (π s).takeWhile (· ≠ d) ++ (π s).dropWhile (· ≠ d) :=
      (List.takeWhile_append_dropWhile).symm
    have hhead : ∃ t, (π s).dropWhile (· ≠ d) = d :: t := by
      clear hsplit
      generalize π s = L at hdm
      induction L with
      | nil => simp at hdm
      | cons a L ih =>
        by_cases h : a = d
        · exact ⟨L, by simp [h]⟩
        · rw [List.dropWhile_cons_of_pos (by simpa using h)]
          exact ih (by rcases List.mem_cons.1 hdm with h' | h'
                       · exact absurd h'.symm h
                       · exact h')
    obtain ⟨t, ht⟩ := hhead
    conv => rhs; rw [hsplit, ht]
    rw [List.map_append, List.sum_append, List.map_cons, List.sum_cons]
    omega
  have hcounts : allSend = countsOf P msgs := by
    rw [hall]
    unfold countsOf
    apply List.map_congr_left
    intro s hsm
    apply List.map_congr_left
    intro d hdm
    exact (hml s (by simpa using hsm) d (by simpa using hdm)).symm
  rw [hcounts] at has
  have := C17_exchange zero P msgs π hπ as hlen has sends (fun s hsP => by rw [hs s hsP, hcat s hsP])
    r hr arrival ha
  rw [this]
  rfl

/-- Ascending rank order, the default. -/
def natural (P : Nat) : Nat → List Nat := fun _ => List.range P

theorem natural_perm (P r : Nat) : (natural P r).Perm (List.range P) := List.Perm.refl _

end Tandem.CommPattern
