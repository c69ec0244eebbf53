import Verif.Model.ScatterPlan
import Verif.Lemmas.CommPattern
namespace Tandem.ScatterPlan
open Tandem.CommPattern

/-! ## Sparse block vector -/

theorem foldSet_notMem (l : List Nat) : ∀ (k0 : Nat) (g : List Nat) (i : Nat), i ∉ l →
    ((l.zipIdx k0).foldl (fun g2l p => g2l.set p.1 p.2) g)[i]? = g[i]? := by
  induction l with
  | nil => intro k0 g i _; rfl
  | cons a l ih =>
    intro k0 g i hi
    rw [List.zipIdx_cons, List.foldl_cons, ih (k0 + 1) _ i (fun h => hi (by simp [h]))]
    exact List.getElem?_set_ne (fun h => hi (by simp at h; simp [h]))

theorem foldSet_length (l : List Nat) : ∀ (k0 : Nat) (g : List Nat),
    ((l.zipIdx k0).foldl (fun g2l p => g2l.set p.1 p.2) g).length = g.length := by
  induction l with
  | nil => intro k0 g; rfl
  | cons a l ih => intro k0 g; rw [List.zipIdx_cons, List.foldl_cons, ih]; simp

theorem foldSet_mem (l : List Nat) : ∀ (k0 : Nat) (g : List Nat) (i k : Nat), (∀ a ∈ l, a < g.length) →
    l[k]? = some i → (∀ j, k < j → l[j]? ≠ some i) →
    ((l.zipIdx k0).foldl (fun g2l p => g2l.set p.1 p.2) g)[i]? = some (k0 + k) := by
  induction l with
  | nil => intro k0 g i k _ h; simp at h
  | cons a l ih =>
    intro k0 g i k hb hk hlast
    rw [List.zipIdx_cons, List.foldl_cons]
    cases k with
    | zero =>
      simp at hk
      subst hk
      rw [foldSet_notMem]
      · exact List.getElem?_set_self (hb a (by simp))
      · intro hm
        obtain ⟨j, hj, he⟩ := List.getElem_of_mem hm
        exact hlast (j + 1) (by omega) (by simp [List.getElem?_eq_getElem hj, he])
    | succ k =>
      rw [ih (k0 + 1) _ i k (fun b hb' => by simpa using hb b (by simp [hb'])) (by simpa using hk)
        (fun j hj => by simpa using hlast (j + 1) (by omega))]
      congr 1; omega

theorem exists_last (l : List Nat) (i : Nat) (h : i ∈ l) :
    ∃ k, k < l.length ∧ l[k]? = some i ∧ ∀ j, k < j → l[j]? ≠ some i := by
  induction l with
  | nil => simp at h
  | cons a l ih =>
    by_cases hm : i ∈ l
    · obtain ⟨k, h0, h1, h2⟩ := ih hm
      refine ⟨k + 1, by simpa using h0, by simpa using h1, ?_⟩
      intro j hj
      obtain ⟨j', rfl⟩ : ∃ j', j = j' + 1 := ⟨j - 1, by omega⟩
      simpa using h2 j' (by omega)
    · have : i = a := by
        rcases List.mem_cons.1 h with h | h
        · exact h
        · exact absurd h hm
      subst this
      refine ⟨0, by simp, by simp, ?_⟩
      intro j hj he
      obtain ⟨j', rfl⟩ : ∃ j', j = j' + 1 := ⟨j - 1, by omega⟩
      simp at he
      exact hm (List.mem_of_getElem? he)

theorem max_bound (l : List Nat) (m : Nat) (h : l.max? = some m) : ∀ a ∈ l, a < m + 1 := by
  intro a ha
  have := (List.max?_eq_some_iff.1 h).2 a ha
  omega

theorem globalToLocal_mem (l2g : List Nat) (i k : Nat) (hk : l2g[k]? = some i)
    (hlast : ∀ j, k < j → l2g[j]? ≠ some i) : (globalToLocal l2g)[i]? = some k := by
  unfold globalToLocal
  cases hm : l2g.max? with
  | none =>
    rw [List.max?_eq_none_iff.1 hm] at hk; simp at hk
  | some m =>
    simp only
    rw [foldSet_mem l2g 0 _ i k (by simpa using max_bound l2g m hm) hk hlast]
    simp

theorem globalToLocal_notMem (l2g : List Nat) (i : Nat) (hi : i ∉ l2g) :
    (globalToLocal l2g)[i]? = none ∨ (globalToLocal l2g)[i]? = some invalid := by
  unfold globalToLocal
  cases hm : l2g.max? with
  | none =>
    left; rw [List.max?_eq_none_iff.1 hm]; simp
  | some m =>
    simp only
    rw [foldSet_notMem l2g 0 _ i hi, List.getElem?_replicate]
    split
    · right; rfl
    · left; rfl

theorem blockOffset_last (l2g : List Nat) (bs i k : Nat) (hk : l2g[k]? = some i)
    (hlast : ∀ j, k < j → l2g[j]? ≠ some i) (hlen : l2g.length ≤ invalid) :
    blockOffset l2g bs i = some (k * bs) := by
  have hlt : k < l2g.length := by
    apply Classical.byContradiction; intro h
    rw [List.getElem?_eq_none (by omega)] at hk; simp at hk
  rw [blockOffset, globalToLocal_mem l2g i k hk hlast]
  simp only
  rw [if_neg (by omega)]

/-! ## Slices made of equal blocks -/

theorem slice_mid {α} (A B C : List α) (a b : Nat) (ha : a = A.length) (hb : b = B.length) :
    slice (A ++ (B ++ C)) a b = B := by
  subst ha hb
  rw [slice, List.drop_left, List.take_left]

theorem flatMap_len {α} (L : List Nat) (blk : Nat → List α) (bs : Nat) (h : ∀ i ∈ L, (blk i).length = bs) :
    (L.flatMap blk).length = L.length * bs := by
  induction L with
  | nil => simp
  | cons a L ih =>
    rw [List.flatMap_cons, List.length_append, h a (by simp), ih (fun i hi => h i (by simp [hi])),
      List.length_cons, Nat.add_mul]
    omega

theorem slice_flatMap {α} (L : List Nat) (blk : Nat → List α) (bs k f : Nat)
    (h : ∀ i ∈ L, (blk i).length = bs) (hk : L[k]? = some f) :
    slice (L.flatMap blk) (k * bs) bs = blk f := by
  have hlt : k < L.length := by
    apply Classical.byContradiction; intro h
    rw [List.getElem?_eq_none (by omega)] at hk; simp at hk
  have hs : L = L.take k ++ f :: L.drop (k + 1) := by
    rw [List.getElem?_eq_getElem hlt] at hk
    rw [← Option.some.inj hk, List.getElem_cons_drop, List.take_append_drop]
  have e : L.flatMap blk = (L.take k).flatMap blk ++ (blk f ++ (L.drop (k + 1)).flatMap blk) := by
    conv => lhs; rw [hs]
    rw [List.flatMap_append, List.flatMap_cons]
  rw [e]
  apply slice_mid
  · rw [flatMap_len _ _ bs (fun i hi => h i (List.mem_of_mem_take hi)), List.length_take]
    congr 1; omega
  · rw [h f (List.mem_of_getElem? hk)]

theorem slice_get {α} (T : List α) (o n i : Nat) :
    (slice T o n)[i]? = if i < n then T[o + i]? else none := by
  unfold slice
  rw [List.getElem?_take]
  split
  · rw [List.getElem?_drop]
  · rfl

theorem slice_block_bound {a b bs n : Nat} (h : a + 1 ≤ b) (hb : b * bs ≤ n) : a * bs + bs ≤ n := by
  have : (a + 1) * bs ≤ b * bs := Nat.mul_le_mul_right _ h
  rw [Nat.add_mul] at this
  omega

theorem writeAt_getElem? {α} (buf data : List α) (off i : Nat) (h : off + data.length ≤ buf.length) :
    (writeAt buf off data)[i]? =
      if off ≤ i ∧ i < off + data.length then data[i - off]? else buf[i]? := by
  unfold writeAt
  rw [List.append_assoc, List.getElem?_append, List.length_take]
  by_cases h1 : i < off
  · rw [if_pos (by omega), if_neg (by omega), List.getElem?_take, if_pos h1]
  · rw [if_neg (by omega), List.getElem?_append]
    by_cases h2 : i < off + data.length
    · rw [if_pos (by omega), if_pos (by omega)]
      congr 1; omega
    · rw [if_neg (by omega), if_neg (by omega), List.getElem?_drop]
      congr 1; omega

theorem slice_writeAt {α} (data v : List α) (i j bs : Nat) (hv : v.length = bs)
    (hi : i * bs + bs ≤ data.length) :
    slice (writeAt data (i * bs) v) (j * bs) bs = if i = j then v else slice data (j * bs) bs := by
  apply List.ext_getElem?
  intro q
  rw [slice_get]
  by_cases hq : q < bs
  · rw [if_pos hq, writeAt_getElem? _ _ _ _ (by omega)]
    by_cases hij : i = j
    · subst hij
      rw [if_pos (by omega), if_pos rfl]
      congr 1; omega
    · rw [if_neg hij, if_neg, slice_get, if_pos hq]
      rintro ⟨h1, h2⟩
      rcases Nat.lt_or_gt_of_ne hij with h | h
      · have : (i + 1) * bs ≤ j * bs := Nat.mul_le_mul_right _ h
        rw [Nat.add_mul] at this; omega
      · have : (j + 1) * bs ≤ i * bs := Nat.mul_le_mul_right _ h
        rw [Nat.add_mul] at this; omega
  · rw [if_neg hq]
    split
    · rw [List.getElem?_eq_none (by omega)]
    · rw [slice_get, if_neg hq]

/-! ## Maps -/

/-- value stored under a key; empty if absent -/
def look (m : List (Nat × List Nat)) (k : Nat) : List Nat :=
  ((m.find? (fun p => p.1 = k)).map (fun p => p.2)).getD []

/-- distinct keys, non-empty values -/
structure WF (m : List (Nat × List Nat)) : Prop where
  nodup : (m.map (fun p => p.1)).Nodup
  ne : ∀ p ∈ m, p.2 ≠ []

theorem look_cons (a : Nat × List Nat) (m : List (Nat × List Nat)) (k : Nat) :
    look (a :: m) k = if a.1 = k then a.2 else look m k := by
  unfold look
  rw [List.find?_cons]
  by_cases h : a.1 = k <;> simp [h]

theorem look_of_not_key (m : List (Nat × List Nat)) (k : Nat) (h : k ∉ m.map (fun p => p.1)) :
    look m k = [] := by
  induction m with
  | nil => rfl
  | cons a m ih =>
    rw [look_cons, if_neg (fun he => h (by simp [he])), ih (fun hm => h (by simp [hm]))]

theorem WF.tail {a m} (h : WF (a :: m)) : WF m := by
  refine ⟨?_, fun p hp => h.ne p (by simp [hp])⟩
  have := h.nodup
  simp at this
  exact this.2

theorem WF.mem_iff {m} (h : WF m) (k : Nat) (l : List Nat) :
    (k, l) ∈ m ↔ l ≠ [] ∧ look m k = l := by
  induction m with
  | nil => simp [look]
  | cons a m ih =>
    have hn := h.nodup
    simp only [List.map_cons, List.nodup_cons] at hn
    rw [List.mem_cons, ih h.tail, look_cons]
    constructor
    · rintro (rfl | ⟨h1, h2⟩)
      · exact ⟨h.ne (k, l) (by simp), by simp⟩
      · refine ⟨h1, ?_⟩
        rw [if_neg, h2]
        intro he
        rw [he] at hn
        rw [look_of_not_key m k hn.1] at h2
        exact h1 h2.symm
    · rintro ⟨h1, h2⟩
      by_cases he : a.1 = k
      · rw [if_pos he] at h2
        left; rw [← he, ← h2]
      · rw [if_neg he] at h2
        exact Or.inr ⟨h1, h2⟩

theorem WF.perm {m m'} (h : WF m) (hp : m'.Perm m) : WF m' :=
  ⟨(hp.map _).nodup_iff.2 h.nodup, fun p hm => h.ne p (hp.mem_iff.1 hm)⟩

theorem WF.look_perm {m m'} (h : WF m) (hp : m'.Perm m) (k : Nat) : look m' k = look m k := by
  by_cases he : look m k = []
  · apply Classical.byContradiction
    intro hne
    rw [he] at hne
    have := hp.mem_iff.1 (((h.perm hp).mem_iff k (look m' k)).2 ⟨hne, rfl⟩)
    exact hne (he ▸ ((h.mem_iff k _).1 this).2.symm)
  · have := hp.mem_iff.2 ((h.mem_iff k (look m k)).2 ⟨he, rfl⟩)
    exact (((h.perm hp).mem_iff k _).1 this).2

theorem look_push (m : List (Nat × List Nat)) (k v k' : Nat) :
    look (push k v m) k' = if k' = k then look m k ++ [v] else look m k' := by
  induction m with
  | nil =>
    rw [push, look_cons]
    by_cases h : k' = k
    · subst h; simp [look]
    · rw [if_neg (fun h' => h h'.symm), if_neg h]
  | cons a m ih =>
    rw [push]
    by_cases ha : a.1 = k
    · rw [if_pos ha, look_cons, look_cons, look_cons, if_pos ha]
      simp only
      by_cases h : k' = k
      · subst h; simp [ha]
      · rw [if_neg (fun h' => h (h'.symm.trans ha)), if_neg h, if_neg (fun h' => h (h'.symm.trans ha))]
    · rw [if_neg ha, look_cons, look_cons, look_cons, ih, if_neg ha]
      simp only
      by_cases h : k' = k
      · subst h; rw [if_neg ha, if_pos rfl, if_pos rfl]
      · rw [if_neg h, if_neg h]

theorem push_keys (m : List (Nat × List Nat)) (k v x : Nat) :
    x ∈ (push k v m).map (fun p => p.1) ↔ x = k ∨ x ∈ m.map (fun p => p.1) := by
  induction m with
  | nil => simp [push]
  | cons a m ih =>
    rw [push]
    by_cases ha : a.1 = k
    · rw [if_pos ha]
      simp only [List.map_cons, List.mem_cons, ← ha]
      tauto
    · rw [if_neg ha]
      simp only [List.map_cons, List.mem_cons, ih]
      tauto

theorem WF.push {m} (h : WF m) (k v : Nat) : WF (push k v m) := by
  induction m with
  | nil => exact ⟨by simp [ScatterPlan.push], by simp [ScatterPlan.push]⟩
  | cons a m ih =>
    have hn := h.nodup
    simp only [List.map_cons, List.nodup_cons] at hn
    rw [ScatterPlan.push]
    by_cases ha : a.1 = k
    · rw [if_pos ha]
      refine ⟨by simpa using h.nodup, ?_⟩
      intro p hp
      rcases List.mem_cons.1 hp with rfl | hp
      · simp
      · exact h.ne p (by simp [hp])
    · rw [if_neg ha]
      have ih' := ih h.tail
      refine ⟨?_, ?_⟩
      · simp only [List.map_cons, List.nodup_cons]
        refine ⟨?_, ih'.nodup⟩
        rw [push_keys]
        rintro (h1 | h1)
        · exact ha h1
        · exact hn.1 h1
      · intro p hp
        rcases List.mem_cons.1 hp with rfl | hp
        · exact h.ne _ (by simp)
        · exact ih'.ne p hp

theorem foldPush_look (L : List Nat) (v : Nat) : ∀ (m : List (Nat × List Nat)) (k : Nat), L.Nodup →
    look (L.foldl (fun m sh => push sh v m) m) k = look m k ++ (if k ∈ L then [v] else []) := by
  induction L with
  | nil => intro m k _; simp
  | cons a L ih =>
    intro m k hn
    simp only [List.nodup_cons] at hn
    rw [List.foldl_cons, ih _ k hn.2, look_push]
    by_cases h : k = a
    · subst h; simp [hn.1]
    · simp [h]

theorem foldPush_WF (L : List Nat) (v : Nat) : ∀ (m : List (Nat × List Nat)), WF m →
    WF (L.foldl (fun m sh => push sh v m) m) := by
  induction L with
  | nil => intro m h; exact h
  | cons a L ih => intro m h; exact ih _ (h.push a v)

/-- local indices of the owned faces that `d` shares -/
def sendList (rank : Nat) (faces : List Face) (d : Nat) : List Nat :=
  (faces.zipIdx.filter (fun p => p.1.owner = rank ∧ d ∈ p.1.shared)).map (fun p => p.2)

/-- local indices of the faces owned by `o ≠ rank` -/
def recvList (rank : Nat) (faces : List Face) (o : Nat) : List Nat :=
  (faces.zipIdx.filter (fun p => p.1.owner ≠ rank ∧ p.1.owner = o)).map (fun p => p.2)

theorem planFold (rank : Nat) (L : List (Face × Nat)) (hn : ∀ p ∈ L, p.1.shared.Nodup) :
    ∀ maps : List (Nat × List Nat) × List (Nat × List Nat), WF maps.1 → WF maps.2 →
      WF (L.foldl (planStep rank) maps).1 ∧ WF (L.foldl (planStep rank) maps).2 ∧
      (∀ d, look (L.foldl (planStep rank) maps).1 d = look maps.1 d ++
        (L.filter (fun p => p.1.owner = rank ∧ d ∈ p.1.shared)).map (fun p => p.2)) ∧
      (∀ o, look (L.foldl (planStep rank) maps).2 o = look maps.2 o ++
        (L.filter (fun p => p.1.owner ≠ rank ∧ p.1.owner = o)).map (fun p => p.2)) := by
  induction L with
  | nil => intro maps h1 h2; exact ⟨h1, h2, by simp, by simp⟩
  | cons p L ih =>
    intro maps h1 h2
    rw [List.foldl_cons]
    have hp := hn p (by simp)
    by_cases ho : p.1.owner = rank
    · have e : planStep rank maps p = (p.1.shared.foldl (fun m sh => push sh p.2 m) maps.1, maps.2) := by
        rw [planStep, if_pos ho]
      rw [e]
      obtain ⟨g1, g2, g3, g4⟩ := ih (fun q hq => hn q (by simp [hq])) (p.1.shared.foldl (fun m sh => push sh p.2 m) maps.1, maps.2)
        (foldPush_WF p.1.shared p.2 maps.1 h1) h2
      refine ⟨g1, g2, ?_, ?_⟩
      · intro d
        rw [g3 d, foldPush_look _ _ _ _ hp, List.filter_cons]
        by_cases hd : d ∈ p.1.shared <;> simp [hd, ho]
      · intro o
        rw [g4 o, List.filter_cons]
        simp [ho]
    · have e : planStep rank maps p = (maps.1, push p.1.owner p.2 maps.2) := by
        rw [planStep, if_neg ho]
      rw [e]
      obtain ⟨g1, g2, g3, g4⟩ := ih (fun q hq => hn q (by simp [hq]))
        (maps.1, push p.1.owner p.2 maps.2) h1 (h2.push p.1.owner p.2)
      refine ⟨g1, g2, ?_, ?_⟩
      · intro d
        rw [g3 d, List.filter_cons]
        simp [ho]
      · intro o
        rw [g4 o, List.filter_cons, look_push]
        by_cases hd : o = p.1.owner
        · subst hd; simp [ho]
        · have : ¬ p.1.owner = o := fun h => hd h.symm
          simp [hd, this]

theorem planMaps_spec (rank : Nat) (faces : List Face) (hn : ∀ f ∈ faces, f.shared.Nodup) :
    WF (planMaps rank faces).1 ∧ WF (planMaps rank faces).2 ∧
    (∀ d, look (planMaps rank faces).1 d = sendList rank faces d) ∧
    (∀ o, look (planMaps rank faces).2 o = recvList rank faces o) := by
  obtain ⟨h1, h2, h3, h4⟩ := planFold rank faces.zipIdx
    (fun p hp => hn p.1 (List.fst_mem_of_mem_zipIdx hp)) ([], [])
    ⟨by simp, by simp⟩ ⟨by simp, by simp⟩
  exact ⟨h1, h2, fun d => by rw [planMaps, h3 d]; simp [look, sendList],
    fun o => by rw [planMaps, h4 o]; simp [look, recvList]⟩

/-! ## Blocks -/

theorem makeIndices_append (a b : List (Nat × List Nat)) :
    makeIndices (a ++ b) = makeIndices a ++ makeIndices b := by
  simp [makeIndices]

theorem makeBlocks_split (pre post : List (Nat × List Nat)) (k : Nat) (l : List Nat) : ∀ off,
    makeBlocks off (pre ++ (k, l) :: post) =
      makeBlocks off pre ++ ⟨off + (makeIndices pre).length, l.length, k⟩ ::
        makeBlocks (off + (makeIndices pre).length + l.length) post := by
  induction pre with
  | nil => intro off; simp [makeBlocks, makeIndices]
  | cons a pre ih =>
    intro off
    obtain ⟨k', l'⟩ := a
    simp only [List.cons_append, makeBlocks, ih (off + l'.length), makeIndices, List.flatMap_cons,
      List.length_append, Nat.add_assoc]

theorem makeBlocks_peers (m : List (Nat × List Nat)) : ∀ off,
    (makeBlocks off m).map (fun b => b.peer) = m.map (fun p => p.1) := by
  induction m with
  | nil => intro off; rfl
  | cons a m ih => intro off; obtain ⟨k, l⟩ := a; simp [makeBlocks, ih]

theorem makeBlocks_mem (m : List (Nat × List Nat)) : ∀ (off : Nat) (b : Block), b ∈ makeBlocks off m →
    ∃ pre l post, m = pre ++ (b.peer, l) :: post ∧ b.offset = off + (makeIndices pre).length ∧
      b.count = l.length := by
  induction m with
  | nil => intro off b hb; simp [makeBlocks] at hb
  | cons a m ih =>
    intro off b hb
    obtain ⟨k, l⟩ := a
    simp only [makeBlocks, List.mem_cons] at hb
    rcases hb with rfl | hb
    · exact ⟨[], l, m, rfl, by simp [makeIndices], rfl⟩
    · obtain ⟨pre, l', post, h1, h2, h3⟩ := ih _ b hb
      refine ⟨(k, l) :: pre, l', post, by rw [h1]; rfl, ?_, h3⟩
      rw [h2]; simp [makeIndices]; omega

theorem find_split (pre post : List (Nat × List Nat)) (k : Nat) (l : List Nat)
    (hk : k ∉ pre.map (fun p => p.1)) :
    (makeBlocks 0 (pre ++ (k, l) :: post)).find? (fun b => b.peer = k) =
      some ⟨(makeIndices pre).length, l.length, k⟩ := by
  rw [makeBlocks_split, List.find?_append]
  have : (makeBlocks 0 pre).find? (fun b => b.peer = k) = none := by
    rw [List.find?_eq_none]
    intro b hb
    simp
    intro h
    apply hk
    rw [← makeBlocks_peers pre 0, ← h]
    exact List.mem_map_of_mem hb
  rw [this]
  simp

/-- The message to `d` consists of the blocks of the faces listed for `d`. -/
theorem message_eq {α} (bs : Nat) (s : List (Nat × List Nat)) (hs : WF s) (r : List (Nat × List Nat))
    (x : List α) (hx : ∀ k, ∀ i ∈ look s k, i * bs + bs ≤ x.length) (d : Nat) (hd : look s d ≠ []) :
    message bs (setup s r) x d = some ((look s d).flatMap (fun i => slice x (i * bs) bs)) := by
  have hmem := (hs.mem_iff d (look s d)).2 ⟨hd, rfl⟩
  obtain ⟨pre, post, hsp⟩ := List.append_of_mem hmem
  generalize look s d = l at *
  have hk : d ∉ pre.map (fun p => p.1) := by
    have := hs.nodup
    rw [hsp] at this
    simp only [List.map_append, List.map_cons] at this
    intro hm
    exact (List.nodup_append.1 this).2.2 d hm d (by simp) rfl
  have hlen : ∀ p ∈ s, ∀ i ∈ p.2, (slice x (i * bs) bs).length = bs := by
    intro p hp i hi
    have := ((hs.mem_iff p.1 p.2).1 hp).2
    exact slice_length _ _ _ (hx p.1 i (this ▸ hi))
  unfold message packed setup
  simp only
  rw [show s = pre ++ (d, l) :: post from hsp, find_split pre post d l hk]
  simp only [Option.map_some]
  congr 1
  have e : (makeIndices (pre ++ (d, l) :: post)).flatMap (fun i => slice x (i * bs) bs) =
      (makeIndices pre).flatMap (fun i => slice x (i * bs) bs) ++
        (l.flatMap (fun i => slice x (i * bs) bs) ++ (makeIndices post).flatMap (fun i => slice x (i * bs) bs)) := by
    rw [makeIndices_append, List.flatMap_append]
    congr 1
    simp [makeIndices]
  rw [e]
  apply slice_mid
  · rw [flatMap_len _ _ bs]
    intro i hi
    simp only [makeIndices, List.mem_flatMap] at hi
    obtain ⟨p, hp, hi⟩ := hi
    exact hlen p (by rw [hsp]; simp [hp]) i hi
  · rw [flatMap_len _ _ bs]
    intro i hi
    exact hlen (d, l) hmem i hi

/-- Completion of all receives, in any order. -/
theorem scatter_core {α} (bs : Nat) (plans : List Plan) (xs : List (List α)) (d : Nat)
    (s r : List (Nat × List Nat)) (msg : Nat → Nat → List α)
    (hmsg : ∀ p ∈ r, ∃ plan x, plans[p.1]? = some plan ∧ xs[p.1]? = some x ∧
      message bs plan x d = some (p.2.flatMap (msg p.1)))
    (hl : ∀ p ∈ r, ∀ i ∈ p.2, (msg p.1 i).length = bs)
    (y : List α) (hy : y.length = (makeIndices r).length * bs)
    (arrival : List Block) (ha : arrival.Perm (setup s r).recvBlocks) :
    scatter bs plans xs d y arrival = some (r.flatMap (fun p => p.2.flatMap (msg p.1))) := by
  have hlenT : ∀ m : List (Nat × List Nat), (∀ p ∈ m, p ∈ r) →
      (m.flatMap (fun p => p.2.flatMap (msg p.1))).length = (makeIndices m).length * bs := by
    intro m
    induction m with
    | nil => intro _; simp [makeIndices]
    | cons p m ih =>
      intro hm
      have h1 := ih (fun q hq => hm q (by simp [hq]))
      rw [List.flatMap_cons, List.length_append, h1,
        flatMap_len _ _ bs (fun i hi => hl p (hm p (by simp)) i hi)]
      simp only [makeIndices, List.flatMap_cons, List.length_append, Nat.add_mul]
  have hT := hlenT r (fun p hp => hp)
  generalize hTd : r.flatMap (fun p => p.2.flatMap (msg p.1)) = T at *
  have hstep : ∀ b ∈ (setup s r).recvBlocks, ∀ y : List α, y.length = T.length →
      b.offset * bs + b.count * bs ≤ T.length ∧
      receive bs plans xs d (some y) b =
        some (writeAt y (b.offset * bs) (slice T (b.offset * bs) (b.count * bs))) := by
    intro b hb y _
    obtain ⟨pre, l, post, h1, h2, h3⟩ := makeBlocks_mem r 0 b hb
    have hbm : (b.peer, l) ∈ r := by rw [h1]; simp
    have e : T = pre.flatMap (fun p => p.2.flatMap (msg p.1)) ++
        (l.flatMap (msg b.peer) ++ post.flatMap (fun p => p.2.flatMap (msg p.1))) := by
      rw [← hTd]; conv => lhs; rw [h1]
      simp
    have l1 := hlenT pre (fun p hp => by rw [h1]; simp [hp])
    have l2 := flatMap_len l (msg b.peer) bs (fun i hi => hl (b.peer, l) hbm i hi)
    have hsl : slice T (b.offset * bs) (b.count * bs) = l.flatMap (msg b.peer) := by
      rw [e]
      apply slice_mid
      · rw [l1, h2]; simp
      · rw [l2, h3]
    constructor
    · rw [e, List.length_append, List.length_append, l1, l2, h2, h3]; simp
    · obtain ⟨plan, x, g1, g2, g3⟩ := hmsg (b.peer, l) hbm
      simp only at g1 g2 g3
      simp only [receive, g1, g2, g3, Option.bind_eq_bind, Option.bind_some]
      rw [if_pos (by rw [l2, h3]; exact Nat.le_refl _), hsl]
  have hfold : ∀ (arr : List Block) (y : List α), (∀ b ∈ arr, b ∈ (setup s r).recvBlocks) →
      y.length = T.length → arr.foldl (receive bs plans xs d) (some y) =
        some (arr.foldl (fun y b => writeAt y (b.offset * bs) (slice T (b.offset * bs) (b.count * bs))) y) := by
    intro arr
    induction arr with
    | nil => intro y _ _; rfl
    | cons b arr ih =>
      intro y hb hy
      obtain ⟨g1, g2⟩ := hstep b (hb b (by simp)) y hy
      rw [List.foldl_cons, List.foldl_cons, g2]
      apply ih _ (fun b' hb' => hb b' (by simp [hb']))
      rw [writeAt_length _ _ _ (by rw [slice_length _ _ _ g1]; omega), hy]
  rw [scatter, hfold arrival y (fun b hb => ha.mem_iff.1 hb) (by omega)]
  congr 1
  apply fold_writes
  · intro b hb
    exact (hstep b (ha.mem_iff.1 hb) y (by omega)).1
  · intro i hi
    have hcov : ∀ (m : List (Nat × List Nat)) (off i : Nat), off * bs ≤ i →
        i < (off + (makeIndices m).length) * bs →
        ∃ b ∈ makeBlocks off m, b.offset * bs ≤ i ∧ i < b.offset * bs + b.count * bs := by
      intro m
      induction m with
      | nil => intro off i h1 h2; simp [makeIndices] at h2; omega
      | cons p m ih =>
        intro off i h1 h2
        obtain ⟨k, l⟩ := p
        rcases Nat.lt_or_ge i ((off + l.length) * bs) with h | h
        · exact ⟨⟨off, l.length, k⟩, by simp [makeBlocks], h1, by simpa [Nat.add_mul] using h⟩
        · obtain ⟨b, hb, h3⟩ := ih (off + l.length) i h (by
            simpa [makeIndices, Nat.add_assoc] using h2)
          exact ⟨b, by simp [makeBlocks, hb], h3⟩
    obtain ⟨b, hb, h3⟩ := hcov r 0 i (by simp) (by rw [hT] at hi; simpa using hi)
    exact ⟨b, ha.mem_iff.2 hb, h3⟩
  · omega

/-- Copying blocks back. -/
theorem copyBack {α} (bs : Nat) (recvd : List α) (V : Nat → List α) :
    ∀ (L : List (Nat × Nat)) (data : List α),
      (∀ p ∈ L, slice recvd (p.2 * bs) bs = V p.1 ∧ (V p.1).length = bs ∧ p.1 * bs + bs ≤ data.length) →
      (L.foldl (fun data p => writeAt data (p.1 * bs) (slice recvd (p.2 * bs) bs)) data).length = data.length ∧
      ∀ f, slice (L.foldl (fun data p => writeAt data (p.1 * bs) (slice recvd (p.2 * bs) bs)) data)
        (f * bs) bs = if f ∈ L.map (fun p => p.1) then V f else slice data (f * bs) bs := by
  intro L
  induction L with
  | nil => intro data _; exact ⟨rfl, fun f => by simp⟩
  | cons p L ih =>
    intro data h
    obtain ⟨h1, h2, h3⟩ := h p (by simp)
    have hlen : (writeAt data (p.1 * bs) (V p.1)).length = data.length :=
      writeAt_length _ _ _ (by omega)
    obtain ⟨g1, g2⟩ := ih (writeAt data (p.1 * bs) (V p.1)) (fun q hq => by
      obtain ⟨a, b, c⟩ := h q (by simp [hq])
      exact ⟨a, b, by omega⟩)
    rw [List.foldl_cons, h1]
    refine ⟨by omega, ?_⟩
    intro f
    rw [g2 f, slice_writeAt _ _ _ _ _ h2 h3]
    by_cases hf : f ∈ L.map (fun p => p.1)
    · rw [if_pos hf, if_pos (by simp only [List.map_cons, List.mem_cons]; exact Or.inr hf)]
    · rw [if_neg hf]
      by_cases he : p.1 = f
      · rw [if_pos he, if_pos (by simp [he]), he]
      · rw [if_neg he, if_neg]
        simp only [List.map_cons, List.mem_cons, not_or]
        exact ⟨fun h => he h.symm, hf⟩

end Tandem.ScatterPlan
