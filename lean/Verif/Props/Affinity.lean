import Verif.Model.Affinity
import Mathlib.Data.List.Basic
/-! # Property C19: CPU masks -/
namespace Tandem.Affinity

/-! ### Text form -/

/-- Specification: the part of the text that belongs to one CPU. -/
def chunk (set : Nat → Bool) (np cpu : Nat) : List Char :=
  (if cpu % 10 = 0 ∧ cpu ≠ 0 ∧ cpu ≠ np - 1 then ['|'] else []) ++
    [if set cpu then Char.ofNat ('0'.toNat + cpu % 10) else '-']

theorem set_middle (done : List Char) (r : Nat) (c : Char) (h : 0 < r) :
    (done ++ List.replicate r '-').set done.length c = (done ++ [c]) ++ List.replicate (r - 1) '-' := by
  obtain ⟨r, rfl⟩ : ∃ q, r = q + 1 := ⟨r - 1, by omega⟩
  rw [List.set_append_right _ _ (Nat.le_refl _)]
  simp [List.replicate_succ]

theorem maskLoop_eq (set : Nat → Bool) (np : Nat) : ∀ (k cpu r : Nat) (done : List Char),
    ((List.range' cpu k).flatMap (chunk set np)).length ≤ r →
    maskLoop set np k cpu done.length (done ++ List.replicate r '-') =
      some (done ++ (List.range' cpu k).flatMap (chunk set np) ++
        List.replicate (r - ((List.range' cpu k).flatMap (chunk set np)).length) '-') := by
  intro k
  induction k with
  | zero => intro cpu r done _; simp [maskLoop]
  | succ k ih =>
    intro cpu r done hr
    rw [List.range'_succ, List.flatMap_cons] at hr ⊢
    have hdash : ∀ (d : List Char) (q : Nat), 0 < q →
        d ++ List.replicate q '-' = (d ++ ['-']) ++ List.replicate (q - 1) '-' := by
      intro d q hq
      obtain ⟨q, rfl⟩ : ∃ p, q = p + 1 := ⟨q - 1, by omega⟩
      simp [List.replicate_succ]
    have hlen : (chunk set np cpu).length =
        (if cpu % 10 = 0 ∧ cpu ≠ 0 ∧ cpu ≠ np - 1 then 1 else 0) + 1 := by
      unfold chunk; split <;> simp
    rw [List.length_append, hlen] at hr
    -- one iteration appends the chunk
    have step : ∀ (d : List Char) (q : Nat), 0 < q →
        (if set cpu = true ∧ ¬ d.length < (d ++ List.replicate q '-').length then none else
          maskLoop set np k (cpu + 1) (d.length + 1)
            (if set cpu = true then (d ++ List.replicate q '-').set d.length
              (Char.ofNat ('0'.toNat + cpu % 10)) else d ++ List.replicate q '-')) =
        maskLoop set np k (cpu + 1)
          (d ++ [if set cpu then Char.ofNat ('0'.toNat + cpu % 10) else '-']).length
          ((d ++ [if set cpu then Char.ofNat ('0'.toNat + cpu % 10) else '-']) ++
            List.replicate (q - 1) '-') := by
      intro d q hq
      rw [if_neg (by simp; omega)]
      by_cases hs : set cpu = true
      · rw [if_pos hs, set_middle d q _ hq]; simp [hs]
      · rw [if_neg hs, hdash d q hq]; simp [hs]
    rw [maskLoop]
    simp only
    by_cases hsep : cpu % 10 = 0 ∧ cpu ≠ 0 ∧ cpu ≠ np - 1
    · have hc : chunk set np cpu =
          ['|'] ++ [if set cpu then Char.ofNat ('0'.toNat + cpu % 10) else '-'] := by
        unfold chunk; rw [if_pos hsep]
      rw [if_pos hsep] at hr
      rw [if_neg (by simp; omega), if_pos hsep, if_pos hsep, set_middle done r '|' (by omega)]
      have := step (done ++ ['|']) (r - 1) (by omega)
      simp only [List.length_append, List.length_singleton] at this ⊢
      rw [this]
      have h3 := ih (cpu + 1) (r - 1 - 1)
        ((done ++ ['|']) ++ [if set cpu then Char.ofNat ('0'.toNat + cpu % 10) else '-']) (by omega)
      simp only [List.length_append, List.length_singleton] at h3
      rw [h3, hlen, if_pos hsep, hc, ← Nat.sub_sub, ← Nat.sub_sub]
      simp only [List.append_assoc]
    · have hc : chunk set np cpu =
          [if set cpu then Char.ofNat ('0'.toNat + cpu % 10) else '-'] := by
        unfold chunk; rw [if_neg hsep]; rfl
      rw [if_neg hsep] at hr
      rw [if_neg (fun h => hsep h.1), if_neg hsep, if_neg hsep, step done r (by omega),
        ih (cpu + 1) (r - 1) _ (by omega), List.length_append, hlen, if_neg hsep, hc,
        Nat.zero_add, ← Nat.sub_sub]
      simp only [List.append_assoc]

theorem chunks_length (set : Nat → Bool) (np m : Nat) (hm : m < np) :
    ((List.range m).flatMap (chunk set np)).length = m + (m - 1) / 10 := by
  induction m with
  | zero => simp
  | succ m ih =>
    rw [List.range_succ, List.flatMap_append, List.length_append, ih (by omega)]
    simp only [List.flatMap_cons, List.flatMap_nil, List.append_nil]
    have hlen : (chunk set np m).length =
        (if m % 10 = 0 ∧ m ≠ 0 ∧ m ≠ np - 1 then 1 else 0) + 1 := by
      unfold chunk; split <;> simp
    rw [hlen]
    split <;> omega

/-- C19 (text): the text of a mask never overruns its buffer and consists, CPU by CPU, of the last
digit of the CPU's number if it is in the mask and a dash otherwise, with a bar before each ten (but
not before the last CPU); if the number of CPUs ends in one there is one extra dash at the end. -/
theorem C19_text (set : Nat → Bool) (np : Nat) (h : 0 < np) :
    toString set np = some ((List.range np).flatMap (chunk set np) ++
      (if np % 10 = 1 ∧ np ≠ 1 then ['-'] else [])) := by
  have hl : ((List.range np).flatMap (chunk set np)).length +
      (if np % 10 = 1 ∧ np ≠ 1 then 1 else 0) = np + (np - 1) / 10 := by
    obtain ⟨m, rfl⟩ : ∃ m, np = m + 1 := ⟨np - 1, by omega⟩
    rw [List.range_succ, List.flatMap_append, List.length_append,
      chunks_length set (m + 1) m (by omega)]
    simp only [List.flatMap_cons, List.flatMap_nil, List.append_nil]
    have hlen : (chunk set (m + 1) m).length = 1 := by
      unfold chunk; rw [if_neg (by omega)]; simp
    rw [hlen]
    split <;> omega
  unfold toString
  have := maskLoop_eq set np np 0 (np + (np - 1) / 10) [] (by
    rw [← List.range_eq_range']; omega)
  simp only [List.nil_append, List.length_nil] at this
  rw [this, ← List.range_eq_range']
  congr 2
  have h2 : np + (np - 1) / 10 - ((List.range np).flatMap (chunk set np)).length =
      (if np % 10 = 1 ∧ np ≠ 1 then 1 else 0) := by omega
  rw [h2]
  split <;> rfl

example : (toString (fun c => c = 0 ∨ c = 11) 12).map String.ofList = some "0---------|-1" ∧
    (toString (fun c => c = 10) 11).map String.ofList = some "----------0-" := by
  decide +kernel

/-! ### Masks of a node -/

/-- The one-bit masks of two CPUs of the same word share a bit iff the CPUs agree modulo 32. -/
theorem shift_hits : ∀ k < 64, ∀ k' < 64,
    (shiftX86 k &&& shiftX86 k' ≠ 0#64 ↔ k % 32 = k' % 32) := by
  decide +kernel

theorem or_hits (a b m : BitVec 64) :
    ((a ||| b) &&& m ≠ 0#64) ↔ (a &&& m ≠ 0#64 ∨ b &&& m ≠ 0#64) := by
  rw [show (a ||| b) &&& m = (a &&& m) ||| (b &&& m) by
    apply BitVec.eq_of_getLsbD_eq; intro i hi; simp [Bool.and_or_distrib_right]]
  rw [ne_eq, BitVec.or_eq_zero_iff, not_and_or]

/-- Word `w` of a set meets the mask `m`. -/
def Hits (l : List (BitVec 64)) (w : Nat) (m : BitVec 64) : Prop := l.getD w 0#64 &&& m ≠ 0#64

theorem zero_hits (n w : Nat) (m : BitVec 64) : ¬ Hits (List.replicate n 0#64) w m := by
  unfold Hits
  have : (List.replicate n 0#64).getD w 0#64 = 0#64 := by
    rw [List.getD_eq_getElem?_getD, List.getElem?_replicate]; split <;> rfl
  rw [this]; simp

theorem modify_hits (l : List (BitVec 64)) (i w : Nat) (x m : BitVec 64) (hi : i < l.length) :
    Hits (l.modify i (· ||| x)) w m ↔ Hits l w m ∨ (i = w ∧ x &&& m ≠ 0#64) := by
  unfold Hits
  rw [List.getD_eq_getElem?_getD, List.getElem?_modify, List.getD_eq_getElem?_getD]
  by_cases h : i = w
  · subst h
    rw [List.getElem?_eq_getElem hi]
    simp only [if_true, Option.map_some, Option.getD_some, true_and]
    exact or_hits _ _ _
  · cases hw : l[w]? with
    | none => simp [h]
    | some y => simp [h]

theorem fold_hits (set : Nat → Bool) (w : Nat) (m : BitVec 64) : ∀ (cs : List Nat)
    (l : List (BitVec 64)), (∀ c ∈ cs, c / bitsPerUnit < l.length) →
    (Hits (cs.foldl (fun result cpu => if set cpu then
      result.modify (cpu / bitsPerUnit) (· ||| shiftX86 (cpu % bitsPerUnit)) else result) l) w m ↔
      Hits l w m ∨ ∃ c ∈ cs, set c = true ∧ c / bitsPerUnit = w ∧
        shiftX86 (c % bitsPerUnit) &&& m ≠ 0#64) := by
  intro cs
  induction cs with
  | nil => intro l _; simp
  | cons c cs ih =>
    intro l hl
    rw [List.foldl_cons]
    by_cases hs : set c = true
    · rw [if_pos hs, ih _ (by intro d hd; rw [List.length_modify]; exact hl d (by simp [hd])),
        modify_hits _ _ _ _ _ (hl c (by simp))]
      constructor
      · rintro ((h | ⟨h1, h2⟩) | ⟨d, hd, h⟩)
        · exact Or.inl h
        · exact Or.inr ⟨c, by simp, hs, h1, h2⟩
        · exact Or.inr ⟨d, by simp [hd], h⟩
      · rintro (h | ⟨d, hd, h⟩)
        · exact Or.inl (Or.inl h)
        · rcases List.mem_cons.1 hd with rfl | hd
          · exact Or.inl (Or.inr ⟨h.2.1, h.2.2⟩)
          · exact Or.inr ⟨d, hd, h⟩
    · rw [if_neg hs, ih _ (fun d hd => hl d (by simp [hd]))]
      constructor
      · rintro (h | ⟨d, hd, h⟩)
        · exact Or.inl h
        · exact Or.inr ⟨d, by simp [hd], h⟩
      · rintro (h | ⟨d, hd, h⟩)
        · exact Or.inl h
        · rcases List.mem_cons.1 hd with rfl | hd
          · exact absurd h.1 hs
          · exact Or.inr ⟨d, hd, h⟩

theorem fold_length (set : Nat → Bool) : ∀ (cs : List Nat) (l : List (BitVec 64)),
    (cs.foldl (fun result cpu => if set cpu then
      result.modify (cpu / bitsPerUnit) (· ||| shiftX86 (cpu % bitsPerUnit)) else result) l).length =
      l.length := by
  intro cs
  induction cs with
  | nil => intro l; rfl
  | cons c cs ih =>
    intro l
    rw [List.foldl_cons, ih]
    split <;> simp

theorem toMySet_length (set : Nat → Bool) : (toMySet set).length = 16 := by
  unfold toMySet
  rw [fold_length]; simp [setSize]

theorem toMySet_hits (set : Nat → Bool) (w : Nat) (m : BitVec 64) :
    Hits (toMySet set) w m ↔ ∃ c < 1024, set c = true ∧ c / 64 = w ∧
      shiftX86 (c % 64) &&& m ≠ 0#64 := by
  unfold toMySet
  rw [fold_hits]
  · simp only [zero_hits, false_or, List.mem_range]
    rfl
  · intro c hc
    simp only [List.mem_range, bitsPerUnit, setSize] at hc
    simp only [bitsPerUnit, setSize, List.length_replicate]
    omega

theorem zip_hits (a b : List (BitVec 64)) (w : Nat) (m : BitVec 64) (h : a.length = b.length) :
    Hits (List.zipWith (· ||| ·) a b) w m ↔ Hits a w m ∨ Hits b w m := by
  unfold Hits
  simp only [List.getD_eq_getElem?_getD, List.getElem?_zipWith]
  by_cases hw : w < a.length
  · rw [List.getElem?_eq_getElem hw, List.getElem?_eq_getElem (by omega)]
    exact or_hits _ _ _
  · rw [List.getElem?_eq_none (by omega), List.getElem?_eq_none (show b.length ≤ w by omega)]
    simp

theorem fold_zip : ∀ (l : List (List (BitVec 64))) (a : List (BitVec 64)),
    a.length = 16 → (∀ b ∈ l, b.length = 16) →
    (l.foldl (fun a b => List.zipWith (· ||| ·) a b) a).length = 16 ∧
    ∀ w m, Hits (l.foldl (fun a b => List.zipWith (· ||| ·) a b) a) w m ↔
      Hits a w m ∨ ∃ b ∈ l, Hits b w m := by
  intro l
  induction l with
  | nil => intro a ha _; exact ⟨ha, by simp⟩
  | cons b l ih =>
    intro a ha hl
    have hb := hl b (by simp)
    obtain ⟨h1, h2⟩ := ih (List.zipWith (· ||| ·) a b) (by simp [ha, hb])
      (fun c hc => hl c (by simp [hc]))
    refine ⟨h1, fun w m => ?_⟩
    rw [List.foldl_cons, h2, zip_hits a b w m (by omega)]
    simp [or_assoc]

/-- C19 (node mask, exact, on x86-64): CPU `c` is in the mask of the node iff some rank of the node
uses CPU `c` or the CPU whose number differs from `c` by 32 within the same group of 64. -/
theorem C19_node_mask_x86 (ranks : List (Nat → Bool)) (c : Nat) :
    workerMaskOnNode ranks c = true ↔
      c < 1024 ∧ ∃ r ∈ ranks, ∃ c' < 1024, r c' = true ∧ c' / 64 = c / 64 ∧ c' % 32 = c % 32 := by
  obtain ⟨h1, h2⟩ := fold_zip (ranks.map toMySet) (List.replicate (setSize / 64) 0#64)
    (by simp [setSize]) (by
      intro b hb
      obtain ⟨r, _, rfl⟩ := List.mem_map.1 hb
      exact toMySet_length r)
  unfold workerMaskOnNode ofMySet
  simp only [Bool.and_eq_true, decide_eq_true_eq]
  rw [h1, show bitsPerUnit * 16 = 1024 from rfl]
  have := h2 (c / bitsPerUnit) (shiftX86 (c % bitsPerUnit))
  unfold Hits at this
  rw [this]
  have hz := zero_hits (setSize / 64) (c / bitsPerUnit) (shiftX86 (c % bitsPerUnit))
  unfold Hits at hz
  constructor
  · rintro ⟨hc, h | ⟨b, hb, h⟩⟩
    · exact absurd h hz
    · obtain ⟨r, hr, rfl⟩ := List.mem_map.1 hb
      obtain ⟨c', h3, h4, h5, h6⟩ := (toMySet_hits r _ _).1 h
      refine ⟨hc, r, hr, c', h3, h4, h5, ?_⟩
      have := (shift_hits (c' % 64) (by omega) (c % 64) (by omega)).1 h6
      omega
  · rintro ⟨hc, r, hr, c', h3, h4, h5, h6⟩
    refine ⟨hc, Or.inr ⟨_, List.mem_map.2 ⟨r, hr, rfl⟩, (toMySet_hits r _ _).2
      ⟨c', h3, h4, h5, (shift_hits (c' % 64) (by omega) (c % bitsPerUnit) ?_).2 ?_⟩⟩⟩
    · simp [bitsPerUnit]; omega
    · simp only [bitsPerUnit]; omega

/-- C19 (partial: one inclusion): every CPU used by a worker on the node is in the node's mask. The
other inclusion is false, see `C19_node_mask_too_large`. -/
theorem C19_node_mask_partial (ranks : List (Nat → Bool)) (r : Nat → Bool) (hr : r ∈ ranks) (c : Nat)
    (hc : c < 1024) (h : r c = true) : workerMaskOnNode ranks c = true :=
  (C19_node_mask_x86 ranks c).2 ⟨hc, r, hr, c, hc, h, rfl, rfl⟩

/-- C19 (defect): if the only worker runs on CPU 5 the mask of the node also contains CPU 37. -/
theorem C19_node_mask_too_large : workerMaskOnNode [fun c => c = 5] 37 = true :=
  (C19_node_mask_x86 _ 37).2 ⟨by omega, fun c => c = 5, by simp, 5, by omega, rfl, rfl, rfl⟩

theorem foldlM_none {α β : Type} (f : β → α → Option β) (l : List α) (b : β)
    (h : ∃ a ∈ l, ∀ b, f b a = none) : l.foldlM f b = none := by
  induction l generalizing b with
  | nil => simp at h
  | cons x l ih =>
    obtain ⟨a, ha, hf⟩ := h
    rw [List.foldlM_cons]
    rcases List.mem_cons.1 ha with rfl | ha
    · simp [hf]
    · cases hx : f b x with
      | none => rfl
      | some b' => exact ih b' ⟨a, ha, hf⟩

/-- C19 (defect): by the C++ standard the conversion back to a CPU set is undefined behaviour for every
set, since it always evaluates `1 << 32` on `int`. -/
theorem C19_conversion_always_undefined (set : List (BitVec 64)) (h : set ≠ []) :
    ofMySetStrict set = none := by
  unfold ofMySetStrict
  apply foldlM_none
  refine ⟨32, ?_, fun b => rfl⟩
  have := List.length_pos_iff.2 h
  simp only [List.mem_range, bitsPerUnit]
  omega

/-- C19: the mask of a rank is the union of the masks of its threads. -/
theorem C19_worker_mask (threads : List (Nat → Bool)) (c : Nat) :
    workerMask threads c = true ↔ ∃ t ∈ threads, t c = true := by
  simp [workerMask]

end Tandem.Affinity
