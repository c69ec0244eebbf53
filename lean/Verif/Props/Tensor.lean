import Verif.Model.Tensor
import Verif.Lemmas.MultiIndex
import Mathlib.Tactic.Ring
import Mathlib.Data.List.GetD
/-! # Property C13: tensor views -/
namespace Tandem.Tensor
open Tandem.Spec Tandem.MultiIndex

theorem address_strides (acc : Nat) (shape idx : List Nat) (h : idx.length = shape.length) :
    address (strides acc shape) idx = acc * position idx shape := by
  induction shape generalizing acc idx with
  | nil => cases idx <;> simp_all [address, position, strides]
  | cons n ns ih =>
    cases idx with
    | nil => simp at h
    | cons i idx =>
      have := ih (acc * n) idx (by simpa using h)
      simp only [address, strides, List.zip_cons_cons, List.foldr_cons, position] at this ⊢
      rw [this]; ring

theorem position_inj (i j shape : List Nat) (hi : InShape i shape) (hj : InShape j shape)
    (h : position i shape = position j shape) : i = j := by
  have h1 := unflatten_position i shape hi
  rw [h, unflatten_position j shape hj] at h1
  exact (Option.some.inj h1).symm

theorem strides_last (acc : Nat) (shape : List Nat) (h : shape ≠ []) :
    shape.getLastD 0 * (strides acc shape).getLastD 0 = acc * volume shape := by
  induction shape generalizing acc with
  | nil => exact absurd rfl h
  | cons n ns ih =>
    cases ns with
    | nil => simp [strides, volume]; ring
    | cons m ns =>
      have := ih (acc * n) (by simp)
      simp only [strides, List.getLastD_cons] at this ⊢
      rw [this]; simp only [volume, List.foldr_cons]; ring

/-- C13 (layout): in a packed tensor the element with multi-index `idx` is stored at the base plus
its column-major position; every position below `size()` = product of the extents belongs to exactly
one multi-index. -/
theorem C13_packed_layout (base : Nat) (shape : List Nat) (h : shape ≠ []) :
    (mkPacked base shape).size = volume shape ∧
    (∀ idx, InShape idx shape → (mkPacked base shape).at idx = base + position idx shape) ∧
    (∀ i j, InShape i shape → InShape j shape →
      (mkPacked base shape).at i = (mkPacked base shape).at j → i = j) ∧
    (∀ a, (∃ idx, InShape idx shape ∧ (mkPacked base shape).at idx = a) ↔
      base ≤ a ∧ a < base + volume shape) := by
  have hat : ∀ idx, InShape idx shape → (mkPacked base shape).at idx = base + position idx shape := by
    intro idx hi
    simp only [View.at, mkPacked, computeStride]
    rw [address_strides 1 shape idx hi.1, Nat.one_mul]
  refine ⟨?_, hat, ?_, ?_⟩
  · simp only [View.size, mkPacked, computeStride]
    rw [strides_last 1 shape h, Nat.one_mul]
  · intro i j hi hj he
    rw [hat i hi, hat j hj] at he
    exact position_inj i j shape hi hj (by omega)
  · intro a
    constructor
    · rintro ⟨idx, hi, rfl⟩
      rw [hat idx hi]
      have := position_lt idx shape hi
      omega
    · rintro ⟨h1, h2⟩
      obtain ⟨idx, _, hi, hp⟩ := unflatten_inShape (a - base) shape (by omega)
      exact ⟨idx, hi, by rw [hat idx hi, hp]; omega⟩

/-- Specification: the multi-index of the parent tensor that corresponds to the multi-index `idx` of
the slice; `none` marks the free dimensions. -/
def fill : List (Option Nat) → List Nat → List Nat
  | none :: es, i :: idx => i :: fill es idx
  | none :: es, [] => 0 :: fill es []
  | some e :: es, idx => e :: fill es idx
  | [], _ => []

/-- Specification: extents of the free dimensions. -/
def freeShape : List (Option Nat) → List Nat → List Nat
  | none :: es, n :: ns => n :: freeShape es ns
  | some _ :: es, _ :: ns => freeShape es ns
  | _, _ => []

/-- A well-formed tensor object: one stride per dimension, and packed tensors have the computed
strides (established by every constructor, see `C13_wf`). -/
def Wf (v : View) : Prop :=
  v.stride.length = v.shape.length ∧ (v.packed = true → v.stride = computeStride v.shape)

theorem strides_length (acc : Nat) (l : List Nat) : (strides acc l).length = l.length := by
  induction l generalizing acc with
  | nil => rfl
  | cons n ns ih => simp [strides, ih]

theorem wf_mkPacked (b : Nat) (s : List Nat) : Wf (mkPacked b s) :=
  ⟨strides_length 1 s, fun _ => rfl⟩

theorem filtered_shift (d : Nat) (es : List (Option Nat)) :
    filtered (d + 1) es = (filtered d es).map (· + 1) := by
  induction es generalizing d with
  | nil => rfl
  | cons e es ih => cases e <;> simp [filtered, ih]

theorem extract_filtered (es : List (Option Nat)) (l : List Nat) (h : es.length = l.length) :
    extractNumbers l (filtered 0 es) = freeShape es l := by
  induction es generalizing l with
  | nil => cases l <;> simp [filtered, extractNumbers, freeShape]
  | cons e es ih =>
    cases l with
    | nil => simp at h
    | cons n ns =>
      have := ih ns (by simpa using h)
      cases e with
      | none =>
        simp only [filtered, freeShape, extractNumbers] at this ⊢
        rw [filtered_shift]
        simp only [List.map_cons, List.map_map, List.getD_cons_zero]
        rw [← this]
        congr 1
      | some x =>
        simp only [filtered, freeShape, extractNumbers] at this ⊢
        rw [filtered_shift]
        simp only [List.map_map]
        rw [← this]
        congr 1

theorem freeShape_length (es : List (Option Nat)) (a b : List Nat) (h : a.length = b.length) :
    (freeShape es a).length = (freeShape es b).length := by
  induction es generalizing a b with
  | nil => simp [freeShape]
  | cons e es ih =>
    cases a with
    | nil => cases b with
      | nil => rfl
      | cons => simp at h
    | cons x a => cases b with
      | nil => simp at h
      | cons y b =>
        have := ih a b (by simpa using h)
        cases e <;> simp [freeShape, this]

theorem address_fill (es : List (Option Nat)) (stride idx : List Nat)
    (h : es.length = stride.length) (hi : idx.length = (freeShape es stride).length) :
    address stride (fill es idx) =
      address stride (es.map filterEntry) + address (freeShape es stride) idx := by
  induction es generalizing stride idx with
  | nil => cases stride <;> simp_all [address, fill, freeShape]
  | cons e es ih =>
    cases stride with
    | nil => simp at h
    | cons s stride =>
      cases e with
      | none =>
        cases idx with
        | nil => simp [freeShape] at hi
        | cons i idx =>
          have := ih stride idx (by simpa using h) (by simpa [freeShape] using hi)
          simp only [address, fill, freeShape, List.zip_cons_cons, List.foldr_cons, List.map_cons,
            filterEntry, Option.getD_none] at this ⊢
          rw [this]; ring
      | some x =>
        have := ih stride idx (by simpa using h) (by simpa [freeShape] using hi)
        simp only [address, fill, freeShape, List.zip_cons_cons, List.foldr_cons, List.map_cons,
          filterEntry, Option.getD_some] at this ⊢
        rw [this]; ring

theorem filtered_range_strides (acc : Nat) : ∀ (es : List (Option Nat)) (shape : List Nat),
    es.length = shape.length → filtered 0 es = List.range (filtered 0 es).length →
    freeShape es (strides acc shape) = strides acc (freeShape es shape) := by
  intro es
  induction es generalizing acc with
  | nil => intro shape _ _; simp [freeShape, strides]
  | cons e es ih =>
    intro shape hl hr
    cases shape with
    | nil => simp at hl
    | cons n ns =>
      cases e with
      | none =>
        simp only [freeShape, strides, List.cons.injEq, true_and]
        apply ih (acc * n) ns (by simpa using hl)
        simp only [filtered, List.length_cons] at hr
        rw [filtered_shift, List.range_succ_eq_map, List.cons.injEq] at hr
        have := hr.2
        rw [List.length_map] at this
        exact (List.map_inj_right (fun a b h => by simpa using h)).1 this
      | some x =>
        -- no free dimension may follow
        simp only [filtered] at hr
        rw [filtered_shift] at hr
        have hnil : filtered 0 es = [] := by
          cases hf : filtered 0 es with
          | nil => rfl
          | cons a l =>
            rw [hf] at hr
            simp [List.range_succ_eq_map] at hr
        have hfree : ∀ l : List Nat, freeShape es l = [] := by
          intro l
          clear ih hr hl
          have hs : ∀ (es : List (Option Nat)) (d : Nat), filtered d es = [] → ∀ l : List Nat,
              freeShape es l = [] := by
            intro es
            induction es with
            | nil => intro d _ l; cases l <;> rfl
            | cons e es ih =>
              intro d hd l
              cases e with
              | none => simp [filtered] at hd
              | some x =>
                cases l with
                | nil => rfl
                | cons y l => exact ih _ hd l
          exact hs es 0 hnil l
        simp [freeShape, strides, hfree]

/-- C13 (well-formedness is preserved). -/
theorem C13_wf (v : View) (es : List (Option Nat)) (hv : Wf v) (hl : es.length = v.shape.length) :
    Wf (v.subtensor es) ∧ (v.subtensor es).shape = freeShape es v.shape := by
  unfold View.subtensor
  simp only
  split
  · exact ⟨wf_mkPacked _ _, extract_filtered es v.shape hl⟩
  · refine ⟨⟨?_, by simp⟩, extract_filtered es v.shape hl⟩
    simp [extractNumbers]

/-- C13 (slices alias the right elements): in a slice with fixed indices `es` (`none` = free
dimension) the element `idx` is the parent's element at `fill es idx`, whether the slice is packed or
strided; if the fixed indices are in range that parent index is in range. -/
theorem C13_subtensor (v : View) (es : List (Option Nat)) (hv : Wf v)
    (hl : es.length = v.shape.length) (idx : List Nat) (hi : InShape idx (freeShape es v.shape)) :
    (v.subtensor es).at idx = v.at (fill es idx) ∧
    ((∀ (d e n : Nat), es[d]? = some (some e) → v.shape[d]? = some n → e < n) →
      InShape (fill es idx) v.shape) := by
  have hls : es.length = v.stride.length := by rw [hv.1, hl]
  constructor
  · have hlen : idx.length = (freeShape es v.stride).length := by
      rw [freeShape_length es v.stride v.shape hv.1]; exact hi.1
    unfold View.subtensor
    simp only
    split
    · rename_i hp
      simp only [Bool.and_eq_true, decide_eq_true_eq] at hp
      have hst := filtered_range_strides 1 es v.shape hl hp.2
      simp only [View.at, mkPacked]
      rw [extract_filtered es v.shape hl, computeStride, ← hst, hv.2 hp.1]
      rw [hv.2 hp.1] at hls hlen
      rw [computeStride] at hls hlen ⊢
      rw [address_fill es _ idx hls hlen]
      omega
    · simp only [View.at]
      rw [extract_filtered es v.stride hls, address_fill es _ idx hls hlen]
      omega
  · clear hls hv
    intro hfix
    generalize v.shape = shape at *
    induction es generalizing shape idx with
    | nil =>
      have : shape = [] := List.eq_nil_of_length_eq_zero (by simpa using hl.symm)
      subst this; simp [fill]
    | cons e es ih =>
      cases shape with
      | nil => simp at hl
      | cons n ns =>
        have hfix' : ∀ (d e n : Nat), es[d]? = some (some e) → ns[d]? = some n → e < n :=
          fun d e n h1 h2 => hfix (d + 1) e n (by simpa using h1) (by simpa using h2)
        cases e with
        | none =>
          simp only [freeShape] at hi
          obtain ⟨i, t, rfl, h1, h2⟩ := (inShape_cons_iff _ _ _).1 hi
          exact (inShape_cons_iff _ _ _).2 ⟨i, _, rfl, h1, ih t ns (by simpa using hl) h2 hfix'⟩
        | some x =>
          simp only [freeShape] at hi
          exact (inShape_cons_iff _ _ _).2 ⟨x, _, rfl, hfix 0 x n rfl rfl,
            ih idx ns (by simpa using hl) hi hfix'⟩

/-- C13 (reshape): a reshape succeeds iff the tensor is packed and the sizes fit; elements with the
same column-major position are the same memory cell. -/
theorem C13_reshape (base : Nat) (shape sizes : List Nat) (h : shape ≠ []) :
    (volume sizes = volume shape →
      ∃ w, reshape (mkPacked base shape) sizes = some w ∧ w.shape = sizes ∧
        ∀ i j, InShape i shape → InShape j sizes →
          (w.at j = (mkPacked base shape).at i ↔ position j sizes = position i shape)) ∧
    (volume sizes ≠ volume shape → reshape (mkPacked base shape) sizes = none) := by
  have hs := (C13_packed_layout base shape h).1
  constructor
  · intro he
    refine ⟨mkPacked base sizes, ?_, rfl, ?_⟩
    · unfold reshape
      rw [hs, if_pos ⟨rfl, he⟩]; rfl
    · intro i j hi hj
      simp only [View.at, mkPacked, computeStride]
      rw [address_strides 1 shape i hi.1, address_strides 1 sizes j hj.1]
      omega
  · intro hne
    unfold reshape
    rw [hs, if_neg]
    exact fun hh => hne hh.2

theorem fold_write {R : Type} (c : R) (l : List Nat) (m : Nat → R) (a : Nat) :
    (l.foldl (fun m i => write m i c) m) a = if a ∈ l then c else m a := by
  induction l generalizing m with
  | nil => simp
  | cons i l ih =>
    rw [List.foldl_cons, ih]
    by_cases h : a ∈ l
    · simp [h]
    · by_cases h2 : a = i <;> simp [h, h2, write]

/-- C13 (fill): `set_constant` on a packed tensor sets exactly the cells of its elements. -/
theorem C13_set_constant {R : Type} (base : Nat) (shape : List Nat) (h : shape ≠ []) (c : R)
    (m : Nat → R) (a : Nat) :
    ((∃ idx, InShape idx shape ∧ (mkPacked base shape).at idx = a) →
      setConstant (mkPacked base shape) c m a = c) ∧
    ((¬ ∃ idx, InShape idx shape ∧ (mkPacked base shape).at idx = a) →
      setConstant (mkPacked base shape) c m a = m a) := by
  obtain ⟨h1, _, _, h4⟩ := C13_packed_layout base shape h
  have : setConstant (mkPacked base shape) c m a =
      if base ≤ a ∧ a < base + volume shape then c else m a := by
    unfold setConstant
    rw [h1]
    have e : (List.range (volume shape)).foldl (fun m i => write m ((mkPacked base shape).base + i) c) m
        = ((List.range (volume shape)).map (base + ·)).foldl (fun m i => write m i c) m := by
      rw [List.foldl_map]; rfl
    rw [e, fold_write]
    congr 1
    simp only [List.mem_map, List.mem_range, eq_iff_iff]
    constructor
    · rintro ⟨x, hx, rfl⟩; omega
    · rintro ⟨h5, h6⟩; exact ⟨a - base, by omega, by omega⟩
  rw [this, h4 a]
  constructor
  · intro hh; rw [if_pos hh]
  · intro hh; rw [if_neg hh]

/-- C13 (defect): on a strided slice `set_constant` writes outside of the slice, even behind the end of
the parent: zeroing row 1 of a 2 x 2 matrix at positions 0..3 also clears positions 2 and 4. -/
theorem C13_set_constant_strided :
    let row := (mkPacked 0 [2, 2]).subtensor [some 1, none]
    (row.at [0] = 1 ∧ row.at [1] = 3) ∧
    (List.range 6).map (setConstant row 0 (fun _ => 7)) = [7, 0, 0, 0, 0, 7] := by
  decide +kernel

/-! ### `copy_values` -/

/-- Cells written by one line. -/
theorem copyLine_spec {R : Type} (src : Nat → R) (ts ss n t s : Nat) (m : Nat → R)
    (hinj : ts ≠ 0 ∨ n ≤ 1) :
    (∀ i, i < n → copyLine src ts ss n t s m (t + i * ts) = src (s + i * ss)) ∧
    (∀ a, (∀ i, i < n → a ≠ t + i * ts) → copyLine src ts ss n t s m a = m a) := by
  induction n generalizing t s m with
  | zero => exact ⟨fun i h => absurd h (by omega), fun a _ => rfl⟩
  | succ n ih =>
    obtain ⟨h1, h2⟩ := ih (t + ts) (s + ss) (write m t (src s)) (by omega)
    rw [copyLine]
    constructor
    · intro i hi
      cases i with
      | zero =>
        rw [h2]
        · simp [write]
        · intro j hj he
          rcases hinj with h | h
          · simp at he; omega
          · omega
      | succ i =>
        have := h1 i (by omega)
        rw [show t + (i + 1) * ts = t + ts + i * ts by ring, this]
        congr 1; ring
    · intro a ha
      rw [h2]
      · simp only [write]
        rw [if_neg]
        have := ha 0 (by omega)
        simpa using this
      · intro i hi
        have := ha (i + 1) (by omega)
        rw [show t + ts + i * ts = t + (i + 1) * ts by ring]
        exact this

theorem incr_un (k n : Nat) (ns : List Nat) (h : InnerPos (n :: ns)) :
    incr (n :: ns) (un k (n :: ns)) = un (k + 1) (n :: ns) := by
  induction ns generalizing k n with
  | nil => simp [incr, un]
  | cons m ns ih =>
    have ih' := ih (k / n) m h.2
    have hn := h.1
    cases hu : un (k / n) (m :: ns) with
    | nil => exact absurd hu (un_ne_nil _ _ _)
    | cons y ys =>
      rw [hu] at ih'
      simp only [un, hu, incr]
      have hm : k % n < n := Nat.mod_lt _ hn
      by_cases hc : k % n + 1 = n
      · have he : k + 1 = n * (k / n + 1) := by
          have := Nat.mod_add_div k n
          rw [Nat.mul_add]; omega
        rw [if_pos hc, ih', he, Nat.mul_mod_right, Nat.mul_div_cancel_left _ hn]
      · rw [if_neg hc]
        have he : k + 1 = k % n + 1 + n * (k / n) := by
          have := Nat.mod_add_div k n
          omega
        have h1 : (k + 1) / n = k / n := by
          rw [he, Nat.add_mul_div_left _ _ hn, Nat.div_eq_of_lt (by omega)]; simp
        have h2 : (k + 1) % n = k % n + 1 := by
          rw [he, Nat.add_mul_mod_self_left, Nat.mod_eq_of_lt (by omega)]
        rw [h1, h2, hu]

theorem un_last (k n : Nat) (ns : List Nat) (h : InnerPos (n :: ns)) :
    (un k (n :: ns)).getLastD 0 = (n :: ns).getLastD 0 → volume (n :: ns) ≤ k := by
  induction ns generalizing k n with
  | nil => simp [un, volume]; omega
  | cons m ns ih =>
    intro he
    have hne := un_ne_nil (k / n) m ns
    have : (un (k / n) (m :: ns)).getLastD 0 = (m :: ns).getLastD 0 := by
      cases hu : un (k / n) (m :: ns) with
      | nil => exact absurd hu hne
      | cons y ys =>
        simp only [un, hu] at he
        simpa using he
    have h2 := ih (k / n) m h.2 this
    have h3 : volume (n :: m :: ns) = n * volume (m :: ns) := rfl
    rw [h3]
    calc n * volume (m :: ns) ≤ n * (k / n) := Nat.mul_le_mul_left _ h2
      _ ≤ k := Nat.mul_div_le k n

theorem un_last_volume (n : Nat) (ns : List Nat) (h : InnerPos (n :: ns)) :
    (un (volume (n :: ns)) (n :: ns)).getLastD 0 = (n :: ns).getLastD 0 := by
  induction ns generalizing n with
  | nil => simp [un, volume]
  | cons m ns ih =>
    have h3 : volume (n :: m :: ns) = n * volume (m :: ns) := rfl
    rw [h3, un, Nat.mul_div_cancel_left _ h.1]
    have := ih m h.2
    cases hu : un (volume (m :: ns)) (m :: ns) with
    | nil => exact absurd hu (un_ne_nil _ _ _)
    | cons y ys =>
      rw [hu] at this
      simpa using this

/-- The state after copying the lines `k, k+1, .., k+d-1`. -/
theorem copyLoop_eq {R : Type} (t s : View) (src : Nat → R) (n0 n : Nat) (ns : List Nat)
    (hsh : t.shape = n0 :: n :: ns) (h : InnerPos (n :: ns)) (d k fuel : Nat) (m : Nat → R)
    (hk : k + d = volume (n :: ns)) (hf : d ≤ fuel) :
    copyLoop t s src fuel (un k (n :: ns)) m =
      some ((List.range' k d).foldl (fun m j =>
        copyLine src (t.stride.headD 0) (s.stride.headD 0) n0
          (t.at (0 :: un j (n :: ns))) (s.at (0 :: un j (n :: ns))) m) m) := by
  have hlast : t.shape.getLastD 0 = (n :: ns).getLastD 0 := by rw [hsh]; simp
  induction d generalizing k fuel m with
  | zero =>
    unfold copyLoop
    rw [if_pos]
    · simp
    · rw [hlast, show k = volume (n :: ns) by omega]; exact un_last_volume n ns h
  | succ d ih =>
    obtain ⟨fuel, rfl⟩ : ∃ f, fuel = f + 1 := ⟨fuel - 1, by omega⟩
    unfold copyLoop
    rw [if_neg]
    · simp only
      rw [hsh]
      simp only [List.tail_cons, List.headD_cons]
      rw [incr_un k n ns h, ih (k + 1) fuel _ (by omega) (by omega), List.range'_succ,
        List.foldl_cons]
    · rw [hlast]
      intro he
      have := un_last k n ns h he
      omega

/-- Folding disjoint lines. -/
theorem fold_lines {R : Type} (src : Nat → R) (ts ss n : Nat) (hts : ts ≠ 0 ∨ n ≤ 1)
    (T S : Nat → Nat) (l : List Nat) (hnd : l.Nodup)
    (hdisj : ∀ j ∈ l, ∀ j' ∈ l, ∀ i < n, ∀ i' < n, T j + i * ts = T j' + i' * ts → j = j')
    (m : Nat → R) :
    (∀ j ∈ l, ∀ i < n, (l.foldl (fun m j => copyLine src ts ss n (T j) (S j) m) m) (T j + i * ts) =
      src (S j + i * ss)) ∧
    (∀ a, (∀ j ∈ l, ∀ i < n, a ≠ T j + i * ts) →
      (l.foldl (fun m j => copyLine src ts ss n (T j) (S j) m) m) a = m a) := by
  induction l generalizing m with
  | nil => simp
  | cons j l ih =>
    obtain ⟨h1, h2⟩ := ih (List.nodup_cons.1 hnd).2
      (fun a ha b hb => hdisj a (by simp [ha]) b (by simp [hb]))
      (copyLine src ts ss n (T j) (S j) m)
    obtain ⟨h3, h4⟩ := copyLine_spec src ts ss n (T j) (S j) m hts
    rw [List.foldl_cons]
    constructor
    · intro j' hj' i hi
      by_cases hm : j' ∈ l
      · exact h1 j' hm i hi
      · have : j' = j := by simpa [hm] using hj'
        subst this
        rw [h2, h3 i hi]
        intro j'' hj'' i'' hi'' he
        have := hdisj j' (by simp) j'' (by simp [hj'']) i hi i'' hi'' he
        subst this
        exact (List.nodup_cons.1 hnd).1 hj''
    · intro a ha
      rw [h2 a (fun j' hj' => ha j' (by simp [hj'])), h4 a (fun i hi => ha j (by simp) i hi)]

theorem at_cons (v : View) (i : Nat) (e : List Nat) (hs : v.stride ≠ []) :
    v.at (i :: e) = v.at (0 :: e) + i * v.stride.headD 0 := by
  obtain ⟨s, st, hst⟩ := List.exists_cons_of_ne_nil hs
  simp only [View.at, hst, address, List.zip_cons_cons, List.foldr_cons, List.headD_cons]
  ring

/-- C13 (copy): when the extents between the first and the last are positive, `copy_values` between
tensors of equal shape terminates; if the cells of the target's elements are pairwise different then
afterwards every element of the target has the value of the corresponding element of the source, and
all other cells are unchanged. (The source is assumed not to overlap the target.) -/
theorem C13_copy_values {R : Type} (t s : View) (src m : Nat → R) (shape : List Nat)
    (hne : shape ≠ []) (ht : t.shape = shape)
    (hst : t.stride.length = shape.length) (hss : s.stride.length = shape.length)
    (hpos : ∀ n ∈ shape.tail.dropLast, 0 < n)
    (hinj : ∀ i j, InShape i shape → InShape j shape → t.at i = t.at j → i = j)
    (fuel : Nat) (hf : volume shape.tail ≤ fuel) :
    ∃ m', copyValues t s src fuel m = some m' ∧
      (∀ idx, InShape idx shape → m' (t.at idx) = src (s.at idx)) ∧
      (∀ a, (∀ idx, InShape idx shape → a ≠ t.at idx) → m' a = m a) := by
  obtain ⟨n0, ns, rfl⟩ := List.exists_cons_of_ne_nil hne
  have hst' : t.stride ≠ [] := by intro h; rw [h] at hst; simp at hst
  have hss' : s.stride ≠ [] := by intro h; rw [h] at hss; simp at hss
  cases ns with
  | nil =>
    unfold copyValues
    rw [ht]
    simp only
    by_cases h0 : 0 = n0
    · refine ⟨m, by rw [if_pos h0], ?_, fun _ _ => rfl⟩
      intro idx hi
      obtain ⟨i, _, _, h1, _⟩ := (inShape_cons_iff _ _ _).1 hi
      omega
    · rw [if_neg h0]
      have hts : t.stride.headD 0 ≠ 0 ∨ n0 ≤ 1 := by
        by_cases h1 : n0 ≤ 1
        · exact Or.inr h1
        · left; intro hz
          have := hinj [0] [1] ((inShape_cons_iff _ _ _).2 ⟨0, [], rfl, by omega, by simp⟩)
            ((inShape_cons_iff _ _ _).2 ⟨1, [], rfl, by omega, by simp⟩)
            (by rw [at_cons t 1 [] hst', hz]; simp)
          simp at this
      obtain ⟨h1, h2⟩ := copyLine_spec src (t.stride.headD 0) (s.stride.headD 0) n0 (t.at [0])
        (s.at [0]) m hts
      refine ⟨_, rfl, ?_, ?_⟩
      · intro idx hi
        obtain ⟨i, e, rfl, hin, he⟩ := (inShape_cons_iff _ _ _).1 hi
        rw [inShape_nil_iff] at he; subst he
        rw [at_cons t i [] hst', at_cons s i [] hss']
        exact h1 i hin
      · intro a ha
        apply h2
        intro i hi he
        refine ha [i] ((inShape_cons_iff _ _ _).2 ⟨i, [], rfl, hi, by simp⟩) ?_
        rw [at_cons t i [] hst']; exact he
  | cons n ns =>
    have hin : InnerPos (n :: ns) := (innerPos_iff _).2 (by simpa using hpos)
    unfold copyValues
    rw [ht]
    simp only
    have hfirst : (n :: ns).map (fun _ => 0) = un 0 (n :: ns) := first_eq (n :: ns)
    rw [hfirst, copyLoop_eq t s src n0 n ns ht hin (volume (n :: ns)) 0 fuel m (by omega)
      (by simpa using hf)]
    have hun : ∀ j, j < volume (n :: ns) → InShape (un j (n :: ns)) (n :: ns) ∧
        position (un j (n :: ns)) (n :: ns) = j := by
      intro j hj
      obtain ⟨idx, h1, h2, h3⟩ := unflatten_inShape j (n :: ns) hj
      rw [un_eq_unflatten j (n :: ns) hj, Option.some.injEq] at h1
      rw [h1]; exact ⟨h2, h3⟩
    have hcell : ∀ j i, j < volume (n :: ns) → i < n0 →
        InShape (i :: un j (n :: ns)) (n0 :: n :: ns) := by
      intro j i hj hi
      exact (inShape_cons_iff _ _ _).2 ⟨i, _, rfl, hi, (hun j hj).1⟩
    have hbody : ∀ (hz : 0 < volume (n :: ns)), t.stride.headD 0 ≠ 0 ∨ n0 ≤ 1 := by
      intro hz
      by_cases h1 : n0 ≤ 1
      · exact Or.inr h1
      · left; intro hzz
        have := hinj (0 :: un 0 (n :: ns)) (1 :: un 0 (n :: ns)) (hcell 0 0 hz (by omega))
          (hcell 0 1 hz (by omega)) (by rw [at_cons t 1 _ hst', hzz]; simp)
        simp at this
    refine ⟨_, rfl, ?_⟩
    by_cases hz : 0 < volume (n :: ns)
    · obtain ⟨h1, h2⟩ := fold_lines src (t.stride.headD 0) (s.stride.headD 0) n0 (hbody hz)
        (fun j => t.at (0 :: un j (n :: ns))) (fun j => s.at (0 :: un j (n :: ns)))
        (List.range' 0 (volume (n :: ns))) List.nodup_range' (by
          intro j hj j' hj' i hi i' hi' he
          simp only [List.mem_range'_1] at hj hj'
          rw [← at_cons t i _ hst', ← at_cons t i' _ hst'] at he
          have := hinj _ _ (hcell j i (by omega) hi) (hcell j' i' (by omega) hi') he
          simp only [List.cons.injEq] at this
          have h5 := (hun j (by omega)).2
          rw [this.2, (hun j' (by omega)).2] at h5
          exact h5.symm) m
      constructor
      · intro idx hi
        obtain ⟨i, e, rfl, hi0, he⟩ := (inShape_cons_iff _ _ _).1 hi
        have hp := position_lt e (n :: ns) he
        have hue : un (position e (n :: ns)) (n :: ns) = e := by
          have h6 := un_eq_unflatten _ _ hp
          rw [unflatten_position e _ he] at h6
          exact (Option.some.inj h6).symm
        have := h1 (position e (n :: ns)) (by simp only [List.mem_range'_1]; omega) i hi0
        simp only [hue] at this
        rw [at_cons t i e hst', at_cons s i e hss']
        exact this
      · intro a ha
        apply h2
        intro j hj i hi he
        simp only [List.mem_range'_1] at hj
        refine ha _ (hcell j i (by omega) hi) ?_
        rw [at_cons t i _ hst']; exact he
    · have hz' : volume (n :: ns) = 0 := by omega
      rw [hz']
      refine ⟨?_, fun _ _ => rfl⟩
      intro idx hi
      obtain ⟨i, e, rfl, hi0, he⟩ := (inShape_cons_iff _ _ _).1 hi
      have hp := position_lt e (n :: ns) he
      omega

theorem incr_zero_head (m e : Nat) (es : List Nat) (j : Nat) (y : Nat) (ys : List Nat) :
    incr (0 :: m :: es) (j :: y :: ys) = (j + 1) :: y :: ys := by
  simp [incr]

/-- C13 (defect): with an empty middle dimension `copy_values` of a third-order tensor never
terminates. -/
theorem C13_copy_values_diverges {R : Type} (t s : View) (src m : Nat → R) (n0 n2 : Nat)
    (h2 : 0 < n2) (ht : t.shape = [n0, 0, n2]) (fuel : Nat) :
    copyValues t s src fuel m = none := by
  have key : ∀ fuel j (m : Nat → R), copyLoop t s src fuel [j, 0] m = none := by
    intro fuel
    induction fuel with
    | zero =>
      intro j m
      unfold copyLoop
      rw [ht, if_neg (by simp; omega)]
    | succ fuel ih =>
      intro j m
      unfold copyLoop
      rw [ht, if_neg (by simp; omega)]
      simp only [List.tail_cons]
      rw [incr_zero_head n2 0 [] j 0 []]
      exact ih _ _
  unfold copyValues
  rw [ht]
  exact key fuel 0 m

/-- Non-vacuity: a strided target (second row of a 2 x 3 matrix) and a strided slice of a 3-tensor. -/
example : let v := (mkPacked 5 [2, 3, 4]).subtensor [none, some 1, none]
    v.shape = [2, 4] ∧ v.stride = [1, 6] ∧ v.packed = false ∧ v.at [1, 2] = 5 + 1 + 2 * 1 + 6 * 2 := by
  decide +kernel

example : ((copyValues ((mkPacked 0 [2, 3]).subtensor [some 1, none]) (mkPacked 0 [3])
    (fun i => 10 + i) 10 (fun _ => 0)).map (fun m => (List.range 7).map m)) =
    some [0, 10, 0, 11, 0, 12, 0] := by decide +kernel

end Tandem.Tensor
