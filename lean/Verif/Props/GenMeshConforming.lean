import Verif.Props.GenMesh
import Verif.Spec.GenMesh
/-! # Property C27: generated meshes are conforming -/
namespace Tandem.GenMesh
open Tandem.MultiIndex Tandem.Distribute Tandem.Spec

/-! ## Local analysis of one cell and its neighbours -/

/-- Neighbour offsets plus one. -/
def taus : Nat → List (List Nat)
  | 0 => [[]]
  | D + 1 => (taus D).flatMap (fun t => [0 :: t, 1 :: t, 2 :: t])

theorem mem_taus (D : Nat) (t : List Nat) (h : t.length = D) (h2 : ∀ x ∈ t, x ≤ 2) : t ∈ taus D := by
  induction D generalizing t with
  | zero => simp [taus, List.eq_nil_of_length_eq_zero h]
  | succ D ih =>
    cases t with
    | nil => simp at h
    | cons x t =>
      have := ih t (by simpa using h) (fun y hy => h2 y (by simp [hy]))
      rw [taus, List.mem_flatMap]
      refine ⟨t, this, ?_⟩
      have : x ≤ 2 := h2 x (by simp)
      have : x = 0 ∨ x = 1 ∨ x = 2 := by omega
      rcases this with rfl | rfl | rfl <;> simp

/-- Corner `a` of the cell is corner `k` of the neighbour with offset `τ - 1`. -/
def sameCorner (D : Nat) (τ : List Nat) (a k : Nat) : Bool :=
  (bits D a).map (· + 1) == List.zipWith (· + ·) τ (bits D k)

/-- Number of simplices of the neighbour with offset `τ - 1` that contain the corners `F`. -/
def localCount (D : Nat) (p : Bool) (F τ : List Nat) : Nat :=
  (tess D (p ^^ decide ((τ.sum + D) % 2 = 1))).countP
    (fun t => F.all (fun a => t.any (fun k => sameCorner D τ a k)))

/-- The facet lies in the side `b` of direction `d` of the cell. -/
def inPlane (D : Nat) (F : List Nat) (d b : Nat) : Bool :=
  F.all (fun a => (bits D a)[d]? == some b)

/-- The planes of the cell that contain the facet. -/
def planes (D : Nat) (F : List Nat) : List (Nat × Nat) :=
  ((List.range D).flatMap (fun d => [(d, 0), (d, 1)])).filter (fun q => inPlane D F q.1 q.2)

/-- What is checked for one simplex and one omitted vertex. -/
def localOK (D : Nat) (p : Bool) (F : List Nat) : Bool :=
  match planes D F with
  | [] => (taus D).all (fun τ => localCount D p F τ == if τ = List.replicate D 1 then 2 else 0)
  | [(d, b)] => (taus D).all (fun τ => localCount D p F τ ==
      if τ = List.replicate D 1 ∨ τ = (List.replicate D 1).set d (2 * b) then 1 else 0)
  | _ => false

theorem local_check2 : ∀ p, ∀ s ∈ tess 2 p, ∀ k ∈ s, localOK 2 p (s.filter (· != k)) = true := by
  intro p; cases p <;> decide +kernel

theorem local_check3 : ∀ p, ∀ s ∈ tess 3 p, ∀ k ∈ s, localOK 3 p (s.filter (· != k)) = true := by
  intro p; cases p <;> decide +kernel

theorem tess_nodup (D : Nat) (p : Bool) : ∀ s ∈ tess D p, s.Nodup := by
  match D, p with
  | 0, _ => simp [tess]
  | 1, p => cases p <;> decide
  | 2, p => cases p <;> decide
  | 3, p => cases p <;> decide
  | D + 4, p => simp [tess]

/-! ## Lists of equal length -/

theorem ext_getD {D : Nat} {l l' : List Nat} (h : l.length = D) (h' : l'.length = D) :
    l = l' ↔ ∀ d, d < D → l.getD d 0 = l'.getD d 0 := by
  constructor
  · rintro rfl _ _; rfl
  · intro hh
    refine List.ext_getElem (by omega) ?_
    intro d h1 h2
    have := hh d (by omega)
    simpa [List.getD, h1, h2] using this

theorem getD_zipWith (f : Nat → Nat → Nat) {D : Nat} {l l' : List Nat} (h : l.length = D)
    (h' : l'.length = D) {d : Nat} (hd : d < D) :
    (List.zipWith f l l').getD d 0 = f (l.getD d 0) (l'.getD d 0) := by
  have h1 : d < l.length := by omega
  have h2 : d < l'.length := by omega
  simp [List.getD, List.getElem?_zipWith, h1, h2]

theorem length_zipWith' (f : Nat → Nat → Nat) {D : Nat} {l l' : List Nat} (h : l.length = D)
    (h' : l'.length = D) : (List.zipWith f l l').length = D := by simp [h, h']

theorem bits_length (D k : Nat) : (bits D k).length = D := by simp [bits]

theorem bits_le (D k d : Nat) : (bits D k).getD d 0 ≤ 1 := by
  simp only [bits, List.getD, List.getElem?_map]
  cases h : (List.range D)[d]? with
  | none => simp
  | some x => simp only [Option.map_some, Option.getD_some]; omega

theorem getD_map_succ {D : Nat} {l : List Nat} (h : l.length = D) {d : Nat} (hd : d < D) :
    (l.map (· + 1)).getD d 0 = l.getD d 0 + 1 := by
  have h1 : d < l.length := by omega
  simp [List.getD, h1]

theorem inShape_getD {e N : List Nat} (h : InShape e N) : e.length = N.length ∧
    ∀ d, d < N.length → e.getD d 0 < N.getD d 0 := by
  refine ⟨h.1, fun d hd => ?_⟩
  have := h.2 d (by rw [h.1]; exact hd) hd
  have h1 : d < e.length := by rw [h.1]; exact hd
  simpa [List.getD, h1, hd] using this

theorem inShape_of_getD {e N : List Nat} (h : e.length = N.length)
    (h2 : ∀ d, d < N.length → e.getD d 0 < N.getD d 0) : InShape e N := by
  refine ⟨h, fun d h1 hd => ?_⟩
  have := h2 d hd
  simpa [List.getD, h1, hd] using this

/-! ## Vertices of cells -/

/-- Grid position of corner `k` of cell `e`. -/
def corner (D : Nat) (e : List Nat) (k : Nat) : List Nat := List.zipWith (· + ·) e (bits D k)

theorem corner_inShape (N e : List Nat) (h : InShape e N) (k : Nat) :
    InShape (corner N.length e k) (np1 N) := by
  obtain ⟨h1, h2⟩ := inShape_getD h
  have hl : (corner N.length e k).length = N.length := length_zipWith' _ h1 (bits_length _ _)
  apply inShape_of_getD
  · simp [hl, np1]
  · intro d hd
    have hd : d < N.length := by simpa [np1] using hd
    rw [corner, getD_zipWith _ h1 (bits_length _ _) hd, np1, getD_map_succ rfl hd]
    have := h2 d hd
    have := bits_le N.length k d
    omega

theorem vid_eq (N e : List Nat) (k : Nat) : vid N e k = position (corner N.length e k) (np1 N) := by
  rw [vid, flatten_eq_position, corner]

theorem position_inj {shape a b : List Nat} (ha : InShape a shape) (hb : InShape b shape)
    (h : position a shape = position b shape) : a = b := by
  have h1 := unflatten_position a shape ha
  have h2 := unflatten_position b shape hb
  rw [h, h2] at h1
  exact (Option.some.inj h1).symm

theorem vid_inj (N e e' : List Nat) (h : InShape e N) (h' : InShape e' N) (a k : Nat) :
    vid N e a = vid N e' k ↔ corner N.length e a = corner N.length e' k := by
  rw [vid_eq, vid_eq]
  exact ⟨position_inj (corner_inShape N e h a) (corner_inShape N e' h' k), fun h => by rw [h]⟩

/-- The offset of cell `e'` with respect to `e`, plus one. -/
def tau (e e' : List Nat) : List Nat := List.zipWith (fun x' x => x' + 1 - x) e' e

/-- The cells `e` and `e'` are at most one apart in every direction. -/
def Near (D : Nat) (e e' : List Nat) : Prop :=
  ∀ d, d < D → e.getD d 0 ≤ e'.getD d 0 + 1 ∧ e'.getD d 0 + 1 ≤ e.getD d 0 + 2

theorem near_of_corner {D : Nat} {e e' : List Nat} (h : e.length = D) (h' : e'.length = D) {a k : Nat}
    (hc : corner D e a = corner D e' k) : Near D e e' := by
  intro d hd
  have h1 := (ext_getD (length_zipWith' _ h (bits_length D a)) (length_zipWith' _ h' (bits_length D k))).1
    hc d hd
  rw [getD_zipWith _ h (bits_length _ _) hd, getD_zipWith _ h' (bits_length _ _) hd] at h1
  have := bits_le D a d
  have := bits_le D k d
  omega

theorem corner_iff {D : Nat} {e e' : List Nat} (h : e.length = D) (h' : e'.length = D)
    (hn : Near D e e') (a k : Nat) :
    corner D e a = corner D e' k ↔ sameCorner D (tau e e') a k = true := by
  have ht : (tau e e').length = D := length_zipWith' _ h' h
  rw [sameCorner, beq_iff_eq, corner, corner,
    ext_getD (length_zipWith' _ h (bits_length D a)) (length_zipWith' _ h' (bits_length D k)),
    ext_getD (by simp [bits_length]) (length_zipWith' _ ht (bits_length D k))]
  apply forall_congr'; intro d
  apply imp_congr_right; intro hd
  rw [getD_zipWith _ h (bits_length _ _) hd, getD_zipWith _ h' (bits_length _ _) hd,
    getD_zipWith _ ht (bits_length _ _) hd, getD_map_succ (bits_length _ _) hd, tau,
    getD_zipWith _ h' h hd]
  have := hn d hd
  omega

theorem isOdd_eq (e : List Nat) : isOdd e = decide (e.sum % 2 = 1) := by
  have : ∀ (b : Bool) (n : Nat), b = decide (n % 2 = 1) →
      e.foldl (fun b ee => b ^^ decide (ee % 2 = 1)) b = decide ((n + e.sum) % 2 = 1) := by
    induction e with
    | nil => intro b n h; simpa using h
    | cons x e ih =>
      intro b n h
      rw [List.foldl_cons, ih _ (n + x), List.sum_cons]
      · congr 2; omega
      · rw [h]
        rcases Nat.mod_two_eq_zero_or_one n with h1 | h1 <;>
          rcases Nat.mod_two_eq_zero_or_one x with h2 | h2 <;>
          simp [h1, h2, Nat.add_mod]
  have := this false 0 rfl
  rw [Nat.zero_add] at this
  exact this

theorem tau_sum : ∀ {D : Nat} {e e' : List Nat}, e.length = D → e'.length = D → Near D e e' →
    (tau e e').sum + e.sum = e'.sum + D := by
  intro D
  induction D with
  | zero =>
    intro e e' h h' _
    rw [List.eq_nil_of_length_eq_zero h, List.eq_nil_of_length_eq_zero h']
    simp [tau]
  | succ D ih =>
    intro e e' h h' hn
    cases e with
    | nil => simp at h
    | cons x e =>
      cases e' with
      | nil => simp at h'
      | cons x' e' =>
        have := ih (e := e) (e' := e') (by simpa using h) (by simpa using h') (by
          intro d hd
          have := hn (d + 1) (by omega)
          simpa using this)
        have h0 := hn 0 (by omega)
        simp only [List.getD_cons_zero] at h0
        simp only [tau, List.zipWith_cons_cons, List.sum_cons] at *
        omega

theorem isOdd_tau {D : Nat} {e e' : List Nat} (h : e.length = D) (h' : e'.length = D)
    (hn : Near D e e') : isOdd e' = (isOdd e ^^ decide (((tau e e').sum + D) % 2 = 1)) := by
  have := tau_sum h h' hn
  rw [isOdd_eq, isOdd_eq]
  rcases Nat.mod_two_eq_zero_or_one e.sum with h1 | h1 <;>
    rcases Nat.mod_two_eq_zero_or_one e'.sum with h2 | h2 <;>
    rcases Nat.mod_two_eq_zero_or_one ((tau e e').sum + D) with h3 | h3 <;>
    simp [h1, h2, h3] <;> omega

theorem tau_mem {D : Nat} {e e' : List Nat} (h : e.length = D) (h' : e'.length = D)
    (hn : Near D e e') : tau e e' ∈ taus D := by
  have ht : (tau e e').length = D := length_zipWith' _ h' h
  apply mem_taus _ _ ht
  intro x hx
  obtain ⟨d, hd, rfl⟩ := List.mem_iff_getElem.1 hx
  have h1 : (tau e e').getD d 0 = (tau e e')[d] := by simp [List.getD, hd]
  rw [← h1, tau, getD_zipWith _ h' h (by omega)]
  have := hn d (by omega)
  omega

/-! ## Counting the elements that contain a facet -/

theorem mem_mk (l : List Nat) (v : Nat) : v ∈ Simplex.mk l ↔ v ∈ l := (Simplex.sort_perm l).mem_iff

/-- Number of simplices of cell `e'` that contain the corners `F` of cell `e`. -/
theorem cell_count (N e e' : List Nat) (h : InShape e N) (h' : InShape e' N) (F : List Nat)
    (hF : F ≠ []) (V : List Nat) (hV : ∀ v, v ∈ V ↔ ∃ a ∈ F, vid N e a = v) :
    (Near N.length e e' → (cellSimplices N e').countP (fun t => V.all (fun v => decide (v ∈ t))) =
      localCount N.length (isOdd e) F (tau e e')) ∧
    (¬ Near N.length e e' → (cellSimplices N e').countP (fun t => V.all (fun v => decide (v ∈ t))) = 0) := by
  have hl := h.1
  have hl' := h'.1
  have key : ∀ t : List Nat, (V.all (fun v => decide (v ∈ Simplex.mk (t.map (vid N e'))))) = true ↔
      ∀ a ∈ F, ∃ k ∈ t, corner N.length e a = corner N.length e' k := by
    intro t
    simp only [List.all_eq_true, decide_eq_true_eq, mem_mk, List.mem_map]
    constructor
    · intro hh a ha
      obtain ⟨k, hk, he⟩ := hh _ ((hV _).2 ⟨a, ha, rfl⟩)
      exact ⟨k, hk, (vid_inj N e e' h h' a k).1 he.symm⟩
    · intro hh v hv
      obtain ⟨a, ha, rfl⟩ := (hV v).1 hv
      obtain ⟨k, hk, he⟩ := hh a ha
      exact ⟨k, hk, ((vid_inj N e e' h h' a k).2 he).symm⟩
  constructor
  · intro hn
    rw [cellSimplices, List.countP_map, localCount, isOdd_tau hl hl' hn]
    apply List.countP_congr
    intro t _
    simp only [Function.comp]
    rw [key t]
    simp only [List.all_eq_true, List.any_eq_true]
    apply forall_congr'; intro a
    apply imp_congr_right; intro _
    apply exists_congr; intro k
    rw [and_congr_right_iff]
    intro _
    exact corner_iff hl hl' hn a k
  · intro hn
    rw [List.countP_eq_zero]
    intro t ht
    obtain ⟨t0, _, rfl⟩ := List.mem_map.1 ht
    rw [key t0]
    intro hh
    obtain ⟨a, ha⟩ := List.exists_mem_of_ne_nil F hF
    obtain ⟨k, _, hc⟩ := hh a ha
    exact hn (near_of_corner hl hl' hc)

theorem sum_two {α : Type} [DecidableEq α] (l : List α) (hl : l.Nodup) (f : α → Nat) (x y : α)
    (hxy : x ≠ y) (h : ∀ z ∈ l, z ≠ x → z ≠ y → f z = 0) :
    (l.map f).sum = (if x ∈ l then f x else 0) + (if y ∈ l then f y else 0) := by
  induction l with
  | nil => simp
  | cons a l ih =>
    have hl' := List.nodup_cons.1 hl
    rw [List.map_cons, List.sum_cons, ih hl'.2 (fun z hz => h z (by simp [hz]))]
    by_cases hax : a = x
    · subst hax
      simp only [List.mem_cons, true_or, if_true, hl'.1, if_false, Ne.symm hxy, false_or]
      omega
    · by_cases hay : a = y
      · subst hay
        simp only [List.mem_cons, true_or, if_true, hl'.1, if_false, hxy, false_or]
        omega
      · rw [h a (by simp) hax hay]
        simp only [List.mem_cons, Ne.symm hax, Ne.symm hay, false_or]
        omega

/-- All cells in order. -/
def cells (N : List Nat) : List (List Nat) :=
  (List.range (volume N)).map (fun c => (unflatten c N).getD [])

theorem mem_cells (N e : List Nat) : e ∈ cells N ↔ InShape e N := by
  rw [cells, List.mem_map]
  constructor
  · rintro ⟨c, hc, rfl⟩
    obtain ⟨idx, h1, h2, _⟩ := unflatten_inShape c N (List.mem_range.1 hc)
    rw [h1]; exact h2
  · intro h
    refine ⟨position e N, List.mem_range.2 (position_lt e N h), ?_⟩
    rw [unflatten_position e N h]; rfl

theorem cells_nodup (N : List Nat) : (cells N).Nodup := by
  rw [cells]
  refine List.Nodup.map_on ?_ List.nodup_range
  intro a ha b hb he
  obtain ⟨i, h1, h2, h3⟩ := unflatten_inShape a N (List.mem_range.1 ha)
  obtain ⟨j, h4, h5, h6⟩ := unflatten_inShape b N (List.mem_range.1 hb)
  rw [h1, h4] at he
  simp only [Option.getD_some] at he
  rw [← h3, ← h6, he]

theorem rankElements_cells (N : List Nat) (hD : N.length = 2 ∨ N.length = 3) (hpos : ∀ n ∈ N, 0 < n) :
    rankElements N 0 1 = some ((cells N).flatMap (cellSimplices N)) := by
  have := rankElements_eq N hD hpos (fun c => cellSimplices N ((unflatten c N).getD []))
    (fun c hc => by
      obtain ⟨e, he, -, -⟩ := unflatten_inShape c N hc
      refine ⟨?_, by simp [cellSimplices, tess_length _ _ hD]⟩
      rw [cubeSimplices_eq N c e he, he]; rfl) 0 1 0 _ (by simp [distribute]) (by omega) (Nat.le_refl _)
  rw [this, cells, List.flatMap_map]
  congr 1
  have hlen := flatMap_length (fun c => cellSimplices N ((unflatten c N).getD [])) (numSimplices N.length)
    (volume N) (fun c _ => by simp [cellSimplices, tess_length _ _ hD])
  rw [← hlen, slice_full]

theorem bits_inj (D : Nat) (hD : D = 2 ∨ D = 3) : ∀ a < 2 ^ D, ∀ k < 2 ^ D, bits D a = bits D k → a = k := by
  rcases hD with rfl | rfl <;> decide

theorem corner_bits {D : Nat} {e : List Nat} (h : e.length = D) {a k : Nat}
    (hc : corner D e a = corner D e k) : bits D a = bits D k := by
  rw [corner, corner, ext_getD (length_zipWith' _ h (bits_length D a))
    (length_zipWith' _ h (bits_length D k))] at hc
  rw [ext_getD (bits_length D a) (bits_length D k)]
  intro d hd
  have := hc d hd
  rw [getD_zipWith _ h (bits_length _ _) hd, getD_zipWith _ h (bits_length _ _) hd] at this
  omega

theorem gridCoord_iff (N e : List Nat) (h : InShape e N) (a d x : Nat) (hd : d < N.length) :
    GridCoord (N.map (· + 1)) (vid N e a) d x ↔ e.getD d 0 + (bits N.length a).getD d 0 = x := by
  have hlen : (corner N.length e a).length = N.length := length_zipWith' _ h.1 (bits_length _ _)
  have hc : (corner N.length e a)[d]? = some (e.getD d 0 + (bits N.length a).getD d 0) := by
    have := getD_zipWith (· + ·) h.1 (bits_length N.length a) hd
    change (corner N.length e a).getD d 0 = _ at this
    rw [← this]
    have h1 : d < (corner N.length e a).length := by omega
    simp [List.getD, h1]
  constructor
  · rintro ⟨idx, h1, h2, h3⟩
    rw [vid_eq] at h2
    have := position_inj h1 (corner_inShape N e h a) h2
    subst this
    rw [hc] at h3
    exact Option.some.inj h3
  · intro hx
    exact ⟨corner N.length e a, corner_inShape N e h a, (vid_eq N e a).symm, by rw [hc, hx]⟩

theorem inPlane_iff (D : Nat) (F : List Nat) (d b : Nat) (hd : d < D) :
    inPlane D F d b = true ↔ ∀ a ∈ F, (bits D a).getD d 0 = b := by
  rw [inPlane, List.all_eq_true]
  apply forall_congr'; intro a
  apply imp_congr_right; intro _
  have : d < (bits D a).length := by rw [bits_length]; exact hd
  simp [List.getD, this]

theorem mem_planes (D : Nat) (F : List Nat) (d b : Nat) :
    (d, b) ∈ planes D F ↔ d < D ∧ b ≤ 1 ∧ inPlane D F d b = true := by
  rw [planes, List.mem_filter, List.mem_flatMap]
  constructor
  · rintro ⟨⟨d', h1, h2⟩, h3⟩
    simp only [List.mem_cons, Prod.mk.injEq, List.not_mem_nil, or_false] at h2
    have h1 := List.mem_range.1 h1
    rcases h2 with ⟨rfl, rfl⟩ | ⟨rfl, rfl⟩
    · exact ⟨h1, by omega, h3⟩
    · exact ⟨h1, by omega, h3⟩
  · rintro ⟨h1, h2, h3⟩
    refine ⟨⟨d, List.mem_range.2 h1, ?_⟩, h3⟩
    have : b = 0 ∨ b = 1 := by omega
    rcases this with rfl | rfl <;> simp

theorem onSide_iff (N e : List Nat) (h : InShape e N) (F V : List Nat) (hF : F ≠ [])
    (hV : ∀ v, v ∈ V ↔ ∃ a ∈ F, vid N e a = v) :
    OnSide N V ↔ ∃ d b, (d, b) ∈ planes N.length F ∧
      (e.getD d 0 + b = 0 ∨ e.getD d 0 + b = N.getD d 0) := by
  obtain ⟨a0, ha0⟩ := List.exists_mem_of_ne_nil F hF
  have conv : ∀ d x, d < N.length → ((∀ v ∈ V, GridCoord (N.map (· + 1)) v d x) ↔
      ∃ b, (d, b) ∈ planes N.length F ∧ e.getD d 0 + b = x) := by
    intro d x hd
    constructor
    · intro hh
      have hh' : ∀ a ∈ F, e.getD d 0 + (bits N.length a).getD d 0 = x := fun a ha =>
        (gridCoord_iff N e h a d x hd).1 (hh _ ((hV _).2 ⟨a, ha, rfl⟩))
      refine ⟨(bits N.length a0).getD d 0, ?_, hh' a0 ha0⟩
      rw [mem_planes]
      refine ⟨hd, bits_le _ _ _, (inPlane_iff _ _ _ _ hd).2 ?_⟩
      intro a ha
      have := hh' a ha
      have := hh' a0 ha0
      omega
    · rintro ⟨b, hb, hx⟩ v hv
      obtain ⟨a, ha, rfl⟩ := (hV v).1 hv
      rw [mem_planes] at hb
      rw [gridCoord_iff N e h a d x hd, (inPlane_iff _ _ _ _ hd).1 hb.2.2 a ha]
      exact hx
  constructor
  · rintro ⟨d, n, hn, hh⟩
    obtain ⟨hd, hn⟩ := List.getElem?_eq_some_iff.1 hn
    have hn' : N.getD d 0 = n := by simp [List.getD, hd, hn]
    rcases hh with hh | hh
    · obtain ⟨b, h1, h2⟩ := (conv d 0 hd).1 hh
      exact ⟨d, b, h1, Or.inl h2⟩
    · obtain ⟨b, h1, h2⟩ := (conv d n hd).1 hh
      exact ⟨d, b, h1, Or.inr (by omega)⟩
  · rintro ⟨d, b, h1, h2⟩
    have hd := ((mem_planes _ _ _ _).1 h1).1
    refine ⟨d, N.getD d 0, by simp [List.getD, hd], ?_⟩
    rcases h2 with h2 | h2
    · exact Or.inl ((conv d 0 hd).2 ⟨b, h1, h2⟩)
    · exact Or.inr ((conv d _ hd).2 ⟨b, h1, h2⟩)

theorem getD_replicate_one {D d : Nat} (hd : d < D) : (List.replicate D 1).getD d 0 = 1 := by
  simp [List.getD, hd]

theorem getD_set {D : Nat} {l : List Nat} (h : l.length = D) {i d x : Nat} (hd : d < D) :
    (l.set i x).getD d 0 = if i = d then x else l.getD d 0 := by
  have h1 : d < l.length := by omega
  simp only [List.getD, List.getElem?_set]
  split
  · rename_i h; subst h; simp [h1]
  · rfl

theorem near_self (D : Nat) (e : List Nat) : Near D e e := by intro d _; omega

theorem tau_one_iff {D : Nat} {e z : List Nat} (h : e.length = D) (h' : z.length = D)
    (hn : Near D e z) : tau e z = List.replicate D 1 ↔ z = e := by
  rw [tau, ext_getD (length_zipWith' _ h' h) (by simp), ext_getD h' h]
  apply forall_congr'; intro d
  apply imp_congr_right; intro hd
  rw [getD_zipWith _ h' h hd, getD_replicate_one hd]
  have := hn d hd
  omega

theorem tau_set_iff {D : Nat} {e z : List Nat} (h : e.length = D) (h' : z.length = D)
    (hn : Near D e z) (i b : Nat) :
    tau e z = (List.replicate D 1).set i (2 * b) ↔
      ∀ d, d < D → z.getD d 0 + 1 = e.getD d 0 + (if i = d then 2 * b else 1) := by
  rw [tau, ext_getD (length_zipWith' _ h' h) (by simp)]
  apply forall_congr'; intro d
  apply imp_congr_right; intro hd
  rw [getD_zipWith _ h' h hd, getD_set (by simp) hd, getD_replicate_one hd]
  have := hn d hd
  omega

/-- The facet of an element without vertex `w`, seen from the cell of the element. -/
theorem facet_local (N : List Nat) (hD : N.length = 2 ∨ N.length = 3) (hpos : ∀ n ∈ N, 0 < n)
    (G : List (List Nat)) (hG : rankElements N 0 1 = some G) (s : List Nat) (hs : s ∈ G) (w : Nat)
    (hw : w ∈ s) :
    s.Nodup ∧ G = (cells N).flatMap (cellSimplices N) ∧ ∃ e F, e ∈ cells N ∧ F ≠ [] ∧
      (∀ v, v ∈ s.filter (· != w) ↔ ∃ a ∈ F, vid N e a = v) ∧
      localOK N.length (isOdd e) F = true := by
  rw [rankElements_cells N hD hpos] at hG
  cases hG
  obtain ⟨e, he, hs⟩ := List.mem_flatMap.1 hs
  have hin := (mem_cells N e).1 he
  obtain ⟨hlen, hlt⟩ := inShape_getD hin
  rw [cellSimplices, List.mem_map] at hs
  obtain ⟨s0, hs0, rfl⟩ := hs
  rw [mem_mk, List.mem_map] at hw
  obtain ⟨k, hk, rfl⟩ := hw
  have inj : ∀ a ∈ s0, ∀ b ∈ s0, vid N e a = vid N e b → a = b := by
    intro a ha b hb hab
    exact bits_inj _ hD a (tess_lt _ _ _ hs0 a ha) b (tess_lt _ _ _ hs0 b hb)
      (corner_bits hlen ((vid_inj N e e hin hin a b).1 hab))
  have hV : ∀ v, v ∈ (Simplex.mk (s0.map (vid N e))).filter (· != vid N e k) ↔
      ∃ a ∈ s0.filter (· != k), vid N e a = v := by
    intro v
    simp only [List.mem_filter, mem_mk, List.mem_map, bne_iff_ne, ne_eq]
    constructor
    · rintro ⟨⟨a, ha, rfl⟩, hne⟩
      exact ⟨a, ⟨ha, fun h => hne (by rw [h])⟩, rfl⟩
    · rintro ⟨a, ⟨ha, hne⟩, rfl⟩
      exact ⟨⟨a, ha, rfl⟩, fun h => hne (inj a ha k hk h)⟩
  have hF : s0.filter (· != k) ≠ [] := by
    intro h0
    have h1 := tess_simplex_length _ _ _ hs0
    have hnd := tess_nodup _ _ _ hs0
    rw [List.filter_eq_nil_iff] at h0
    have : ∀ a ∈ s0, a = k := by intro a ha; simpa using h0 a ha
    cases s0 with
    | nil => simp at h1
    | cons a s1 =>
      cases s1 with
      | nil => rcases hD with h | h <;> rw [h] at h1 <;> simp at h1
      | cons b s2 =>
        have ha := this a (by simp)
        have hb := this b (by simp)
        subst ha; subst hb
        simp at hnd
  have hok : localOK N.length (isOdd e) (s0.filter (· != k)) = true := by
    rcases hD with h | h
    · rw [h] at hs0 ⊢; exact local_check2 _ s0 hs0 k hk
    · rw [h] at hs0 ⊢; exact local_check3 _ s0 hs0 k hk
  refine ⟨?_, rfl, e, _, he, hF, hV, hok⟩
  rw [Simplex.mk, (Simplex.sort_perm _).nodup_iff]
  exact List.Nodup.map_on inj (tess_nodup _ _ _ hs0)

/-- C27: in a generated mesh (two or three dimensions, at least one cell per direction, any number of
cells), every element has distinct vertices, and for every element and every choice of the vertex left
out, the remaining vertices (a facet) are contained in exactly one element if they lie on a side of the
box, and in exactly two elements otherwise.  So neighbouring cells are cut in a matching way. -/
theorem C27_conforming (N : List Nat) (hD : N.length = 2 ∨ N.length = 3) (hpos : ∀ n ∈ N, 0 < n)
    (G : List (List Nat)) (hG : rankElements N 0 1 = some G) (s : List Nat) (hs : s ∈ G) (w : Nat)
    (hw : w ∈ s) :
    s.Nodup ∧
    (OnSide N (s.filter (· != w)) →
      G.countP (fun t => (s.filter (· != w)).all (fun v => decide (v ∈ t))) = 1) ∧
    (¬ OnSide N (s.filter (· != w)) →
      G.countP (fun t => (s.filter (· != w)).all (fun v => decide (v ∈ t))) = 2) := by
  obtain ⟨hnd, rfl, e, F, he, hF, hV, hok⟩ := facet_local N hD hpos G hG s hs w hw
  have hin := (mem_cells N e).1 he
  obtain ⟨hlen, hlt⟩ := inShape_getD hin
  refine ⟨hnd, ?_⟩
  generalize s.filter (· != w) = V at hV
  rw [onSide_iff N e hin F V hF hV, List.countP_flatMap]
  have hcount := fun z (hz : InShape z N) => cell_count N e z hin hz F hF V hV
  have hnil : ([] : List Nat) ∉ cells N := by
    intro h
    have := ((mem_cells N []).1 h).1
    simp at this
    omega
  have hene : e ≠ [] := by
    intro h; subst h; exact hnil he
  simp only [Function.comp_def]
  rw [localOK] at hok
  split at hok
  · rename_i hp
    rw [hp]
    simp only [List.not_mem_nil, false_and, exists_false, false_implies, not_false_eq_true, true_implies,
      true_and]
    rw [List.all_eq_true] at hok
    rw [sum_two (cells N) (cells_nodup N) _ e [] hene, if_pos he, if_neg hnil,
      (hcount e hin).1 (near_self _ _)]
    · have := hok _ (tau_mem hlen hlen (near_self _ _))
      rw [beq_iff_eq, if_pos ((tau_one_iff hlen hlen (near_self _ _)).2 rfl)] at this
      rw [this]
    · intro z hz hze _
      have hz := (mem_cells N z).1 hz
      by_cases hn : Near N.length e z
      · rw [(hcount z hz).1 hn]
        have := hok _ (tau_mem hlen hz.1 hn)
        rw [beq_iff_eq, if_neg (fun h => hze ((tau_one_iff hlen hz.1 hn).1 h))] at this
        exact this
      · exact (hcount z hz).2 hn
  · rename_i d b hp
    have hmem : (d, b) ∈ planes N.length F := by rw [hp]; simp
    obtain ⟨hd, hb, -⟩ := (mem_planes _ _ _ _).1 hmem
    rw [List.all_eq_true] at hok
    have hed := hlt d hd
    have hself := hok _ (tau_mem hlen hlen (near_self _ _))
    rw [beq_iff_eq, if_pos (Or.inl ((tau_one_iff hlen hlen (near_self _ _)).2 rfl)),
      ← (hcount e hin).1 (near_self _ _)] at hself
    have hside : (∃ d' b', (d', b') ∈ planes N.length F ∧
        (e.getD d' 0 + b' = 0 ∨ e.getD d' 0 + b' = N.getD d' 0)) ↔
        (e.getD d 0 + b = 0 ∨ e.getD d 0 + b = N.getD d 0) := by
      constructor
      · rintro ⟨d', b', h1, h2⟩
        rw [hp] at h1
        simp only [List.mem_singleton, Prod.mk.injEq] at h1
        obtain ⟨rfl, rfl⟩ := h1
        exact h2
      · intro h; exact ⟨d, b, hmem, h⟩
    rw [hside]
    -- the neighbour across the facet
    have hzero : ∀ z ∈ cells N, z ≠ e → (Near N.length e z →
        tau e z ≠ (List.replicate N.length 1).set d (2 * b)) →
        (cellSimplices N z).countP (fun t => V.all (fun v => decide (v ∈ t))) = 0 := by
      intro z hz hze hzt
      have hz := (mem_cells N z).1 hz
      by_cases hn : Near N.length e z
      · rw [(hcount z hz).1 hn]
        have := hok _ (tau_mem hlen hz.1 hn)
        rw [beq_iff_eq, if_neg] at this
        · exact this
        · rintro (h | h)
          · exact hze ((tau_one_iff hlen hz.1 hn).1 h)
          · exact hzt hn h
      · exact (hcount z hz).2 hn
    constructor
    · intro hb1
      rw [sum_two (cells N) (cells_nodup N) _ e [] hene, if_pos he, if_neg hnil, hself]
      intro z hz hze _
      apply hzero z hz hze
      intro hn h
      have hz := inShape_getD ((mem_cells N z).1 hz)
      have := (tau_set_iff hlen hz.1 hn d b).1 h d hd
      rw [if_pos rfl] at this
      have := hz.2 d hd
      omega
    · intro hb1
      have hyl : (e.set d (e.getD d 0 + 2 * b - 1)).length = N.length := by simp [hlen]
      have hyin : InShape (e.set d (e.getD d 0 + 2 * b - 1)) N := by
        apply inShape_of_getD hyl
        intro i hi
        rw [getD_set hlen hi]
        split
        · rename_i h; subst h; omega
        · exact hlt i hi
      have hyn : Near N.length e (e.set d (e.getD d 0 + 2 * b - 1)) := by
        intro i hi
        rw [getD_set hlen hi]
        split
        · rename_i h; subst h; omega
        · omega
      have hyt : tau e (e.set d (e.getD d 0 + 2 * b - 1)) = (List.replicate N.length 1).set d (2 * b) := by
        rw [tau_set_iff hlen hyl hyn]
        intro i hi
        rw [getD_set hlen hi]
        split
        · rename_i h; subst h; omega
        · rfl
      have hye : e ≠ e.set d (e.getD d 0 + 2 * b - 1) := by
        intro h
        have := congrArg (fun l => l.getD d 0) h
        simp only [getD_set hlen hd, if_true] at this
        omega
      rw [sum_two (cells N) (cells_nodup N) _ e _ hye, if_pos he, if_pos ((mem_cells N _).2 hyin),
        hself, (hcount _ hyin).1 hyn]
      · have := hok _ (tau_mem hlen hyl hyn)
        rw [beq_iff_eq, if_pos (Or.inr hyt)] at this
        rw [this]
      · intro z hz hze hzy
        apply hzero z hz hze
        intro hn h
        apply hzy
        have hzl := ((mem_cells N z).1 hz).1
        rw [ext_getD hzl hyl]
        intro i hi
        have := (tau_set_iff hlen hzl hn d b).1 h i hi
        rw [getD_set hlen hi]
        split
        · rename_i hh; subst hh; rw [if_pos rfl] at this; omega
        · rename_i hh; rw [if_neg hh] at this; omega
  · simp at hok

example : rankElements [2, 1] 0 1 = some [[0, 1, 3], [1, 3, 4], [1, 2, 5], [1, 4, 5]] := by decide

/-- The facet `{1, 4}` between the two cells of a 2 x 1 mesh is in two elements, `{0, 1}` in one. -/
example : ([[0, 1, 3], [1, 3, 4], [1, 2, 5], [1, 4, 5]].countP
      (fun t => [1, 4].all (fun v => decide (v ∈ t))) = 2) ∧
    ([[0, 1, 3], [1, 3, 4], [1, 2, 5], [1, 4, 5]].countP
      (fun t => [0, 1].all (fun v => decide (v ∈ t))) = 1) := by decide

end Tandem.GenMesh
