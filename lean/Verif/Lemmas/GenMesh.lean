import Verif.Model.GenMesh
import Verif.Lemmas.MultiIndex
import Verif.Props.Distribute
/-! Helper lemmas for the mesh generator (C26, C27). -/
namespace Tandem.GenMesh
open Tandem.MultiIndex Tandem.Distribute Tandem.Spec

theorem foldl_mul (l : List Nat) (a : Nat) : l.foldl (· * ·) a = a * volume l := by
  induction l generalizing a with
  | nil => simp [volume]
  | cons n l ih =>
    rw [List.foldl_cons, ih]
    simp [volume, Nat.mul_assoc]

theorem prod_eq (l : List Nat) : prod l = volume l := by
  rw [prod, foldl_mul, Nat.one_mul]

/-! ## Slices -/

/-- The entries `[a, b)` of a list. -/
def slice {α : Type} (l : List α) (a b : Nat) : List α := (l.take b).drop a

theorem slice_append {α : Type} (l : List α) (a b c : Nat) (hab : a ≤ b) (hbc : b ≤ c) :
    slice l a b ++ slice l b c = slice l a c := by
  have h : l.take b = (l.take c).take b := by rw [List.take_take, Nat.min_eq_left hbc]
  rw [slice, slice, slice, h]
  generalize l.take c = m
  by_cases hb : b ≤ m.length
  · conv => rhs; rw [← List.take_append_drop b m]
    rw [List.drop_append, List.length_take, Nat.min_eq_left hb, Nat.sub_eq_zero_of_le hab,
      List.drop_zero]
  · rw [List.take_of_length_le (by omega), List.drop_eq_nil_of_le (i := b) (by omega),
      List.append_nil]

theorem slice_length {α : Type} (l : List α) (a b : Nat) (hb : b ≤ l.length) :
    (slice l a b).length = b - a := by
  simp [slice, Nat.min_eq_left hb]

theorem slice_full {α : Type} (l : List α) : slice l 0 l.length = l := by simp [slice]

theorem slice_flat {α : Type} (l : List α) (f : Nat → Nat × Nat) (h0 : (f 0).1 = 0) :
    ∀ size, 0 < size → (∀ r, r + 1 < size → (f r).2 = (f (r + 1)).1) →
      (∀ r, r < size → (f r).1 ≤ (f r).2) →
      ((List.range size).map (fun r => slice l (f r).1 (f r).2)).flatten = slice l 0 (f (size - 1)).2 := by
  intro size
  induction size with
  | zero => intro h; omega
  | succ n ih =>
    intro _ h1 h2
    rw [List.range_succ, List.map_append, List.flatten_append]
    rcases Nat.eq_zero_or_pos n with hn | hn
    · subst hn; simp [h0]
    · rw [ih hn (fun r hr => h1 r (by omega)) (fun r hr => h2 r (by omega))]
      have e := h1 (n - 1) (by omega)
      rw [Nat.sub_add_cancel hn] at e
      rw [e]
      simp only [List.map_cons, List.map_nil, List.flatten_cons, List.flatten_nil, List.append_nil,
        Nat.add_sub_cancel]
      exact slice_append _ _ _ _ (Nat.zero_le _) (h2 n (by omega))

theorem copyInto_append {α : Type} (a b c l : List α) (off : Nat) (h : off = a.length)
    (hl : l.length = b.length) : copyInto (a ++ (b ++ c)) off l = some (a ++ (l ++ c)) := by
  subst h
  rw [copyInto, if_pos (by simp; omega)]
  congr 1
  rw [hl, List.drop_append, List.drop_append, List.take_left]
  simp

/-! ## Cells -/

/-- Bit `d` of `k`, for `d < D`. -/
def bits (D k : Nat) : List Nat := (List.range D).map (fun d => k / 2 ^ d % 2)

theorem unflatten_bits (D k : Nat) : unflatten k (List.replicate D 2) = some (bits D k) := by
  induction D generalizing k with
  | zero => simp [unflatten, bits]
  | succ D ih =>
    rw [List.replicate_succ, unflatten, if_neg (by omega), ih]
    simp only [Option.map_some, bits, List.range_succ_eq_map, List.map_cons, List.map_map]
    simp only [Nat.pow_zero, Nat.div_one, Option.some.injEq, List.cons.injEq, true_and]
    apply List.map_congr_left
    intro d _
    simp [Nat.pow_succ, Nat.div_div_eq_div_mul, Nat.mul_comm]

/-- Global number of corner `k` of cell `e`. -/
def vid (N e : List Nat) (k : Nat) : Nat :=
  flatten (List.zipWith (· + ·) e (bits N.length k)) (np1 N)

theorem mapM_some {α β : Type} (f : α → β) (l : List α) :
    l.mapM (fun a => some (f a)) = some (l.map f) := by
  induction l with
  | nil => rfl
  | cons a l ih => simp [List.mapM_cons, ih]

theorem mapM_congr_some {α β : Type} (g : α → Option β) (f : α → β) (l : List α)
    (h : ∀ a ∈ l, g a = some (f a)) : l.mapM g = some (l.map f) := by
  induction l with
  | nil => rfl
  | cons a l ih =>
    rw [List.mapM_cons, h a (by simp), ih (fun b hb => h b (by simp [hb]))]
    rfl

theorem mapM_none {α β : Type} (g : α → Option β) (l : List α) (a : α) (ha : a ∈ l)
    (h : g a = none) : l.mapM g = none := by
  induction l with
  | nil => simp at ha
  | cons b l ih =>
    rw [List.mapM_cons]
    rcases List.mem_cons.1 ha with rfl | ha
    · rw [h]; rfl
    · rw [ih ha]
      cases g b <;> rfl

/-- The simplices of cell `e`. -/
def cellSimplices (N e : List Nat) : List (List Nat) :=
  (tess N.length (isOdd e)).map (fun s => Simplex.mk (s.map (vid N e)))

theorem tess_lt (D : Nat) (o : Bool) : ∀ s ∈ tess D o, ∀ c ∈ s, c < 2 ^ D := by
  match D, o with
  | 0, _ => simp [tess]
  | 1, o => cases o <;> decide
  | 2, o => cases o <;> decide
  | 3, o => cases o <;> decide
  | D + 4, o => simp [tess]

theorem cubeSimplices_eq (N : List Nat) (c : Nat) (e : List Nat) (h : unflatten c N = some e) :
    cubeSimplices N c = some (cellSimplices N e) := by
  have h1 : (List.range (2 ^ N.length)).mapM (fun vflat => do
      let o ← unflatten vflat (List.replicate N.length 2)
      return flatten (List.zipWith (· + ·) e o) (np1 N)) =
      some ((List.range (2 ^ N.length)).map (vid N e)) := by
    apply mapM_congr_some
    intro a _
    rw [unflatten_bits]
    rfl
  rw [cubeSimplices, h]
  rw [show (some e >>= fun e => _) = _ from rfl]
  simp only [Option.bind_eq_bind, Option.bind_some] at h1 ⊢
  rw [h1]
  simp only [Option.bind_some, Option.pure_def, Option.some.injEq, cellSimplices]
  apply List.map_congr_left
  intro s hs
  congr 1
  apply List.map_congr_left
  intro k hk
  simp [List.getD, tess_lt _ _ s hs k hk]

theorem tess_length (D : Nat) (o : Bool) (h : D = 2 ∨ D = 3) :
    (tess D o).length = numSimplices D := by
  rcases h with rfl | rfl <;> cases o <;> rfl

theorem tess_simplex_length (D : Nat) (o : Bool) : ∀ s ∈ tess D o, s.length = D + 1 := by
  match D, o with
  | 0, _ => simp [tess]
  | 1, o => cases o <;> decide
  | 2, o => cases o <;> decide
  | 3, o => cases o <;> decide
  | D + 4, o => simp [tess]

/-! ## The element loop -/

section loop
variable {α : Type}

theorem flatMap_length (cs : Nat → List α) (S n : Nat) (h : ∀ c, c < n → (cs c).length = S) :
    ((List.range n).flatMap cs).length = n * S := by
  induction n with
  | zero => simp
  | succ n ih =>
    rw [List.range_succ, List.flatMap_append, List.length_append, ih (fun c hc => h c (by omega))]
    simp [h n (by omega), Nat.succ_mul]

theorem flatMap_slice (cs : Nat → List α) (S n c : Nat) (h : ∀ c, c < n → (cs c).length = S)
    (hc : c < n) (a b : Nat) (hb : b ≤ S) :
    slice ((List.range n).flatMap cs) (c * S + a) (c * S + b) = slice (cs c) a b := by
  have e : List.range n = List.range c ++ (c :: (List.range' (c + 1) (n - c - 1))) := by
    have := List.range'_append_1 (s := 0) (m := c) (n := n - c)
    rw [Nat.zero_add, show c + (n - c) = n by omega, show n - c = (n - c - 1) + 1 by omega,
      List.range'_succ] at this
    rw [List.range_eq_range', List.range_eq_range', this]
  rw [e, List.flatMap_append, List.flatMap_cons]
  have hl := flatMap_length cs S c (fun d hd => h d (by omega))
  have hcl := h c hc
  generalize (List.range c).flatMap cs = A at hl
  rw [slice, List.take_append, List.drop_append, hl, List.take_append]
  rw [List.drop_eq_nil_of_le (by simp; omega)]
  rw [show c * S + b - c * S = b by omega, hcl]
  have : (A.take (c * S + b)).length = c * S := by simp [hl]
  rw [this, show b - S = 0 by omega, show c * S + a - c * S = a by omega]
  simp [slice]

end loop

theorem cubeLoop_ok (N : List Nat) (S : Nat) (hS : S = numSimplices N.length) (hS0 : 0 < S)
    (cs : Nat → List (List Nat)) (n : Nat)
    (hcs : ∀ c, c < n → cubeSimplices N c = some (cs c) ∧ (cs c).length = S)
    (eFrom eTo : Nat) (hft : eFrom ≤ eTo) (hto : eTo ≤ n * S) (hto0 : 0 < eTo)
    (ecubeFrom ecubeTo : Nat) (h1 : ecubeFrom = eFrom / S) (h2 : ecubeTo = 1 + (eTo - 1) / S) :
    ∀ k c, c + k = ecubeTo → ecubeFrom ≤ c →
      cubeLoop N eFrom eTo ecubeFrom ecubeTo k c
        (slice ((List.range n).flatMap cs) eFrom (max eFrom (min eTo (c * S))) ++
          List.replicate (eTo - max eFrom (min eTo (c * S))) []) =
      some (slice ((List.range n).flatMap cs) eFrom eTo) := by
  have hG := flatMap_length cs S n (fun c hc => (hcs c hc).2)
  have hsl := fun c hc a b hb => flatMap_slice cs S n c (fun c hc => (hcs c hc).2) hc a b hb
  generalize (List.range n).flatMap cs = G at hG hsl
  have q1 : ecubeFrom * S ≤ eFrom := by rw [h1]; exact Nat.div_mul_le_self _ _
  have q2 : eFrom < ecubeFrom * S + S := by
    rw [h1]; have := Nat.lt_div_mul_add (a := eFrom) hS0; omega
  have q3 : eTo ≤ ecubeTo * S := by
    rw [h2]
    have := Nat.lt_div_mul_add (a := eTo - 1) hS0
    rw [Nat.add_mul, Nat.one_mul]; omega
  have q4 : ecubeTo * S < eTo + S := by
    rw [h2]
    have := Nat.div_mul_le_self (eTo - 1) S
    rw [Nat.add_mul, Nat.one_mul]; omega
  intro k
  induction k with
  | zero =>
    intro c hc _
    have : min eTo (c * S) = eTo := by
      have : c = ecubeTo := by omega
      subst this; omega
    rw [cubeLoop, this, Nat.max_eq_right hft]
    simp
  | succ k ih =>
    intro c hc hle
    have hcn : c < n := by
      have hcS : c * S + S ≤ ecubeTo * S := by
        rw [← Nat.succ_mul]; exact Nat.mul_le_mul_right _ (by omega)
      apply Nat.lt_of_mul_lt_mul_right (a := S)
      omega
    obtain ⟨hc1, hc2⟩ := hcs c hcn
    rw [cubeLoop]
    simp only [Option.bind_eq_bind, hc1, Option.bind_some, ← hS]
    -- bounds of this cube
    have hcS : c * S + S ≤ ecubeTo * S := by
      rw [← Nat.succ_mul]; exact Nat.mul_le_mul_right _ (by omega)
    have hfS : ecubeFrom * S ≤ c * S := Nat.mul_le_mul_right _ hle
    have hf : (if c = ecubeFrom then eFrom - ecubeFrom * S else 0) = max eFrom (min eTo (c * S)) - c * S := by
      split
      · rename_i h; subst h; omega
      · rename_i h
        have : ecubeFrom * S + S ≤ c * S := by
          rw [← Nat.succ_mul]; exact Nat.mul_le_mul_right _ (by omega)
        omega
    have hl : S - (if c = ecubeTo - 1 then ecubeTo * S - eTo else 0) =
        max eFrom (min eTo ((c + 1) * S)) - c * S := by
      rw [Nat.succ_mul]
      split
      · rename_i h
        have : ecubeTo * S = c * S + S := by
          rw [← Nat.succ_mul]; congr 1; omega
        omega
      · rename_i h
        have : c * S + S + S ≤ ecubeTo * S := by
          rw [← Nat.succ_mul, ← Nat.succ_mul]; exact Nat.mul_le_mul_right _ (by omega)
        omega
    rw [hf, hl]
    have hm1 : c * S ≤ max eFrom (min eTo (c * S)) := by omega
    have hm2 : max eFrom (min eTo (c * S)) ≤ max eFrom (min eTo ((c + 1) * S)) := by
      rw [Nat.succ_mul]; omega
    have hm3 : max eFrom (min eTo ((c + 1) * S)) ≤ eTo := by omega
    have hm4 : max eFrom (min eTo ((c + 1) * S)) ≤ c * S + S := by
      rw [Nat.succ_mul]
      by_cases hh : c = ecubeFrom
      · subst hh; omega
      · have : ecubeFrom * S + S ≤ c * S := by
          rw [← Nat.succ_mul]; exact Nat.mul_le_mul_right _ (by omega)
        omega
    have hm5 : eFrom ≤ max eFrom (min eTo (c * S)) := by omega
    have IH := ih (c + 1) (by omega) (by omega)
    generalize max eFrom (min eTo ((c + 1) * S)) = b at *
    generalize max eFrom (min eTo (c * S)) = a at *
    have hpart : ((cs c).take (b - c * S)).drop (a - c * S) = slice G a b := by
      have := hsl c hcn (a - c * S) (b - c * S) (by omega)
      rw [show c * S + (a - c * S) = a by omega, show c * S + (b - c * S) = b by omega] at this
      rw [this]; rfl
    rw [hpart]
    have hrep : List.replicate (eTo - a) ([] : List Nat) =
        List.replicate (b - a) [] ++ List.replicate (eTo - b) [] := by
      rw [List.replicate_append_replicate]; congr 1; omega
    rw [hrep, copyInto_append _ _ _ _ _ (by rw [slice_length _ _ _ (by omega)]; omega)
      (by rw [slice_length _ _ _ (by omega)]; simp)]
    simp only [Option.bind_some]
    rw [← List.append_assoc, slice_append _ _ _ _ hm5 hm2]
    exact IH

/-- Elements of one rank: a slice of the global list. -/
theorem rankElements_eq (N : List Nat) (hD : N.length = 2 ∨ N.length = 3) (hpos : ∀ n ∈ N, 0 < n)
    (cs : Nat → List (List Nat)) (hcs : ∀ c, c < volume N → cubeSimplices N c = some (cs c) ∧
      (cs c).length = numSimplices N.length) (rank size a b : Nat)
    (hd : distribute 0 (volume N * numSimplices N.length) rank size = some (a, b)) (hab : a ≤ b)
    (hb : b ≤ volume N * numSimplices N.length) :
    rankElements N rank size = some (slice ((List.range (volume N)).flatMap cs) a b) := by
  have hS0 : 0 < numSimplices N.length := by rcases hD with h | h <;> rw [h] <;> decide
  have hv : 0 < volume N := by
    clear hd hcs hb hD hS0
    induction N with
    | nil => simp [volume]
    | cons n N ih =>
      have := ih (fun m hm => hpos m (by simp [hm]))
      have h2 := hpos n (by simp)
      simp only [volume, List.foldr_cons] at *
      exact Nat.mul_pos h2 this
  rw [rankElements]
  simp only [Option.bind_eq_bind, prod_eq, hd, Option.bind_some]
  by_cases hb0 : b = 0
  · subst hb0
    have ha : a = 0 := by omega
    subst ha
    have h1 : (1 + Int.tdiv (((0 : Nat) : Int) - 1) (numSimplices N.length : Int)).toNat = 1 := by
      rcases hD with h | h <;> rw [h] <;> decide
    rw [h1]
    simp only [Nat.zero_div, Nat.sub_zero, List.replicate_zero]
    obtain ⟨hc1, hc2⟩ := hcs 0 hv
    simp [cubeLoop, hc1, copyInto, slice]
  · have h1 : (1 + Int.tdiv ((b : Int) - 1) (numSimplices N.length : Int)).toNat =
        1 + (b - 1) / numSimplices N.length := by
      rw [show ((b : Int) - 1) = ((b - 1 : Nat) : Int) by omega, ← Int.ofNat_tdiv]
      generalize (b - 1) / numSimplices N.length = q
      omega
    rw [h1]
    have hle : a / numSimplices N.length ≤ 1 + (b - 1) / numSimplices N.length := by
      rcases Nat.eq_or_lt_of_le hab with h | h
      · subst h
        have : a / numSimplices N.length ≤ (a - 1 + numSimplices N.length) / numSimplices N.length :=
          Nat.div_le_div_right (by omega)
        rw [Nat.add_div_right _ hS0] at this
        omega
      · have : a / numSimplices N.length ≤ (b - 1) / numSimplices N.length :=
          Nat.div_le_div_right (by omega)
        omega
    have := cubeLoop_ok N _ rfl hS0 cs (volume N) hcs a b hab hb (by omega) _ _ rfl rfl
      (1 + (b - 1) / numSimplices N.length - a / numSimplices N.length) (a / numSimplices N.length)
      (by omega) (Nat.le_refl _)
    have hmx : max a (min b (a / numSimplices N.length * numSimplices N.length)) = a := by
      have := Nat.div_mul_le_self a (numSimplices N.length)
      omega
    rw [hmx] at this
    have hsl : slice ((List.range (volume N)).flatMap cs) a a = [] := by
      simp [slice, List.drop_eq_nil_of_le]
    rw [hsl, List.nil_append] at this
    exact this

end Tandem.GenMesh
