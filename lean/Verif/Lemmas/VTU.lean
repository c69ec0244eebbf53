import Verif.Model.VTU
import Verif.Spec.VTU
/-! # Lemmas about the VTU writer -/
namespace Tandem.VTU
open Tandem.Spec

variable {α : Type}

theorem store_some {m : List α} {j : Nat} {v : α} (h : j < m.length) : store m j v = some (m.set j v) := by
  simp [store, h]

/-! ## widening -/

theorem pointStep (zero : α) (base i pd : Nat) (m : List α) (hpd : pd = 1 ∨ pd = 2)
    (hl : base + 3 * i + 3 ≤ m.length) :
    ∃ m', (do let m ← zeroLoop zero base i pd 3 m; copyLoop base i pd pd m) = some m' ∧
      m'.length = m.length ∧
      (∀ d, d < 3 → m'[base + (d + i * 3)]? = if d < pd then m[base + (d + i * pd)]? else some zero) ∧
      ∀ j, (j < base + i * 3 ∨ base + i * 3 + 3 ≤ j) → m'[j]? = m[j]? := by
  rcases hpd with rfl | rfl
  · have hx : base + (0 + i * 1) < m.length := by omega
    refine ⟨((m.set (base + (2 + i * 3)) zero).set (base + (1 + i * 3)) zero).set (base + (0 + i * 3))
      m[base + (0 + i * 1)], ?_, by simp, ?_, ?_⟩
    · have e1 : base + (1 + i * 3) ≠ base + (0 + i * 1) := by omega
      have e2 : base + (2 + i * 3) ≠ base + (0 + i * 1) := by omega
      simp only [zeroLoop, copyLoop, Nat.le_refl, if_true, Nat.reduceLeDiff, if_false]
      rw [store_some (by omega)]
      simp only [Option.bind_eq_bind, Option.bind_some]
      rw [store_some (by simp only [List.length_set]; omega)]
      simp only [Option.bind_some]
      rw [List.getElem?_set_ne e1, List.getElem?_set_ne e2, List.getElem?_eq_getElem hx]
      simp only [Option.bind_some]
      rw [store_some (by simp only [List.length_set]; omega)]
      rfl
    · intro d hd
      rcases (show d = 0 ∨ d = 1 ∨ d = 2 by omega) with rfl | rfl | rfl
      · have : base + (0 + i * 3) < m.length := by omega
        rw [List.getElem?_set_self (by simp only [List.length_set]; omega), if_pos (by omega),
          List.getElem?_eq_getElem hx]
      · rw [List.getElem?_set_ne (by omega), List.getElem?_set_self (by simp only [List.length_set]; omega),
          if_neg (by omega)]
      · rw [List.getElem?_set_ne (by omega), List.getElem?_set_ne (by omega),
          List.getElem?_set_self (by omega), if_neg (by omega)]
    · intro j hj
      rw [List.getElem?_set_ne (by omega), List.getElem?_set_ne (by omega), List.getElem?_set_ne (by omega)]
  · have hx : base + (0 + i * 2) < m.length := by omega
    have hy : base + (1 + i * 2) < m.length := by omega
    refine ⟨((m.set (base + (2 + i * 3)) zero).set (base + (1 + i * 3)) m[base + (1 + i * 2)]).set
      (base + (0 + i * 3)) m[base + (0 + i * 2)], ?_, by simp, ?_, ?_⟩
    · have e1 : base + (2 + i * 3) ≠ base + (1 + i * 2) := by omega
      have e2 : base + (2 + i * 3) ≠ base + (0 + i * 2) := by omega
      have e3 : base + (1 + i * 3) ≠ base + (0 + i * 2) := by omega
      simp only [zeroLoop, copyLoop, Nat.le_refl, if_true, Nat.reduceLeDiff, if_false]
      rw [store_some (by omega)]
      simp only [Option.bind_eq_bind, Option.bind_some]
      rw [List.getElem?_set_ne e1, List.getElem?_eq_getElem hy]
      simp only [Option.bind_some]
      rw [store_some (by simp only [List.length_set]; omega)]
      simp only [Option.bind_some]
      rw [List.getElem?_set_ne e3, List.getElem?_set_ne e2, List.getElem?_eq_getElem hx]
      simp only [Option.bind_some]
      rw [store_some (by simp only [List.length_set]; omega)]
      rfl
    · intro d hd
      rcases (show d = 0 ∨ d = 1 ∨ d = 2 by omega) with rfl | rfl | rfl
      · rw [List.getElem?_set_self (by simp only [List.length_set]; omega), if_pos (by omega),
          List.getElem?_eq_getElem hx]
      · rw [List.getElem?_set_ne (by omega), List.getElem?_set_self (by simp only [List.length_set]; omega),
          if_pos (by omega), List.getElem?_eq_getElem hy]
      · rw [List.getElem?_set_ne (by omega), List.getElem?_set_ne (by omega),
          List.getElem?_set_self (by omega), if_neg (by omega)]
    · intro j hj
      rw [List.getElem?_set_ne (by omega), List.getElem?_set_ne (by omega), List.getElem?_set_ne (by omega)]

theorem pointLoop_spec (zero : α) (base pd : Nat) (hpd : pd = 1 ∨ pd = 2) : ∀ (k : Nat) (m : List α),
    base + 3 * k ≤ m.length →
    ∃ m', pointLoop zero base pd k m = some m' ∧ m'.length = m.length ∧
      (∀ i d, i < k → d < 3 →
        m'[base + (d + i * 3)]? = if d < pd then m[base + (d + i * pd)]? else some zero) ∧
      ∀ j, (j < base ∨ base + k * 3 ≤ j) → m'[j]? = m[j]? := by
  intro k
  induction k with
  | zero => intro m _; exact ⟨m, rfl, rfl, by intro i d hi; omega, fun _ _ => rfl⟩
  | succ k ih =>
    intro m hl
    obtain ⟨m1, h1, l1, a1, b1⟩ := pointStep zero base k pd m hpd (by omega)
    obtain ⟨m2, h2, l2, a2, b2⟩ := ih m1 (by omega)
    refine ⟨m2, ?_, by omega, ?_, ?_⟩
    · rw [pointLoop]
      simp only [Option.bind_eq_bind] at h1 ⊢
      rw [← h2, ← Option.bind_some m1 (f := pointLoop zero base pd k), ← h1, Option.bind_assoc]
    · intro i d hi hd
      rcases Nat.lt_or_ge i k with hik | hik
      · rw [a2 i d hik hd]
        split
        · refine b1 _ (Or.inl ?_)
          rcases hpd with rfl | rfl <;> omega
        · rfl
      · obtain rfl : i = k := by omega
        rw [b2 _ (by omega), a1 d hd]
    · intro j hj
      rw [b2 j (by omega), b1 j (by omega)]

theorem fill_spec (vals : List α) : ∀ (base : Nat) (m : List α), base + vals.length ≤ m.length →
    ∃ m', fill base vals m = some m' ∧ m'.length = m.length ∧
      (∀ j, j < vals.length → m'[base + j]? = vals[j]?) ∧
      ∀ j, (j < base ∨ base + vals.length ≤ j) → m'[j]? = m[j]? := by
  induction vals with
  | nil => intro base m _; exact ⟨m, rfl, rfl, by intro j hj; simp at hj, fun _ _ => rfl⟩
  | cons v vs ih =>
    intro base m hl
    simp only [List.length_cons] at hl
    obtain ⟨m', h, l, a, b⟩ := ih (base + 1) (m.set base v) (by simp only [List.length_set]; omega)
    refine ⟨m', ?_, by simpa using l, ?_, ?_⟩
    · rw [fill, store_some (by omega)]
      exact h
    · intro j hj
      cases j with
      | zero =>
        rw [b _ (by omega), Nat.add_zero, List.getElem?_set_self (by omega)]; rfl
      | succ j =>
        rw [show base + (j + 1) = base + 1 + j by omega, a j (by simpa using hj)]
        simp
    · intro j hj
      simp only [List.length_cons] at hj
      rw [b j (by omega), List.getElem?_set_ne (by omega)]

theorem element_spec (zero : α) (ppe pd : Nat) (hpd : pd = 1 ∨ pd = 2 ∨ pd = 3) (vals : Nat → List α)
    (e : Nat) (hv : (vals e).length = ppe * pd) (m : List α) (hl : e * ppe * 3 + ppe * 3 ≤ m.length) :
    ∃ m', element zero ppe pd vals e m = some m' ∧ m'.length = m.length ∧
      (∀ i d, i < ppe → d < 3 → m'[(e * ppe + i) * 3 + d]? =
        if d < pd then (vals e)[i * pd + d]? else some zero) ∧
      ∀ j, (j < e * ppe * 3 ∨ e * ppe * 3 + ppe * 3 ≤ j) → m'[j]? = m[j]? := by
  have hle : ppe * pd ≤ ppe * 3 := Nat.mul_le_mul_left _ (by omega)
  obtain ⟨m1, h1, l1, a1, b1⟩ := fill_spec (vals e) (e * ppe * 3) m (by omega)
  have hlt : ∀ i d, i < ppe → d < pd → i * pd + d < ppe * pd := by
    intro i d hi hd
    calc i * pd + d < i * pd + pd := by omega
      _ = (i + 1) * pd := by rw [Nat.succ_mul]
      _ ≤ ppe * pd := Nat.mul_le_mul_right _ hi
  rcases (show (pd = 1 ∨ pd = 2) ∨ pd = 3 by omega) with hp | rfl
  · obtain ⟨m2, h2, l2, a2, b2⟩ := pointLoop_spec zero (e * ppe * 3) pd hp ppe m1 (by omega)
    refine ⟨m2, ?_, by omega, ?_, ?_⟩
    · rw [element, h1]
      simp only [Option.bind_eq_bind, Option.bind_some]
      rw [if_neg (by omega), if_pos (by omega), h2]
    · intro i d hi hd
      rw [show (e * ppe + i) * 3 + d = e * ppe * 3 + (d + i * 3) by rw [Nat.add_mul]; omega,
        a2 i d hi hd]
      split
      · next hdp =>
        rw [show d + i * pd = i * pd + d by omega, a1 _ (by rw [hv]; exact hlt i d hi hdp)]
      · rfl
    · intro j hj
      rw [b2 j (by omega), b1 j (by omega)]
  · refine ⟨m1, ?_, by omega, ?_, ?_⟩
    · rw [element, h1]
      simp
    · intro i d hi hd
      rw [show (e * ppe + i) * 3 + d = e * ppe * 3 + (i * 3 + d) by rw [Nat.add_mul]; omega,
        if_pos hd, a1 _ (by rw [hv]; exact hlt i d hi hd)]
    · intro j hj
      exact b1 j (by omega)

theorem vertices_loop (zero : α) (ppe pd : Nat) (hpd : pd = 1 ∨ pd = 2 ∨ pd = 3) (vals : Nat → List α)
    (n : Nat) (hv : ∀ e, e < n → (vals e).length = ppe * pd) : ∀ k, k ≤ n →
    ∃ m, (List.range k).foldlM (fun m e => element zero ppe pd vals e m)
        (List.replicate (n * ppe * 3) zero) = some m ∧ m.length = n * ppe * 3 ∧
      ∀ e i d, e < k → i < ppe → d < 3 → m[(e * ppe + i) * 3 + d]? =
        if d < pd then (vals e)[i * pd + d]? else some zero := by
  intro k
  induction k with
  | zero => intro _; exact ⟨_, rfl, by simp, by intro e i d h; omega⟩
  | succ k ih =>
    intro hk
    obtain ⟨m, h, l, a⟩ := ih (by omega)
    have hkn : (k + 1) * ppe ≤ n * ppe := Nat.mul_le_mul_right _ hk
    rw [Nat.succ_mul] at hkn
    obtain ⟨m', h', l', a', b'⟩ := element_spec zero ppe pd hpd vals k (hv k (by omega)) m (by omega)
    refine ⟨m', ?_, by omega, ?_⟩
    · rw [List.range_succ, List.foldlM_append, h]
      simp only [Option.bind_eq_bind, Option.bind_some, List.foldlM_cons, List.foldlM_nil, h']
      rfl
    · intro e i d he hi hd
      rcases Nat.lt_or_ge e k with hek | hek
      · have : (e + 1) * ppe ≤ k * ppe := Nat.mul_le_mul_right _ hek
        rw [Nat.succ_mul] at this
        rw [b' _ (Or.inl (by omega)), a e i d hek hi hd]
      · obtain rfl : e = k := by omega
        exact a' i d hi hd

/-! ## bytes -/

theorem leBytes_length : ∀ (k n : Nat), (leBytes k n).length = k
  | 0, _ => rfl
  | k + 1, n => by rw [leBytes, List.length_cons, leBytes_length k]

theorem ofBytes_leBytes : ∀ (k n : Nat), n < 256 ^ k → ofBytes (leBytes k n) = n
  | 0, n, h => by simp at h; simp [leBytes, ofBytes, h]
  | k + 1, n, h => by
    rw [leBytes, ofBytes, ofBytes_leBytes k (n / 256) (by rw [Nat.pow_succ] at h; omega)]
    omega

theorem bytesAt_append (pre x suf : List Nat) (off len : Nat) (ho : off = pre.length)
    (hl : len = x.length) : bytesAt (pre ++ x ++ suf) off len = some x := by
  subst ho hl
  rw [bytesAt, if_pos (by simp)]
  simp [List.append_assoc]

theorem u64At_append (pre suf : List Nat) (n off : Nat) (h : n < 2 ^ 64) (ho : off = pre.length) :
    u64At (pre ++ leBytes 8 n ++ suf) off = some n := by
  rw [u64At, bytesAt_append _ _ _ _ _ ho (by rw [leBytes_length])]
  simp only [Option.map_some]
  rw [ofBytes_leBytes 8 n (by simpa using h)]

end Tandem.VTU
