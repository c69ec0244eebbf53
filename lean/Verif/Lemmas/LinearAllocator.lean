import Verif.Model.LinearAllocator
/-! Helper lemmas for `LinearAllocator`. -/
namespace Tandem.LinearAllocator

theorem le_roundUp (p a : Nat) (ha : 0 < a) : p ≤ roundUp p a := by
  unfold roundUp
  have h1 := Nat.div_add_mod (p + (a - 1)) a
  have h2 := Nat.mod_lt (p + (a - 1)) ha
  have h3 : (p + (a - 1)) / a * a = a * ((p + (a - 1)) / a) := Nat.mul_comm _ _
  omega

theorem roundUp_mod (p a : Nat) : roundUp p a % a = 0 := by simp [roundUp]

theorem roundUp_self (p a : Nat) (ha : 0 < a) (h : p % a = 0) : roundUp p a = p := by
  unfold roundUp
  obtain ⟨k, rfl⟩ := Nat.dvd_of_mod_eq_zero h
  rw [Nat.mul_add_div ha, Nat.div_eq_of_lt (by omega : a - 1 < a), Nat.add_zero, Nat.mul_comm]

theorem roundUp_le (p q a : Nat) (ha : 0 < a) (hq : q % a = 0) (h : p ≤ q) : roundUp p a ≤ q := by
  obtain ⟨k, rfl⟩ := Nat.dvd_of_mod_eq_zero hq
  unfold roundUp
  rw [Nat.mul_comm a k]
  apply Nat.mul_le_mul_right
  have h2 : p + (a - 1) < a * (k + 1) := by rw [Nat.mul_add]; omega
  have := (Nat.div_lt_iff_lt_mul ha).2 (by rw [Nat.mul_comm] at h2; exact h2)
  omega

theorem roundUp_add (p q a : Nat) (ha : 0 < a) (hp : p % a = 0) :
    roundUp (p + q) a = p + roundUp q a := by
  obtain ⟨k, rfl⟩ := Nat.dvd_of_mod_eq_zero hp
  unfold roundUp
  rw [Nat.add_assoc, Nat.mul_add_div ha, Nat.add_mul, Nat.mul_comm k a]

theorem make_ok {start stop alignment : Nat} {s : State} (hs : make start stop alignment = .ok s) :
    (s.start = start ∧ s.stop = stop ∧ s.current = start ∧ s.alignment = alignment) ∧
      0 < alignment := by
  unfold make at hs
  split at hs
  · cases hs
  · split at hs
    · cases hs
    · cases hs; exact ⟨⟨rfl, rfl, rfl, rfl⟩, by omega⟩

theorem make_aligned {start stop alignment : Nat} {s : State}
    (hs : make start stop alignment = .ok s) : start % alignment = 0 := by
  unfold make at hs
  split at hs
  · cases hs
  · split at hs
    · cases hs
    · omega

/-- invariant of state and live blocks -/
structure Inv (start stop alignment : Nat) (sl : State × List (Nat × Nat)) : Prop where
  hstart : sl.1.start = start
  hstop : sl.1.stop = stop
  halign : sl.1.alignment = alignment
  lo : start ≤ sl.1.current
  hi : sl.1.current ≤ stop
  blocks : ∀ b ∈ sl.2, b.1 % alignment = 0 ∧ start ≤ b.1 ∧ b.1 + b.2 ≤ stop
  below : ∀ b ∈ sl.2, b.1 + b.2 ≤ sl.1.current
  disj : sl.2.Pairwise (fun b b' => b'.1 + b'.2 ≤ b.1)

theorem step_inv (elem start stop alignment : Nat) (hle : start ≤ stop)
    (ha : 0 < alignment) (sl : State × List (Nat × Nat)) (op : Op)
    (hop : ∀ n, op = .alloc n → n * elem < 2 ^ 64) (h : Inv start stop alignment sl) :
    Inv start stop alignment (step elem sl op) := by
  obtain ⟨s, live⟩ := sl
  cases op with
  | reset =>
    refine ⟨h.hstart, h.hstop, h.halign, ?_, ?_, by simp [step], by simp [step], by simp [step]⟩
    · have := h.hstart; simp only [step, reset] at this ⊢; omega
    · have := h.hstart; simp only [step, reset] at this ⊢; omega
  | alloc n =>
    have hn := hop n rfl
    simp only [step, allocate]
    by_cases hp : isPowerOfTwo s.alignment
    · simp only [hp, Bool.not_true, Bool.false_eq_true, if_false, stdAlign, Nat.mod_eq_of_lt hn]
      have hal : s.alignment = alignment := h.halign
      have hr := le_roundUp s.current s.alignment (by omega)
      have hsp : (s.stop - s.current) / elem * elem ≤ s.stop - s.current := Nat.div_mul_le_self _ _
      have h1 : s.start = start := h.hstart
      have h2 : s.stop = stop := h.hstop
      have h3 : start ≤ s.current := h.lo
      have h4 : s.current ≤ stop := h.hi
      by_cases hfit : n * elem + (roundUp s.current s.alignment - s.current) ≤
          (s.stop - s.current) / elem * elem
      · simp only [hfit, if_true]
        refine ⟨h1, h2, hal, ?_, ?_, ?_, ?_, ?_⟩
        · show start ≤ roundUp s.current s.alignment + n * elem; omega
        · show roundUp s.current s.alignment + n * elem ≤ stop; omega
        · intro b hb
          rcases List.mem_cons.1 hb with rfl | hb
          · refine ⟨?_, ?_, ?_⟩
            · show roundUp s.current s.alignment % alignment = 0
              rw [hal]; exact roundUp_mod _ _
            · show start ≤ roundUp s.current s.alignment; omega
            · show roundUp s.current s.alignment + n * elem ≤ stop; omega
          · exact h.blocks b hb
        · intro b hb
          rcases List.mem_cons.1 hb with rfl | hb
          · exact Nat.le_refl _
          · have : b.1 + b.2 ≤ s.current := h.below b hb
            show b.1 + b.2 ≤ roundUp s.current s.alignment + n * elem; omega
        · refine List.pairwise_cons.2 ⟨?_, h.disj⟩
          intro b hb
          have : b.1 + b.2 ≤ s.current := h.below b hb
          show b.1 + b.2 ≤ roundUp s.current s.alignment; omega
      · simp only [hfit, if_false]; exact h
    · simp only [hp, Bool.not_false, if_true]; exact h

theorem run_inv (elem start stop alignment : Nat) (hle : start ≤ stop) (ha : 0 < alignment)
    (s : State) (hs : s.start = start ∧ s.stop = stop ∧ s.current = start ∧ s.alignment = alignment)
    (ops : List Op) (hops : ∀ n, Op.alloc n ∈ ops → n * elem < 2 ^ 64) :
    Inv start stop alignment (run elem s ops) := by
  have key : ∀ (ops : List Op) (sl : State × List (Nat × Nat)),
      (∀ n, Op.alloc n ∈ ops → n * elem < 2 ^ 64) → Inv start stop alignment sl →
      Inv start stop alignment (ops.foldl (step elem) sl) := by
    intro ops
    induction ops with
    | nil => intro sl _ h; exact h
    | cons op ops ih =>
      intro sl hops h
      rw [List.foldl_cons]
      apply ih _ (fun n hn => hops n (by simp [hn]))
      exact step_inv elem start stop alignment hle ha sl op (fun n hn => hops n (by simp [hn])) h
  apply key ops _ hops
  obtain ⟨h1, h2, h3, h4⟩ := hs
  exact ⟨h1, h2, h4, by show start ≤ s.current; omega, by show s.current ≤ stop; omega, by simp,
    by simp, by simp⟩

theorem allocationSize_eq (elem n alignment : Nat) (he : 0 < elem) (hn : 0 < n)
    (ha : 0 < alignment) (hd : elem ∣ alignment) (hsz : n * elem + alignment < 2 ^ 64) :
    ∃ k, allocationSize elem n alignment = some k ∧ k * elem = roundUp (n * elem) alignment := by
  have hpos : 0 < n * elem := Nat.mul_pos hn he
  have hru : roundUp (n * elem) alignment < 2 ^ 64 := by
    have : roundUp (n * elem) alignment ≤ n * elem + (alignment - 1) := by
      unfold roundUp; exact Nat.div_mul_le_self _ _
    omega
  have e0 : wsub (n * elem % W) 1 = n * elem - 1 := by
    unfold wsub
    rw [Nat.mod_eq_of_lt (show n * elem < W by simp only [W]; omega), Nat.mod_eq_of_lt (show 1 < W by decide)]
    rw [show n * elem + (W - 1) = (n * elem - 1) + W by simp only [W]; omega, Nat.add_mod_right,
      Nat.mod_eq_of_lt (by simp only [W]; omega)]
  have e1 : 1 + (n * elem - 1) / alignment = (n * elem + (alignment - 1)) / alignment := by
    rw [show n * elem + (alignment - 1) = (n * elem - 1) + alignment by omega,
      Nat.add_div_right _ ha]; omega
  have hq : (n * elem + (alignment - 1)) / alignment < W := by
    apply Nat.lt_of_le_of_lt (Nat.div_le_self _ _); simp only [W]; omega
  have e2 : (1 + wsub (n * elem % W) 1 / alignment) % W * alignment % W =
      roundUp (n * elem) alignment := by
    rw [e0, e1, Nat.mod_eq_of_lt hq, Nat.mod_eq_of_lt]
    · rfl
    · exact hru
  have hrpos : 0 < roundUp (n * elem) alignment :=
    Nat.lt_of_lt_of_le hpos (le_roundUp _ _ ha)
  have e3 : wsub (roundUp (n * elem) alignment) 1 = roundUp (n * elem) alignment - 1 := by
    unfold wsub
    rw [Nat.mod_eq_of_lt (show 1 < W by decide)]
    rw [show roundUp (n * elem) alignment + (W - 1) = (roundUp (n * elem) alignment - 1) + W by
      simp only [W]; omega, Nat.add_mod_right, Nat.mod_eq_of_lt (by simp only [W]; omega)]
  have hdvd : elem ∣ roundUp (n * elem) alignment := by
    unfold roundUp; exact Nat.dvd_trans hd (Nat.dvd_mul_left _ _)
  obtain ⟨k, hk⟩ := hdvd
  have hkpos : 0 < k := by
    rcases Nat.eq_zero_or_pos k with h | h
    · subst h; omega
    · exact h
  refine ⟨k, ?_, by rw [hk, Nat.mul_comm]⟩
  unfold allocationSize
  simp only [show ¬ (alignment = 0 ∨ elem = 0) by omega, if_false, e2, e3]
  have e4 : 1 + (roundUp (n * elem) alignment - 1) / elem = k := by
    have : roundUp (n * elem) alignment - 1 = (elem - 1) + elem * (k - 1) := by
      rw [hk]
      obtain ⟨j, rfl⟩ : ∃ j, k = j + 1 := ⟨k - 1, by omega⟩
      rw [Nat.mul_add, Nat.add_sub_cancel]; omega
    rw [this, Nat.add_mul_div_left _ _ he, Nat.div_eq_of_lt (by omega)]; omega
  have hkW : k < W := by
    have : k ≤ elem * k := Nat.le_mul_of_pos_left _ he
    simp only [W]; omega
  rw [e4, Nat.mod_eq_of_lt hkW]

/-- sufficiency, by induction on the requests; `used` bytes (aligned) are consumed so far -/
theorem suffices_aux (elem start stop alignment : Nat) (he : 0 < elem) (hd : elem ∣ alignment)
    (hp : isPowerOfTwo alignment = true) (ha : 0 < alignment) (hst : start % alignment = 0)
    (hmul : elem ∣ stop - start)
    (ns sizes : List Nat) (hpos : ∀ n ∈ ns, 0 < n)
    (hsz : ns.map (fun n => allocationSize elem n alignment) = sizes.map some)
    (hlim : ∀ n ∈ ns, n * elem + alignment < 2 ^ 64)
    (s : State) (hs1 : s.stop = stop) (hs2 : s.alignment = alignment) (used : Nat)
    (hu : used % alignment = 0) (hcur : roundUp s.current alignment = start + used)
    (hcd : elem ∣ s.current - start) (hlo : start ≤ s.current)
    (hbuf : start + used + sizes.sum * elem ≤ stop) (live : List (Nat × Nat)) :
    ((ns.map Op.alloc).foldl (step elem) (s, live)).2.map Prod.snd =
      (ns.map (fun n => n * elem)).reverse ++ live.map Prod.snd := by
  induction ns generalizing sizes s used live with
  | nil => simp
  | cons n ns ih =>
    cases sizes with
    | nil => simp at hsz
    | cons k sizes =>
      simp only [List.map_cons, List.cons.injEq] at hsz
      have hn := hpos n (by simp)
      have hl := hlim n (by simp)
      obtain ⟨k', hk1, hk2⟩ := allocationSize_eq elem n alignment he hn ha hd hl
      rw [hk1] at hsz
      have hkk : k' = k := by simpa using hsz.1
      subst hkk
      have hru := le_roundUp (n * elem) alignment ha
      have hrc := le_roundUp s.current alignment ha
      rw [List.sum_cons, Nat.add_mul, hk2] at hbuf
      have hspace : (s.stop - s.current) / elem * elem = s.stop - s.current := by
        apply Nat.div_mul_cancel
        rw [hs1]
        have : stop - s.current = (stop - start) - (s.current - start) := by omega
        rw [this]; exact Nat.dvd_sub hmul hcd
      have hfit : n * elem + (roundUp s.current s.alignment - s.current) ≤
          (s.stop - s.current) / elem * elem := by
        rw [hspace, hs2, hs1, hcur]; omega
      have hall : step elem (s, live) (.alloc n) =
          ({ s with current := roundUp s.current s.alignment + n * elem },
            (roundUp s.current s.alignment, n * elem) :: live) := by
        simp only [step, allocate, hs2, hp, Bool.not_true, Bool.false_eq_true, if_false, stdAlign]
        rw [hs2] at hfit
        rw [Nat.mod_eq_of_lt (show n * elem < W by simp only [W]; omega), if_pos hfit]
      rw [List.map_cons, List.foldl_cons, hall]
      rw [ih sizes (fun m hm => hpos m (by simp [hm])) hsz.2 (fun m hm => hlim m (by simp [hm]))
        { s with current := roundUp s.current s.alignment + n * elem } hs1 hs2
        (used + roundUp (n * elem) alignment) ?_ ?_ ?_ ?_ ?_]
      · simp
      · rw [Nat.add_mod, hu, roundUp_mod]; simp
      · show roundUp (roundUp s.current s.alignment + n * elem) alignment = _
        rw [hs2, hcur, roundUp_add _ _ _ ha (by rw [Nat.add_mod, hst, hu]; simp)]; omega
      · show elem ∣ roundUp s.current s.alignment + n * elem - start
        rw [hs2, hcur]
        have : start + used + n * elem - start = used + n * elem := by omega
        rw [this]
        exact Nat.dvd_add (Nat.dvd_trans hd (Nat.dvd_of_mod_eq_zero hu)) (Nat.dvd_mul_left _ _)
      · show start ≤ roundUp s.current s.alignment + n * elem
        rw [hs2]; omega
      · omega

end Tandem.LinearAllocator
