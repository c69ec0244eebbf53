import Verif.Model.LinearAllocator
import Verif.Lemmas.LinearAllocator
/-! # Property C09: `LinearAllocator` -/
namespace Tandem.LinearAllocator

/-- C09 (safety): after any history of allocations and resets on a successfully constructed
allocator, every block handed out since the last reset is aligned and lies in the buffer, and the
blocks are pairwise disjoint.  Requests must not overflow `size_t` (`n * sizeof(T) < 2^64`). -/
theorem C09_blocks_ok (elem start stop alignment : Nat) (hle : start ≤ stop)
    (s : State) (hs : make start stop alignment = .ok s)
    (ops : List Op) (hops : ∀ n, Op.alloc n ∈ ops → n * elem < 2 ^ 64) :
    let live := (run elem s ops).2
    (∀ b ∈ live, b.1 % alignment = 0 ∧ start ≤ b.1 ∧ b.1 + b.2 ≤ stop) ∧
    live.Pairwise (fun b b' => b'.1 + b'.2 ≤ b.1) := by
  intro live
  obtain ⟨h1, h2⟩ := make_ok hs
  have := run_inv elem start stop alignment hle h2 s h1 ops hops
  exact ⟨this.blocks, this.disj⟩

/-- C09 (exact behaviour of one request): a request succeeds exactly when the aligned block fits;
otherwise it throws and changes nothing. -/
theorem C09_allocate_iff (elem : Nat) (s : State) (n : Nat) (hn : n * elem < 2 ^ 64)
    (hp : isPowerOfTwo s.alignment = true) :
    (roundUp s.current s.alignment + n * elem ≤ s.current + (s.stop - s.current) / elem * elem →
      allocate elem s n = .ok (roundUp s.current s.alignment,
        { s with current := roundUp s.current s.alignment + n * elem })) ∧
    (¬ roundUp s.current s.alignment + n * elem ≤ s.current + (s.stop - s.current) / elem * elem →
      allocate elem s n = .throw) := by
  have ha : 0 < s.alignment := by
    simp [isPowerOfTwo] at hp; exact hp.1
  have hr := le_roundUp s.current s.alignment ha
  simp only [allocate, hp, Bool.not_true, Nat.mod_eq_of_lt hn, stdAlign]
  constructor
  · intro h; simp [show n * elem + (roundUp s.current s.alignment - s.current) ≤
      (s.stop - s.current) / elem * elem by omega]
  · intro h; simp [show ¬ n * elem + (roundUp s.current s.alignment - s.current) ≤
      (s.stop - s.current) / elem * elem by omega]

/-- C09 (sizing): for a power-of-two alignment that is a multiple of `sizeof(T)`, `allocation_size`
of a positive request is the number of elements up to the next aligned address. -/
theorem C09_allocation_size (elem n alignment : Nat) (he : 0 < elem) (hn : 0 < n)
    (ha : 0 < alignment) (hd : elem ∣ alignment) (hsz : n * elem + alignment < 2 ^ 64) :
    ∃ k, allocationSize elem n alignment = some k ∧ k * elem = roundUp (n * elem) alignment := by
  exact allocationSize_eq elem n alignment he hn ha hd hsz

/-- C09 (sufficiency): a buffer that starts aligned and holds the sum of the `allocation_size`s
serves all the positive requests of a sequence without throwing. -/
theorem C09_sizes_suffice (elem start stop alignment : Nat) (he : 0 < elem)
    (hd : elem ∣ alignment) (hp : isPowerOfTwo alignment = true)
    (s : State) (hs : make start stop alignment = .ok s) (ns : List Nat) (hpos : ∀ n ∈ ns, 0 < n)
    (sizes : List Nat) (hsz : ns.map (fun n => allocationSize elem n alignment) = sizes.map some)
    (hlim : ∀ n ∈ ns, n * elem + alignment < 2 ^ 64)
    (hbuf : start + sizes.sum * elem ≤ stop) (hmul : elem ∣ stop - start) :
    (run elem s (ns.map Op.alloc)).2.map Prod.snd = (ns.map (fun n => n * elem)).reverse := by
  have ha : 0 < alignment := by simp [isPowerOfTwo] at hp; exact hp.1
  obtain ⟨h1, h2⟩ := make_ok hs
  have hal := make_aligned hs
  have := suffices_aux elem start stop alignment he hd hp ha hal hmul ns sizes hpos hsz hlim s
    h1.2.1 h1.2.2.2 0 (by simp) (by rw [h1.2.2.1, roundUp_self _ _ ha hal]; rfl)
    (by rw [h1.2.2.1]; simp) (by omega) (by simpa using hbuf) []
  simpa [run] using this

/-- C09 (boundary): a request of zero elements is announced as `2^61` doubles, because `size - 1`
wraps. -/
theorem C09_allocation_size_zero : allocationSize 8 0 32 = some (2 ^ 61) := by decide

/-- C09 (boundary): without the overflow precondition the allocator hands out a block that is not in
the buffer (`n * sizeof(T)` wraps to zero). -/
theorem C09_overflow_witness :
    allocate 8 { start := 0, stop := 64, current := 0, alignment := 8 } (2 ^ 61) =
      .ok (0, { start := 0, stop := 64, current := 2 ^ 64, alignment := 8 }) := by decide

example : make 64 256 32 = .ok { start := 64, stop := 256, current := 64, alignment := 32 } ∧
    (run 8 { start := 64, stop := 256, current := 64, alignment := 32 }
      [.alloc 3, .alloc 5, .alloc 100, .alloc 1]).2 = [(160, 8), (96, 40), (64, 24)] := by decide
example : isPowerOfTwo 32 = true ∧ 8 ∣ 32 ∧ 8 ∣ 256 - 64 ∧
    [3, 5, 1].map (fun n => allocationSize 8 n 32) = [4, 8, 4].map some ∧
    64 + [4, 8, 4].sum * 8 ≤ 256 := by decide

end Tandem.LinearAllocator
