import Verif.Model.Probes
import Mathlib.Order.Basic
/-! # Property C41: probes -/
namespace Tandem.Probes

variable {α R : Type} [LinearOrder α]

theorem allreduceMin_spec {β : Type} [LinearOrder β] (P : Nat) (vs : List (List β)) (hne : vs ≠ [])
    (hl : ∀ v ∈ vs, v.length = P) :
    (allreduceMin vs).length = P ∧
    (∀ (i : Nat) (x : β), (allreduceMin vs)[i]? = some x →
      (∀ v ∈ vs, ∀ y : β, v[i]? = some y → x ≤ y) ∧ ∃ v ∈ vs, v[i]? = some x) := by
  induction vs with
  | nil => exact absurd rfl hne
  | cons v vs ih =>
    cases vs with
    | nil =>
      refine ⟨hl v (by simp), fun i x hx => ⟨?_, v, by simp, hx⟩⟩
      intro w hw y hy
      simp only [List.mem_singleton] at hw
      subst hw
      rw [allreduceMin, hy] at hx
      exact le_of_eq (Option.some.inj hx).symm
    | cons w ws =>
      obtain ⟨l1, h1⟩ := ih (by simp) (fun u hu => hl u (by simp [hu]))
      rw [allreduceMin.eq_3 _ _ (by simp)]
      refine ⟨by simp [l1, hl v (by simp)], ?_⟩
      intro i x hx
      rw [List.getElem?_zipWith] at hx
      split at hx
      · next a b ha hb =>
        obtain ⟨h2, u, hu, h3⟩ := h1 i b hb
        obtain rfl := Option.some.inj hx
        refine ⟨?_, ?_⟩
        · intro u' hu' y hy
          rcases List.mem_cons.1 hu' with rfl | hu'
          · rw [ha] at hy
            obtain rfl := Option.some.inj hy
            exact min_le_left _ _
          · exact le_trans (min_le_right _ _) (h2 u' hu' y hy)
        · rcases le_total a b with hab | hab
          · exact ⟨v, by simp, by rw [min_eq_left hab]; exact ha⟩
          · exact ⟨u, List.mem_cons_of_mem _ hu, by rw [min_eq_right hab]; exact h3⟩
      · cases hx

theorem localMinRank_spec (minDist : List α) (rank : Nat) (res : Nat → α × R) :
    ∀ P, P ≤ minDist.length →
    ∃ mr, ((List.range P).map (fun p => (⟨p, (res p).1, (res p).2⟩ : Located α R))).foldlM
        (fun mr p => do
          let md ← minDist[p.id]?
          if p.id < mr.length then some (mr.set p.id (if p.dist = md then rank else intMax)) else none)
        (List.replicate minDist.length 0) = some mr ∧ mr.length = minDist.length ∧
      ∀ p, p < P → mr[p]? = some (if minDist[p]? = some (res p).1 then rank else intMax) := by
  intro P
  induction P with
  | zero => intro _; exact ⟨_, rfl, by simp, by intro p hp; omega⟩
  | succ P ih =>
    intro hP
    obtain ⟨mr, h1, h2, h3⟩ := ih (by omega)
    have hP' : P < minDist.length := hP
    refine ⟨mr.set P (if (res P).1 = minDist[P] then rank else intMax), ?_, by simp [h2], ?_⟩
    · rw [List.range_succ, List.map_append, List.foldlM_append, h1]
      simp only [List.map_cons, List.map_nil, Option.bind_eq_bind, Option.bind_some, List.foldlM_cons,
        List.foldlM_nil, List.getElem?_eq_getElem hP']
      rw [if_pos (by omega)]
      rfl
    · intro p hp
      rcases Nat.lt_or_ge p P with h | h
      · rw [List.getElem?_set_ne (by omega), h3 p h]
      · obtain rfl : p = P := by omega
        rw [List.getElem?_set_self (by omega), List.getElem?_eq_getElem hP']
        simp only [Option.some.injEq]
        congr 1
        exact propext eq_comm

theorem mapM_all {β γ : Type} (f : β → Option γ) (g : β → γ) (l : List β) (h : ∀ x ∈ l, f x = some (g x)) :
    l.mapM f = some (l.map g) := by
  induction l with
  | nil => rfl
  | cons a l ih =>
    rw [List.mapM_cons, h a (by simp), ih (fun x hx => h x (by simp [hx]))]
    rfl

/-- Rank `r` is the lowest rank that has the least distance to probe `p`. -/
def IsWinner (n : Nat) (dist : Nat → Nat → α) (p r : Nat) : Prop :=
  r < n ∧ (∀ s, s < n → dist r p ≤ dist s p) ∧ ∀ s, s < r → dist r p < dist s p

/-- The lists the constructors hand over: every rank has located every probe, in order
(src/io/ProbeWriter.cpp lines 22-27). -/
def locatedOf (n P : Nat) (dist : Nat → Nat → α) (result : Nat → Nat → R) :
    List (List (Located α R)) :=
  (List.range n).map (fun r => (List.range P).map (fun p => ⟨p, dist r p, result r p⟩))

theorem clean_key (dmax : α) (n P : Nat) (hn : 1 ≤ n) (hni : n ≤ intMax)
    (dist : Nat → Nat → α) (result : Nat → Nat → R) (hd : ∀ r p, dist r p ≤ dmax) :
    ∃ minRank : Nat → Nat,
      (∀ p, p < P → IsWinner n dist p (minRank p)) ∧
      cleanDuplicateProbes dmax (locatedOf n P dist result) =
        if ∃ p, p < P ∧ ∀ r, r < n → dist r p = dmax then none else
        some ((List.range n).map (fun r => ((List.range P).map
          (fun p => (⟨p, dist r p, result r p⟩ : Located α R))).filter (fun q => r == minRank q.id))) := by
  classical
  -- the vector of least distances
  obtain ⟨l1, h1⟩ := allreduceMin_spec P ((locatedOf n P dist result).map (fun l => l.map (·.dist)))
    (by simp [locatedOf]; omega) (by
      intro v hv
      simp only [locatedOf, List.map_map, List.mem_map] at hv
      obtain ⟨r, _, rfl⟩ := hv
      simp)
  generalize hmd : allreduceMin ((locatedOf n P dist result).map (fun l => l.map (·.dist))) = md at l1 h1
  have hvec : ∀ r, r < n → ∀ p, p < P →
      ((List.range P).map (fun p => dist r p))[p]? = some (dist r p) := by
    intro r _ p hp
    rw [List.getElem?_map, List.getElem?_range hp]; rfl
  have hmem : (locatedOf n P dist result).map (fun l => l.map (·.dist)) =
      (List.range n).map (fun r => (List.range P).map (fun p => dist r p)) := by
    simp [locatedOf, Function.comp_def]
  have hmin : ∀ p, p < P → ∃ x, md[p]? = some x ∧ (∀ s, s < n → x ≤ dist s p) ∧
      ∃ s, s < n ∧ dist s p = x := by
    intro p hp
    have hp' : p < md.length := by omega
    obtain ⟨a, u, hu, b⟩ := h1 p md[p] (List.getElem?_eq_getElem hp')
    rw [hmem] at a hu
    refine ⟨md[p], List.getElem?_eq_getElem hp', ?_, ?_⟩
    · intro s hs
      exact a _ (List.mem_map.2 ⟨s, List.mem_range.2 hs, rfl⟩) _ (hvec s hs p hp)
    · obtain ⟨s, hs, rfl⟩ := List.mem_map.1 hu
      refine ⟨s, List.mem_range.1 hs, ?_⟩
      rw [hvec s (List.mem_range.1 hs) p hp] at b
      exact Option.some.inj b
  -- the local ranks
  have hloc : ∀ r, r < n → (locatedOf n P dist result).getD r [] =
      (List.range P).map (fun p => (⟨p, dist r p, result r p⟩ : Located α R)) := by
    intro r hr
    rw [List.getD, locatedOf, List.getElem?_map, List.getElem?_range hr]; rfl
  have hmr : ∀ r, r < n → ∃ mr, localMinRank md r ((locatedOf n P dist result).getD r []) = some mr ∧
      mr.length = P ∧ ∀ p, p < P → mr[p]? = some (if md[p]? = some (dist r p) then r else intMax) := by
    intro r hr
    obtain ⟨mr, a, b, c⟩ := localMinRank_spec md r (fun p => (dist r p, result r p)) P (by omega)
    rw [hloc r hr]
    exact ⟨mr, a, by omega, c⟩
  let MR : Nat → List Nat := fun r => if h : r < n then Classical.choose (hmr r h) else []
  have hMR : ∀ r, r < n → localMinRank md r ((locatedOf n P dist result).getD r []) = some (MR r) ∧
      (MR r).length = P ∧
      ∀ p, p < P → (MR r)[p]? = some (if md[p]? = some (dist r p) then r else intMax) := by
    intro r hr
    have := Classical.choose_spec (hmr r hr)
    simp only [MR, hr, dif_pos]
    exact this
  have hrk : (List.range (locatedOf n P dist result).length).mapM
      (fun r => localMinRank md r ((locatedOf n P dist result).getD r [])) =
      some ((List.range n).map MR) := by
    rw [show (locatedOf n P dist result).length = n by simp [locatedOf]]
    exact mapM_all _ _ _ (fun r hr => (hMR r (List.mem_range.1 hr)).1)
  obtain ⟨l2, h2⟩ := allreduceMin_spec P ((List.range n).map MR) (by simp; omega) (by
    intro v hv
    obtain ⟨r, hr, rfl⟩ := List.mem_map.1 hv
    exact (hMR r (List.mem_range.1 hr)).2.1)
  generalize hmrk : allreduceMin ((List.range n).map MR) = mrk at l2 h2
  have hwin : ∀ p, p < P → IsWinner n dist p (mrk.getD p intMax) := by
    intro p hp
    obtain ⟨x, hx, hle, s, hs, hsx⟩ := hmin p hp
    have hp' : p < mrk.length := by omega
    obtain ⟨a, u, hu, b⟩ := h2 p mrk[p] (List.getElem?_eq_getElem hp')
    have hg : mrk.getD p intMax = mrk[p] := by simp [List.getD, hp']
    rw [hg]
    have hval : ∀ r, r < n → (MR r)[p]? = some (if dist r p = x then r else intMax) := by
      intro r hr
      rw [(hMR r hr).2.2 p hp, hx]
      simp only [Option.some.injEq]
      congr 1
      exact propext eq_comm
    have hup : ∀ r, r < n → dist r p = x → mrk[p] ≤ r := by
      intro r hr hrx
      exact a (MR r) (List.mem_map.2 ⟨r, List.mem_range.2 hr, rfl⟩) r (by rw [hval r hr, if_pos hrx])
    have hlt : mrk[p] < n := lt_of_le_of_lt (hup s hs hsx) hs
    obtain ⟨r, hr, rfl⟩ := List.mem_map.1 hu
    have hr := List.mem_range.1 hr
    rw [hval r hr] at b
    have b := Option.some.inj b
    split at b
    · next hrx =>
      rw [← b]
      refine ⟨hr, fun t ht => by rw [hrx]; exact hle t ht, fun t ht => ?_⟩
      rw [hrx]
      refine lt_of_le_of_ne (hle t (by omega)) (fun he => ?_)
      have := hup t (by omega) he.symm
      omega
    · omega
  refine ⟨fun p => mrk.getD p intMax, hwin, ?_⟩
  rw [cleanDuplicateProbes]
  simp only [hmd, hrk, Option.bind_eq_bind, Option.bind_some, hmrk]
  have hcond : ((List.range mrk.length).any
      (fun i => md.getD i dmax == dmax || mrk.getD i intMax == intMax)) = true ↔
      ∃ p, p < P ∧ ∀ r, r < n → dist r p = dmax := by
    rw [List.any_eq_true]
    constructor
    · rintro ⟨p, hp, h⟩
      have hp := List.mem_range.1 hp
      rw [l2] at hp
      refine ⟨p, hp, fun r hr => ?_⟩
      obtain ⟨x, hx, hle, _⟩ := hmin p hp
      simp only [Bool.or_eq_true, beq_iff_eq] at h
      rcases h with h | h
      · rw [List.getD, hx] at h
        simp only [Option.getD_some] at h
        exact le_antisymm (hd r p) (by rw [← h]; exact hle r hr)
      · have := (hwin p hp).1
        omega
    · rintro ⟨p, hp, h⟩
      obtain ⟨x, hx, hle, s, hs, hsx⟩ := hmin p hp
      refine ⟨p, List.mem_range.2 (by omega), ?_⟩
      simp only [Bool.or_eq_true, beq_iff_eq]
      left
      rw [List.getD, hx]
      simp only [Option.getD_some]
      rw [← hsx, h s hs]
  by_cases hc : ∃ p, p < P ∧ ∀ r, r < n → dist r p = dmax
  · rw [if_pos (hcond.2 hc), if_pos hc]
  · rw [if_neg (fun h => hc (hcond.1 h)), if_neg hc]
    simp only [Option.pure_def, Option.some.injEq]
    rw [show (locatedOf n P dist result).length = n by simp [locatedOf]]
    apply List.map_congr_left
    intro r hr
    rw [hloc r (List.mem_range.1 hr)]

/-- **C41.**  If every probe was found by some rank, then every probe is kept by exactly one rank, with
that rank's own result: the lowest rank among those with the least distance; each rank keeps its probes in
order. -/
theorem C41_one_rank (dmax : α) (n P : Nat) (hn : 1 ≤ n) (hni : n ≤ intMax)
    (dist : Nat → Nat → α) (result : Nat → Nat → R) (hd : ∀ r p, dist r p ≤ dmax)
    (hfound : ∀ p, p < P → ∃ r, r < n ∧ dist r p < dmax) :
    ∃ kept, cleanDuplicateProbes dmax (locatedOf n P dist result) = some kept ∧ kept.length = n ∧
      (∀ r, r < n → ∀ q, q ∈ kept.getD r [] ↔
        q.id < P ∧ IsWinner n dist q.id r ∧ q = ⟨q.id, dist r q.id, result r q.id⟩) ∧
      (∀ p, p < P → ∃ r, (r < n ∧ ∃ q ∈ kept.getD r [], q.id = p) ∧
        ∀ s, (s < n ∧ ∃ q ∈ kept.getD s [], q.id = p) → s = r) ∧
      (∀ r, r < n → ((kept.getD r []).map (·.id)).Pairwise (· < ·)) := by
  obtain ⟨mr, hw, h⟩ := clean_key dmax n P hn hni dist result hd
  rw [if_neg] at h
  · refine ⟨_, h, by simp, ?_⟩
    have hg : ∀ r, r < n → ((List.range n).map (fun r => ((List.range P).map
          (fun p => (⟨p, dist r p, result r p⟩ : Located α R))).filter (fun q => r == mr q.id))).getD r [] =
        ((List.range P).map
          (fun p => (⟨p, dist r p, result r p⟩ : Located α R))).filter (fun q => r == mr q.id) := by
      intro r hr
      rw [List.getD, List.getElem?_map, List.getElem?_range hr]; rfl
    have huniq : ∀ p r, p < P → IsWinner n dist p r → r = mr p := by
      intro p r hp ⟨w1, w2, w3⟩
      obtain ⟨v1, v2, v3⟩ := hw p hp
      rcases Nat.lt_trichotomy r (mr p) with h | h | h
      · exact absurd (w2 _ v1) (not_le_of_gt (v3 r h))
      · exact h
      · exact absurd (v2 _ w1) (not_le_of_gt (w3 _ h))
    have hmem : ∀ r, r < n → ∀ q, q ∈ ((List.range n).map (fun r => ((List.range P).map
          (fun p => (⟨p, dist r p, result r p⟩ : Located α R))).filter (fun q => r == mr q.id))).getD r [] ↔
        q.id < P ∧ IsWinner n dist q.id r ∧ q = ⟨q.id, dist r q.id, result r q.id⟩ := by
      intro r hr q
      rw [hg r hr, List.mem_filter, List.mem_map]
      constructor
      · rintro ⟨⟨p, hp, rfl⟩, he⟩
        have hp := List.mem_range.1 hp
        simp only [beq_iff_eq] at he
        exact ⟨hp, by rw [he]; exact hw p hp, rfl⟩
      · rintro ⟨hp, hwin, he⟩
        exact ⟨⟨q.id, List.mem_range.2 hp, he.symm⟩, by simpa using huniq _ _ hp hwin⟩
    refine ⟨hmem, ?_, ?_⟩
    · intro p hp
      refine ⟨mr p, ⟨(hw p hp).1, ⟨p, dist (mr p) p, result (mr p) p⟩, ?_, rfl⟩, ?_⟩
      · rw [hmem _ (hw p hp).1]
        exact ⟨hp, hw p hp, rfl⟩
      · rintro s ⟨hs, q, hq, rfl⟩
        rw [hmem s hs] at hq
        exact huniq _ _ hp hq.2.1
    · intro r hr
      rw [hg r hr]
      refine List.Pairwise.map (R := fun a b : Located α R => a.id < b.id) _ (fun _ _ h => h) ?_
      refine List.Pairwise.filter _ ?_
      refine List.Pairwise.map (R := (· < ·)) _ (fun _ _ h => h) ?_
      exact List.pairwise_lt_range
  · rintro ⟨p, hp, h⟩
    obtain ⟨r, hr, hlt⟩ := hfound p hp
    rw [h r hr] at hlt
    exact lt_irrefl _ hlt

/-- If no rank finds some probe, every rank throws (and no probe is silently dropped). -/
theorem C41_not_found_throws (dmax : α) (n P : Nat) (hn : 1 ≤ n) (hni : n ≤ intMax)
    (dist : Nat → Nat → α) (result : Nat → Nat → R) (hd : ∀ r p, dist r p ≤ dmax)
    (p : Nat) (hp : p < P) (h : ∀ r, r < n → dist r p = dmax) :
    cleanDuplicateProbes dmax (locatedOf n P dist result) = none := by
  obtain ⟨mr, hw, e⟩ := clean_key dmax n P hn hni dist result hd
  rw [e, if_pos ⟨p, hp, h⟩]

/-- A concrete case: two ranks, two probes, a tie on the second. -/
example : (cleanDuplicateProbes 9 (locatedOf 2 2
    (fun r p => if p = 0 then (if r = 0 then 5 else 3) else 4) (fun r p => (r, p)))).map
      (fun k => k.map (fun l => l.map (fun q => (q.id, q.dist, q.result)))) =
    some [[(1, 4, (0, 1))], [(0, 3, (1, 0))]] := by decide +kernel

theorem numberElements_spec (toNo : Nat → Nat) (order : List Nat) (hn : order.Nodup) :
    (numberElements toNo order).1 = order.map toNo ∧
    ∀ k el, order[k]? = some el → (numberElements toNo order).2 el = k := by
  have key : ∀ (rest done : List Nat) (f : Nat → Nat),
      (done ++ rest).Nodup → (∀ k el, done[k]? = some el → f el = k) →
      let s := rest.foldl (fun (s : List Nat × (Nat → Nat)) el =>
        (s.1 ++ [toNo el], fun x => if x = el then s.1.length else s.2 x)) (done.map toNo, f)
      s.1 = (done ++ rest).map toNo ∧ ∀ k el, (done ++ rest)[k]? = some el → s.2 el = k := by
    intro rest
    induction rest with
    | nil => intro done f _ hf; simpa using hf
    | cons a rest ih =>
      intro done f hnd hf
      have := ih (done ++ [a]) (fun x => if x = a then (done.map toNo).length else f x)
        (by simpa using hnd) (by
          intro k el hk
          rw [List.getElem?_append] at hk
          split at hk
          · have hmem : el ∈ done := List.mem_of_getElem? hk
            have hne : el ≠ a := by
              rintro rfl
              have := (List.nodup_append.1 hnd).2.2 el hmem el (by simp)
              exact this rfl
            simp only [if_neg hne]
            exact hf k el hk
          · next hlt =>
            have hz : k - done.length = 0 := by
              apply Classical.byContradiction
              intro h0
              rw [List.getElem?_eq_none (by simp; omega)] at hk
              cases hk
            rw [hz] at hk
            simp only [List.getElem?_cons_zero, Option.some.injEq] at hk
            simp [hk]
            omega)
      simpa using this
  have := key order [] (fun _ => 0) (by simpa using hn) (by intro k el h; simp at h)
  simpa [numberElements] using this

/-- **C41**, evaluation: whatever the iteration order of the set of elements that carry probes, the number
stored with a probe is the position of its element in the list of evaluated elements. -/
theorem C41_output_number (toNo : Nat → Nat) (elements order : List Nat) (hn : order.Nodup)
    (hset : ∀ e, e ∈ order ↔ e ∈ elements) (e : Nat) (he : e ∈ elements) :
    (numberElements toNo order).1[probeNo toNo order e]? = some (toNo e) := by
  obtain ⟨h1, h2⟩ := numberElements_spec toNo order hn
  obtain ⟨k, hk⟩ := List.getElem?_of_mem ((hset e).2 he)
  rw [probeNo, h2 k e hk, h1, List.getElem?_map, hk]
  rfl

example : (numberElements id [7, 3, 9]).1[probeNo id [7, 3, 9] 3]? = some 3 := by decide

end Tandem.Probes
