import Verif.Model.HDF5MeshParser
import Verif.Props.MeshBuilder
/-! # Property C37: the HDF5 mesh reader -/
namespace Tandem.HDF5MeshParser

/-! ## Specification -/

/-- The local vertex opposite to face `f` of a tetrahedron in the PUMGen convention. -/
def opposite : List ℕ := [3, 2, 0, 1]

/-- The vertices of face `f` of a tetrahedron: all but the opposite one. -/
def faceSet (tet : List ℕ) (f : ℕ) : List ℕ := tet.eraseIdx (opposite.getD f 0)

/-- The tag of face `f`: byte `f` of the number. -/
def sideTag (bc f : ℕ) : ℕ := bc / 256 ^ f % 256

/-- The sides of all tetrahedra, in order: sorted vertices and tag. -/
def sides (l : List (List ℕ × ℕ)) : List (List ℕ × ℕ) :=
  l.flatMap fun p => (List.range 4).map fun f => (Simplex.sort (faceSet p.1 f), sideTag p.2 f)

/-! ## Lemmas -/

theorem faceTag_spec (bc f : ℕ) : faceTag bc f = sideTag bc f := by
  unfold faceTag sideTag
  rw [show (0xFF : ℕ) = 2 ^ 8 - 1 from rfl, Nat.and_two_pow_sub_one_eq_mod, Nat.shiftRight_eq_div_pow,
    Nat.pow_mul]

theorem faceNodes_spec (tet : List ℕ) (h : tet.length = 4) (f : ℕ) (hf : f < 4) :
    (faceNodes tet f).Perm (faceSet tet f) := by
  obtain ⟨a, b, c, d, rfl⟩ : ∃ a b c d, tet = [a, b, c, d] := by
    match tet, h with
    | [a, b, c, d], _ => exact ⟨a, b, c, d, rfl⟩
  match f, hf with
  | 0, _ => exact (List.Perm.swap b c []).cons a
  | 1, _ => exact List.Perm.refl _
  | 2, _ => exact List.Perm.refl _
  | 3, _ => exact (List.Perm.swap c d []).cons a

/-- The faces in the order of the loop, with the winding of the table. -/
def raw (l : List (List ℕ × ℕ)) : List (List ℕ × ℕ) :=
  l.flatMap fun p => (List.range 4).map fun f => (faceNodes p.1 f, faceTag p.2 f)

theorem raw_sides (l : List (List ℕ × ℕ)) (h : ∀ p ∈ l, p.1.length = 4) :
    (raw l).map (fun q => (Simplex.sort q.1, q.2)) = sides l := by
  unfold raw sides
  rw [List.map_flatMap]
  apply List.flatMap_congr
  intro p hp
  rw [List.map_map]
  apply List.map_congr_left
  intro f hf
  simp only [Function.comp]
  rw [faceTag_spec]
  have := Simplex.sorted_unique _ _ (Simplex.sort_sorted (faceNodes p.1 f))
    (Simplex.sort_sorted (faceSet p.1 f)) ((Simplex.sort_perm _).trans
    ((faceNodes_spec p.1 (h p hp) f (List.mem_range.1 hf)).trans (Simplex.sort_perm _).symm))
  rw [this]

/-- The loop body on one entry of `raw`. -/
def step (s : Faces) (q : List ℕ × ℕ) : Faces :=
  if s.seen.contains (Simplex.sort q.1) then s
  else ⟨Simplex.sort q.1 :: s.seen, s.elements ++ [q.1], s.tags ++ [q.2]⟩

theorem retrieve_eq (l : List (List ℕ × ℕ)) : ∀ s, retrieve s l = (raw l).foldl step s := by
  induction l with
  | nil => intro s; rfl
  | cons p l ih =>
    intro s
    obtain ⟨tet, bc⟩ := p
    rw [retrieve, ih]
    have : raw ((tet, bc) :: l) = ((List.range 4).map fun f => (faceNodes tet f, faceTag bc f)) ++ raw l := by
      simp [raw]
    rw [this, List.foldl_append, List.foldl_map]
    rfl

structure Inv (s : Faces) (done : List (List ℕ × ℕ)) : Prop where
  len : s.elements.length = s.tags.length
  seen : ∀ k, k ∈ s.seen ↔ k ∈ s.elements.map Simplex.sort
  nodup : (s.elements.map Simplex.sort).Nodup
  first : ∀ (k : ℕ) n t, s.elements[k]? = some n → s.tags[k]? = some t →
    (n, t) ∈ done ∧
    (done.map fun q => (Simplex.sort q.1, q.2)).find? (fun q => q.1 == Simplex.sort n)
      = some (Simplex.sort n, t)
  all : ∀ q ∈ done, Simplex.sort q.1 ∈ s.elements.map Simplex.sort

theorem step_inv (s : Faces) (done : List (List ℕ × ℕ)) (q : List ℕ × ℕ) (h : Inv s done) :
    Inv (step s q) (done ++ [q]) := by
  unfold step
  have hlater : ∀ (k : ℕ) n t, s.elements[k]? = some n → s.tags[k]? = some t →
      (n, t) ∈ done ++ [q] ∧
      ((done ++ [q]).map fun q => (Simplex.sort q.1, q.2)).find? (fun q => q.1 == Simplex.sort n)
        = some (Simplex.sort n, t) := by
    intro k n t hn ht
    obtain ⟨a, b⟩ := h.first k n t hn ht
    refine ⟨List.mem_append_left _ a, ?_⟩
    rw [List.map_append, List.find?_append, b]
    rfl
  by_cases hc : s.seen.contains (Simplex.sort q.1) = true
  · rw [if_pos hc]
    refine ⟨h.len, h.seen, h.nodup, hlater, fun p hp => ?_⟩
    rcases List.mem_append.1 hp with hp | hp
    · exact h.all p hp
    · rw [List.mem_singleton.1 hp]
      exact (h.seen _).1 (List.contains_iff_mem.1 hc)
  · rw [if_neg hc]
    have hnew : Simplex.sort q.1 ∉ s.elements.map Simplex.sort := fun c =>
      hc (List.contains_iff_mem.2 ((h.seen _).2 c))
    refine ⟨by simp [h.len], fun k => ?_, ?_, fun k n t hn ht => ?_, fun p hp => ?_⟩
    · simp only [List.mem_cons, List.map_append, List.mem_append, h.seen, List.map_cons, List.map_nil,
        List.mem_singleton, List.not_mem_nil, or_false]
      exact or_comm
    · simp only [List.map_append, List.map_cons, List.map_nil]
      exact List.nodup_append.2 ⟨h.nodup, by simp, fun a ha b hb => by
        rw [List.mem_singleton.1 hb]; exact fun e => hnew (e ▸ ha)⟩
    · simp only at hn ht
      rcases Nat.lt_or_ge k s.elements.length with hk | hk
      · rw [List.getElem?_append_left hk] at hn
        rw [List.getElem?_append_left (by rw [← h.len]; exact hk)] at ht
        exact hlater k n t hn ht
      · rw [List.getElem?_append_right hk] at hn
        rw [List.getElem?_append_right (by rw [← h.len]; exact hk)] at ht
        have hk0 : k - s.elements.length = 0 := by
          have := (List.getElem?_eq_some_iff.1 hn).1
          simp at this; omega
        rw [hk0] at hn
        rw [← h.len, hk0] at ht
        simp only [List.getElem?_cons_zero, Option.some.injEq] at hn ht
        subst hn; subst ht
        refine ⟨by simp, ?_⟩
        rw [List.map_append, List.find?_append, List.find?_eq_none.2]
        · simp
        · intro x hx
          obtain ⟨y, hy, rfl⟩ := List.mem_map.1 hx
          simp only [beq_iff_eq]
          exact fun e => hnew (e ▸ h.all y hy)
    · simp only [List.map_append, List.mem_append, List.map_cons, List.map_nil, List.mem_singleton]
      rcases List.mem_append.1 hp with hp | hp
      · exact Or.inl (h.all p hp)
      · rw [List.mem_singleton.1 hp]; exact Or.inr rfl

theorem foldl_inv (l : List (List ℕ × ℕ)) : ∀ (s : Faces) (done : List (List ℕ × ℕ)), Inv s done →
    Inv (l.foldl step s) (done ++ l) := by
  induction l with
  | nil => intro s done h; simpa using h
  | cons q l ih =>
    intro s done h
    have := ih _ _ (step_inv s done q h)
    simpa using this

/-! ## The property -/

/-- C37 (faces): for every list of tetrahedra with their packed tags, the facets are the faces of the
tetrahedra, each once (whatever the order of its vertices), and the tag of a facet is the tag of the
first side that has its vertices. -/
theorem C37_faces (l : List (List ℕ × ℕ)) (h : ∀ p ∈ l, p.1.length = 4) :
    let f := retrieve ⟨[], [], []⟩ l
    f.elements.length = f.tags.length ∧
    (f.elements.map Simplex.sort).Nodup ∧
    (∀ s ∈ sides l, s.1 ∈ f.elements.map Simplex.sort) ∧
    (∀ (k : ℕ) n t, f.elements[k]? = some n → f.tags[k]? = some t →
      (sides l).find? (fun s => s.1 == Simplex.sort n) = some (Simplex.sort n, t)) := by
  have hi := foldl_inv (raw l) ⟨[], [], []⟩ [] ⟨rfl, by simp, by simp, by simp, by simp⟩
  rw [List.nil_append, ← retrieve_eq] at hi
  refine ⟨hi.len, hi.nodup, fun s hs => ?_, fun k n t hn ht => ?_⟩
  · rw [← raw_sides l h] at hs
    obtain ⟨q, hq, rfl⟩ := List.mem_map.1 hs
    exact hi.all q hq
  · rw [← raw_sides l h]
    exact (hi.first k n t hn ht).2

/-- C37 (either side): if the two sides of a face never disagree, then every side of every tetrahedron
finds its own tag on the facet with its vertices. -/
theorem C37_either_side (l : List (List ℕ × ℕ)) (h : ∀ p ∈ l, p.1.length = 4)
    (hc : ∀ s ∈ sides l, ∀ s' ∈ sides l, s.1 = s'.1 → s.2 = s'.2) :
    ∀ s ∈ sides l, ∃ (k : ℕ) (n : List ℕ), (retrieve ⟨[], [], []⟩ l).elements[k]? = some n ∧
      Simplex.sort n = s.1 ∧ (retrieve ⟨[], [], []⟩ l).tags[k]? = some s.2 := by
  intro s hs
  obtain ⟨h1, h2, h3, h4⟩ := C37_faces l h
  obtain ⟨n, hn, he⟩ := List.mem_map.1 (h3 s hs)
  obtain ⟨k, hk, rfl⟩ := List.mem_iff_getElem.1 hn
  have hk' : k < (retrieve ⟨[], [], []⟩ l).tags.length := by rw [← h1]; exact hk
  have := h4 k _ _ (List.getElem?_eq_getElem hk) (List.getElem?_eq_getElem hk')
  refine ⟨k, _, List.getElem?_eq_getElem hk, he, ?_⟩
  rw [List.getElem?_eq_getElem hk']
  congr 1
  exact hc _ (List.mem_of_find?_eq_some this) s hs (by simp only; exact he)

/-- C37 (a tag can be lost): in general the claim fails.  Two tetrahedra share the face `{1, 2, 3}`;
the second marks it as a fault (3), the first gives no tag; the facet gets the tag 0. -/
theorem C37_tag_lost :
    let l : List (List ℕ × ℕ) := [([0, 1, 2, 3], 0), ([1, 2, 3, 4], 3)]
    ([1, 2, 3], 3) ∈ sides l ∧
    ∀ (k : ℕ) n, (retrieve ⟨[], [], []⟩ l).elements[k]? = some n → Simplex.sort n = [1, 2, 3] →
      (retrieve ⟨[], [], []⟩ l).tags[k]? = some 0 := by
  intro l
  refine ⟨by decide +kernel, fun k n hn he => ?_⟩
  obtain ⟨h1, h2, h3, h4⟩ := C37_faces l (by decide +kernel)
  have hk : k < (retrieve ⟨[], [], []⟩ l).tags.length := by
    rw [← h1]; exact (List.getElem?_eq_some_iff.1 hn).1
  have := h4 k n _ hn (List.getElem?_eq_getElem hk)
  rw [he, show (sides l).find? (fun s => s.1 == [1, 2, 3]) = some ([1, 2, 3], 0) by decide +kernel] at this
  rw [List.getElem?_eq_getElem hk]
  rw [Option.some.injEq, Prod.mk.injEq] at this
  rw [← this.2]

theorem chunks_length {α : Type} (k : ℕ) (l : List α) : (chunks k l).length = l.length / k := by
  simp [chunks]

theorem chunks_mem_length {α : Type} (k : ℕ) (l : List α) : ∀ c ∈ chunks k l, c.length = k := by
  intro c hc
  obtain ⟨i, hi, rfl⟩ := List.mem_map.1 hc
  have hi := List.mem_range.1 hi
  rw [List.length_take, List.length_drop]
  have h1 : (i + 1) * k ≤ l.length := le_trans (Nat.mul_le_mul_right k hi) (Nat.div_mul_le_self _ _)
  have : (i + 1) * k = i * k + k := by ring
  omega

/-- The entries of tuple `i`. -/
theorem chunks_get {α : Type} (k : ℕ) (l : List α) (i j : ℕ) (hi : i < l.length / k) (hj : j < k) :
    ((chunks k l)[i]?.bind fun c => c[j]?) = l[i * k + j]? := by
  unfold chunks
  rw [List.getElem?_map, List.getElem?_range hi, Option.map_some, Option.bind_some,
    List.getElem?_take_of_lt hj, List.getElem?_drop]

/-- C37 (file): parsing fails exactly if a dataset other than `/group` is missing or the number of
boundary entries is not the number of tetrahedra; no access is out of bounds unless `/group` is
present and too short; and on success the builder gets vertex `i` from entries `3i…` of the geometry,
first all facets and then all tetrahedra in file order with their group. -/
theorem C37_file (file : File) :
    (parseFile file = .fails ↔ file.connect = none ∨ file.geometry = none ∨ file.boundary = none ∨
      ∃ c b, file.connect = some c ∧ file.boundary = some b ∧ b.length ≠ c.length / 4) ∧
    ((∀ c g, file.connect = some c → file.group = some g → c.length / 4 ≤ g.length) →
      parseFile file ≠ .ub) ∧
    (∀ vs es, parseFile file = .ok (vs, es) → ∃ c g b, file.connect = some c ∧ file.geometry = some g ∧
      file.boundary = some b ∧ vs = chunks 3 g ∧
      (∃ fs ts, es = fs ++ ts ∧
        ts.map (·.nodes) = chunks 4 c ∧ (∀ t ∈ ts, t.type = 4) ∧
        (∀ gr, file.group = some gr → ts.map (·.tag) = (gr.take ts.length).map fun x : ℕ => (x : ℤ)) ∧
        (file.group = none → ∀ t ∈ ts, t.tag = 0) ∧
        fs.map (fun e => (e.nodes, e.tag)) =
          List.zipWith (fun n (t : ℕ) => (n, (t : ℤ))) (retrieve ⟨[], [], []⟩ ((chunks 4 c).zip b)).elements
            (retrieve ⟨[], [], []⟩ ((chunks 4 c).zip b)).tags ∧
        ∀ e ∈ fs, e.type = 2)) := by
  obtain ⟨geometry, connect, boundary, group⟩ := file
  unfold parseFile
  cases connect with
  | none => simp
  | some c =>
    cases geometry with
    | none => simp
    | some g =>
      cases boundary with
      | none => simp
      | some b =>
        simp only [chunks_length]
        by_cases hb : b.length ≠ c.length / 4
        · rw [if_pos hb]
          refine ⟨by simp [hb], by simp, by simp⟩
        · rw [if_neg hb]
          rw [not_not] at hb
          unfold addAllElements
          rw [chunks_length]
          generalize hgr : group.getD (List.replicate (c.length / 4) 0) = gr
          by_cases hg : gr.length < c.length / 4
          · rw [if_pos hg]
            refine ⟨by simp [hb], fun h => ?_, by simp⟩
            cases group with
            | none => subst hgr; simp at hg
            | some g => subst hgr; have := h c _ rfl rfl; rw [Option.getD_some] at hg; omega
          · rw [if_neg hg]
            refine ⟨by simp [hb], by simp, fun vs es h => ?_⟩
            simp only [Res.ok.injEq, Prod.mk.injEq] at h
            obtain ⟨rfl, rfl⟩ := h
            refine ⟨c, g, b, rfl, rfl, rfl, rfl, _, _, rfl, ?_, ?_, ?_, ?_, ?_, ?_⟩
            · rw [List.map_zipWith]
              apply List.ext_getElem
              · rw [List.length_zipWith, chunks_length]; omega
              · intro i h1 h2
                rw [List.getElem_zipWith]
                simp only [show GMSHParser.numNodes.getD 3 0 = 4 from rfl]
                exact List.take_of_length_le (le_of_eq (chunks_mem_length 4 c _ (List.getElem_mem _)))
            · intro t ht
              rw [List.mem_iff_getElem] at ht
              obtain ⟨i, hi, rfl⟩ := ht
              simp
            · rintro gr' rfl
              subst hgr
              rw [List.map_zipWith]
              apply List.ext_getElem
              · simp [chunks_length]
              · intro i h1 h2
                simp
            · rintro rfl t ht
              subst hgr
              rw [List.mem_iff_getElem] at ht
              obtain ⟨i, hi, rfl⟩ := ht
              simp
            · rw [List.map_zipWith]
              apply List.ext_getElem
              · simp
              · intro i h1 h2
                simp only [List.getElem_zipWith, show GMSHParser.numNodes.getD 1 0 = 3 from rfl]
                congr 1
                apply List.take_of_length_le
                have hlen : ∀ n ∈ (retrieve ⟨[], [], []⟩ ((chunks 4 c).zip b)).elements, n.length = 3 := by
                  have hi := foldl_inv (raw ((chunks 4 c).zip b)) ⟨[], [], []⟩ []
                    ⟨rfl, by simp, by simp, by simp, by simp⟩
                  rw [List.nil_append, ← retrieve_eq] at hi
                  intro n hn
                  obtain ⟨k, hk, rfl⟩ := List.mem_iff_getElem.1 hn
                  have hk' := hk
                  rw [hi.len] at hk'
                  have := (hi.first k _ _ (List.getElem?_eq_getElem hk) (List.getElem?_eq_getElem hk')).1
                  unfold raw at this
                  obtain ⟨p, _, hp⟩ := List.mem_flatMap.1 this
                  obtain ⟨f, hf, he⟩ := List.mem_map.1 hp
                  rw [← (Prod.mk.inj he).1]
                  unfold faceNodes
                  rw [List.length_map]
                  have := List.mem_range.1 hf
                  match f, this with
                  | 0, _ | 1, _ | 2, _ | 3, _ => rfl
                exact le_of_eq (hlen _ (List.getElem_mem _))
            · intro t ht
              rw [List.mem_iff_getElem] at ht
              obtain ⟨i, hi, rfl⟩ := ht
              simp

/-- C37 (mesh): the builder always accepts what the parser sends: its elements are the tetrahedra of
the file, its facets the distinct faces of the tetrahedra, and the boundary condition of a facet is
that of the tag of the first side with its vertices. -/
theorem C37_builder (file : File) (fuel : ℕ) (tol : ℝ) (h0 : 0 ≤ tol) (ht : tol < 1)
    (hfuel : 4 ≤ fuel) (vertices : List (Fin 3 → ℝ)) (num : ℕ) (vs es)
    (h : parseFile file = .ok (vs, es)) (hnum : es.length ≤ num) :
    ∃ (b : MeshBuilder.Builder 3) (c bd : List ℕ),
      MeshBuilder.addAll 3 fuel tol (MeshBuilder.Builder.init vertices num) es = .ok b ∧
      file.connect = some c ∧ file.boundary = some bd ∧
      b.elements = (chunks 4 c).map Simplex.sort ∧ b.facets.Nodup ∧
      b.facets.length = b.bcs.length ∧
      (∀ f, f ∈ b.facets ↔ ∃ s ∈ sides ((chunks 4 c).zip bd), s.1 = f) ∧
      (∀ (k : ℕ) f bc, b.facets[k]? = some f → b.bcs[k]? = some bc →
        ∃ t, (sides ((chunks 4 c).zip bd)).find? (fun s => s.1 == f) = some (f, t) ∧
          bc = MeshBuilder.specBC t) := by
  obtain ⟨c, g, bd, hc, hg, hbd, rfl, fs, ts, rfl, t1, t2, -, -, f1, f2⟩ :=
    (C37_file file).2.2 vs es h
  have hl4 : ∀ p ∈ (chunks 4 c).zip bd, p.1.length = 4 := fun p hp =>
    chunks_mem_length 4 c _ (List.of_mem_zip hp).1
  obtain ⟨g1, g2, g3, g4⟩ := C37_faces ((chunks 4 c).zip bd) hl4
  have hs4 : MeshBuilder.isSimplex 3 4 = true := by decide
  have hs2 : MeshBuilder.isSimplex 2 2 = true := by decide
  have hs32 : MeshBuilder.isSimplex 3 2 = false := by decide
  have hs24 : MeshBuilder.isSimplex 2 4 = false := by decide
  have hinv := foldl_inv (raw ((chunks 4 c).zip bd)) ⟨[], [], []⟩ []
    ⟨rfl, by simp, by simp, by simp, by simp⟩
  rw [List.nil_append, ← retrieve_eq] at hinv
  generalize hr : retrieve ⟨[], [], []⟩ ((chunks 4 c).zip bd) = r at *
  have hfn : fs.map (·.nodes) = r.elements := by
    have : fs.map (·.nodes) = (fs.map (fun e => (e.nodes, e.tag))).map (·.1) := by simp
    rw [this, f1, List.map_zipWith]
    apply List.ext_getElem
    · simp [g1]
    · intro i h1 h2; simp
  have hft : fs.map (·.tag) = r.tags.map (fun t : ℕ => (t : ℤ)) := by
    have : fs.map (·.tag) = (fs.map (fun e => (e.nodes, e.tag))).map (·.2) := by simp
    rw [this, f1, List.map_zipWith]
    apply List.ext_getElem
    · simp [g1]
    · intro i h1 h2; simp
  have hflen : ∀ e ∈ fs, e.nodes.length = 3 := by
    intro e he
    have hm : e.nodes ∈ r.elements := by rw [← hfn]; exact List.mem_map_of_mem he
    obtain ⟨k, hk, hek⟩ := List.mem_iff_getElem.1 hm
    have hk' := hk
    rw [g1] at hk'
    have := (hinv.first k _ _ (List.getElem?_eq_getElem hk) (List.getElem?_eq_getElem hk')).1
    unfold raw at this
    obtain ⟨p, _, hp⟩ := List.mem_flatMap.1 this
    obtain ⟨f, hf, hq⟩ := List.mem_map.1 hp
    rw [← hek, ← (Prod.mk.inj hq).1]
    unfold faceNodes
    rw [List.length_map]
    have := List.mem_range.1 hf
    match f, this with
    | 0, _ | 1, _ | 2, _ | 3, _ => rfl
  have htlen : ∀ e ∈ ts, e.nodes.length = 4 := by
    intro e he
    exact chunks_mem_length 4 c _ (by rw [← t1]; exact List.mem_map_of_mem he)
  have hok : MeshBuilder.FileOk 3 1 4 (fs ++ ts) := by
    refine ⟨fun e he => ?_, fun e he hs => ?_, fun e he hs => ?_⟩ <;>
      rcases List.mem_append.1 he with he | he
    · rw [f2 e he]; exact Or.inr (Or.inl hs2)
    · rw [t2 e he]; exact Or.inl hs4
    · rw [f2 e he, hs32] at hs; cases hs
    · exact ⟨t2 e he, htlen e he⟩
    · exact le_of_eq (hflen e he).symm
    · rw [htlen e he]; omega
  obtain ⟨b, hb, -⟩ := MeshBuilder.C36_high_order 3 1 fuel 4 tol (by simp) (le_refl _) h0
    (by simpa using ht) hfuel (by omega) vertices num _ hok hnum
  obtain ⟨e1, e2, e3, e4, -⟩ := MeshBuilder.C36_elements 3 fuel tol _ b _ hb
  have hv : MeshBuilder.volumeElements 3 (fs ++ ts) = ts := by
    unfold MeshBuilder.volumeElements
    rw [List.filter_append, List.filter_eq_nil_iff.2, List.filter_eq_self.2, List.nil_append]
    · intro e he; rw [t2 e he]; exact hs4
    · intro e he; rw [f2 e he, hs32]; simp
  have hf : MeshBuilder.facetElements 3 (fs ++ ts) = fs := by
    unfold MeshBuilder.facetElements
    rw [List.filter_append, List.filter_eq_self.2, List.filter_eq_nil_iff.2, List.append_nil]
    · intro e he; rw [t2 e he, hs4]; simp
    · intro e he; rw [f2 e he, hs32]; exact hs2
  rw [hv] at e1
  rw [hf] at e3 e4
  have k1 : b.elements = (chunks 4 c).map Simplex.sort := by
    rw [e1, ← t1, List.map_map]
    show [] ++ _ = _
    rw [List.nil_append]
    apply List.map_congr_left
    intro e he
    simp only [Function.comp, Simplex.mk]
    rw [List.take_of_length_le (le_of_eq (htlen e he))]
  have k3 : b.facets = r.elements.map Simplex.sort := by
    rw [e3, ← hfn, List.map_map]
    show [] ++ _ = _
    rw [List.nil_append]
    apply List.map_congr_left
    intro e he
    simp only [Function.comp, Simplex.mk]
    rw [List.take_of_length_le (le_of_eq (hflen e he))]
  have k4 : b.bcs = r.tags.map (fun t : ℕ => MeshBuilder.specBC (t : ℤ)) := by
    rw [e4]
    show [] ++ _ = _
    rw [List.nil_append]
    have : fs.map (fun e => MeshBuilder.specBC e.tag) = (fs.map (·.tag)).map MeshBuilder.specBC := by
      rw [List.map_map]; rfl
    rw [this, hft, List.map_map]; rfl
  refine ⟨b, c, bd, hb, hc, hbd, k1, by rw [k3]; exact g2, by rw [k3, k4]; simp [g1], fun f => ?_,
    fun k f bc hkf hkb => ?_⟩
  · rw [k3]
    constructor
    · intro hfm
      obtain ⟨n, hn, rfl⟩ := List.mem_map.1 hfm
      obtain ⟨k, hk, rfl⟩ := List.mem_iff_getElem.1 hn
      have hk' := hk
      rw [g1] at hk'
      have := g4 k _ _ (List.getElem?_eq_getElem hk) (List.getElem?_eq_getElem hk')
      exact ⟨_, List.mem_of_find?_eq_some this, rfl⟩
    · rintro ⟨s, hs, rfl⟩
      exact g3 s hs
  · rw [k3, List.getElem?_map] at hkf
    rw [k4, List.getElem?_map] at hkb
    obtain ⟨n, hn, rfl⟩ := Option.map_eq_some_iff.1 hkf
    obtain ⟨t, ht, rfl⟩ := Option.map_eq_some_iff.1 hkb
    exact ⟨t, g4 k n t hn ht, rfl⟩

/-- Two tetrahedra with consistent tags meet the hypothesis of `C37_either_side`; the file parses. -/
example : (∀ s ∈ sides [([0, 1, 2, 3], 3 * 65536 + 5), ([1, 2, 3, 4], 3)],
    ∀ s' ∈ sides [([0, 1, 2, 3], 3 * 65536 + 5), ([1, 2, 3, 4], 3)], s.1 = s'.1 → s.2 = s'.2) ∧
    ([1, 2, 3], 3) ∈ sides [([0, 1, 2, 3], 3 * 65536 + 5), ([1, 2, 3, 4], 3)] := by
  decide +kernel

example : ∃ vs es, parseFile ⟨some (List.replicate 15 0), some [0, 1, 2, 3, 1, 2, 3, 4],
    some [3 * 65536 + 5, 3], some [1, 2]⟩ = .ok (vs, es) := ⟨_, _, rfl⟩

end Tandem.HDF5MeshParser
