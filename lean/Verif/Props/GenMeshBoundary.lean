import Verif.Model.GenMeshBoundary
import Verif.Props.GenMeshConforming
/-! # Property C50: boundary faces of generated meshes and their conditions -/
namespace Tandem.GenMesh
open Tandem.MultiIndex Tandem.Spec

/-- Region boundaries of one direction with `n` cells: from `0` to `n`, not decreasing. -/
def ValidRegions (regions : List Nat) (n : Nat) : Prop :=
  2 ≤ regions.length ∧ regions[0]? = some 0 ∧ regions[regions.length - 1]? = some n ∧
    regions.Pairwise (· ≤ ·)

theorem findRegion_valid (regions : List Nat) (n v : Nat) (h : ValidRegions regions n) (hv : v ≤ n) :
    ∃ r, findRegion regions v = some r ∧ r + 1 < regions.length ∧
      regions.getD r 0 ≤ v ∧ v ≤ regions.getD (r + 1) 0 ∧ (0 < r → regions.getD r 0 < v) ∧
      regions.getD 0 0 = 0 ∧
      ∀ j, j + 1 < regions.length → v ≤ regions.getD (j + 1) 0 → r ≤ j := by
  obtain ⟨h2, h0, hn, hs⟩ := h
  obtain ⟨h0l, h0⟩ := List.getElem?_eq_some_iff.1 h0
  obtain ⟨hNl, hN⟩ := List.getElem?_eq_some_iff.1 hn
  obtain ⟨r, f1, f2, f3, f4, f5⟩ := C29_find_region regions h2 h0 v (by omega)
  have g : ∀ i, (hi : i < regions.length) → regions.getD i 0 = regions[i] := by
    intro i hi; simp [List.getD, hi]
  refine ⟨r, f1, f2, by rw [g r (by omega)]; exact f3, by rw [g (r + 1) f2]; exact f4, ?_,
    by rw [g 0 h0l]; exact h0, ?_⟩
  · intro hr
    rcases Nat.lt_or_ge (regions.getD r 0) v with h | h
    · exact h
    · exfalso
      have := f5 (r - 1) (by omega) (by
        have e : regions[r - 1 + 1] = regions[r] := by congr 1; omega
        rw [g r (by omega)] at h
        omega)
      omega
  · intro j hj hv'
    rw [g (j + 1) hj] at hv'
    exact f5 j hj hv'

theorem updateRegions_fold (regions : List (List Nat)) (D dim : Nat) (ρ : Nat → Nat → Nat)
    (vs : List (List Nat)) (hρ : ∀ v ∈ vs, ∀ d, d < D → findRegion (regions.getD d []) (v.getD d 0) =
      some (ρ d (v.getD d 0))) : ∀ g : Nat → Nat,
    vs.foldlM (updateRegions regions D dim) (((List.range D).filter (· != dim)).map g) =
      some (((List.range D).filter (· != dim)).map (fun d =>
        vs.foldl (fun m v => max m (ρ d (v.getD d 0))) (g d))) := by
  induction vs with
  | nil => intro g; rfl
  | cons v vs ih =>
    intro g
    have h1 : updateRegions regions D dim (((List.range D).filter (· != dim)).map g) v =
        some (((List.range D).filter (· != dim)).map (fun d => max (g d) (ρ d (v.getD d 0)))) := by
      rw [updateRegions, mapM_congr_some _ (fun d => ρ d (v.getD d 0))]
      · simp only [Option.bind_eq_bind, Option.bind_some, Option.pure_def, List.zipWith_map,
          List.zipWith_self]
      · intro d hd
        have := (List.mem_filter.1 hd).1
        exact hρ v (by simp) d (List.mem_range.1 this)
    rw [List.foldlM_cons, h1]
    simp only [Option.bind_eq_bind, Option.bind_some]
    rw [ih (fun v hv => hρ v (by simp [hv]))]
    rfl

theorem foldl_max (l : List Nat) (m M : Nat) (hm : m ≤ M) (hle : ∀ x ∈ l, x ≤ M)
    (hmem : M ∈ l ∨ m = M) : l.foldl max m = M := by
  induction l generalizing m with
  | nil => simp at hmem; simpa using hmem
  | cons x l ih =>
    rw [List.foldl_cons]
    have hx := hle x (by simp)
    apply ih _ (by omega) (fun y hy => hle y (by simp [hy]))
    rcases hmem with h | h
    · rcases List.mem_cons.1 h with h | h
      · right; omega
      · exact Or.inl h
    · right; omega

/-- All vertices of the face have component `x` in direction `d`. -/
def FaceInPlane (N face : List Nat) (d x : Nat) : Prop :=
  ∀ v ∈ face, GridCoord (N.map (· + 1)) v d x

theorem face_setup (N : List Nat) (e F V : List Nat) (hin : InShape e N) (hF : F ≠ [])
    (hV : ∀ v, v ∈ V ↔ ∃ a ∈ F, vid N e a = v) :
    ∃ vs, V.mapM (fun v => unflatten v (np1 N)) = some vs ∧ vs ≠ [] ∧
      (∀ x, x ∈ vs ↔ ∃ a ∈ F, x = corner N.length e a) ∧
      (∀ d, d < N.length → ((vs.all (fun v => v.getD d 0 == (vs.headD []).getD d 0)) = true ↔
        ∃ b, (d, b) ∈ planes N.length F)) ∧
      (∀ d b, (d, b) ∈ planes N.length F → (vs.headD []).getD d 0 = e.getD d 0 + b) := by
  have hu : ∀ a, unflatten (vid N e a) (np1 N) = some (corner N.length e a) := by
    intro a
    rw [vid_eq]
    exact unflatten_position _ _ (corner_inShape N e hin a)
  have hcd : ∀ a d, d < N.length → (corner N.length e a).getD d 0 =
      e.getD d 0 + (bits N.length a).getD d 0 := by
    intro a d hd
    exact getD_zipWith (· + ·) hin.1 (bits_length N.length a) hd
  have hmem : ∀ x, x ∈ V.map (fun v => (unflatten v (np1 N)).getD []) ↔
      ∃ a ∈ F, x = corner N.length e a := by
    intro x
    rw [List.mem_map]
    constructor
    · rintro ⟨v, hv, rfl⟩
      obtain ⟨a, ha, rfl⟩ := (hV v).1 hv
      exact ⟨a, ha, by rw [hu]; rfl⟩
    · rintro ⟨a, ha, rfl⟩
      exact ⟨vid N e a, (hV _).2 ⟨a, ha, rfl⟩, by rw [hu]; rfl⟩
  have hmap : V.mapM (fun v => unflatten v (np1 N)) =
      some (V.map (fun v => (unflatten v (np1 N)).getD [])) := by
    apply mapM_congr_some
    intro v hv
    obtain ⟨a, ha, rfl⟩ := (hV v).1 hv
    rw [hu]; rfl
  generalize hvs : V.map (fun v => (unflatten v (np1 N)).getD []) = vs at hmem hmap
  obtain ⟨a0, ha0⟩ := List.exists_mem_of_ne_nil F hF
  have hne : vs ≠ [] := by
    intro h
    have := (hmem _).2 ⟨a0, ha0, rfl⟩
    rw [h] at this
    simp at this
  have hhead : ∃ a ∈ F, vs.headD [] = corner N.length e a := by
    cases vs with
    | nil => exact absurd rfl hne
    | cons x vs => exact (hmem x).1 (by simp)
  obtain ⟨a1, ha1, hh⟩ := hhead
  refine ⟨vs, hmap, hne, hmem, ?_, ?_⟩
  · intro d hd
    rw [List.all_eq_true]
    constructor
    · intro hall
      refine ⟨(bits N.length a1).getD d 0, ?_⟩
      rw [mem_planes, inPlane_iff _ _ _ _ hd]
      refine ⟨hd, bits_le _ _ _, ?_⟩
      intro a ha
      have := hall _ ((hmem _).2 ⟨a, ha, rfl⟩)
      rw [beq_iff_eq, hh, hcd a d hd, hcd a1 d hd] at this
      omega
    · rintro ⟨b, hb⟩ x hx
      rw [mem_planes, inPlane_iff _ _ _ _ hd] at hb
      obtain ⟨a, ha, rfl⟩ := (hmem x).1 hx
      rw [beq_iff_eq, hh, hcd a d hd, hcd a1 d hd, hb.2.2 a ha, hb.2.2 a1 ha1]
  · intro d b hb
    rw [mem_planes] at hb
    have := (inPlane_iff _ _ _ _ hb.1).1 hb.2.2 a1 ha1
    rw [hh, hcd a1 d hb.1, this]

theorem faceInPlane_iff (N e F V : List Nat) (hin : InShape e N) (hF : F ≠ [])
    (hV : ∀ v, v ∈ V ↔ ∃ a ∈ F, vid N e a = v) (d x : Nat) (hd : d < N.length) :
    FaceInPlane N V d x ↔ ∃ b, (d, b) ∈ planes N.length F ∧ e.getD d 0 + b = x := by
  obtain ⟨a0, ha0⟩ := List.exists_mem_of_ne_nil F hF
  constructor
  · intro hh
    have hh' : ∀ a ∈ F, e.getD d 0 + (bits N.length a).getD d 0 = x := fun a ha =>
      (gridCoord_iff N e hin a d x hd).1 (hh _ ((hV _).2 ⟨a, ha, rfl⟩))
    refine ⟨(bits N.length a0).getD d 0, ?_, hh' a0 ha0⟩
    rw [mem_planes]
    refine ⟨hd, bits_le _ _ _, (inPlane_iff _ _ _ _ hd).2 ?_⟩
    intro a ha
    have := hh' a ha
    have := hh' a0 ha0
    omega
  · rintro ⟨b, hb, hx⟩ v hv
    obtain ⟨a, ha, rfl⟩ := (hV v).1 hv
    rw [mem_planes] at hb
    rw [gridCoord_iff N e hin a d x hd, (inPlane_iff _ _ _ _ hd).1 hb.2.2 a ha]
    exact hx

/-- C50: the boundary condition of a facet (an element's vertices except one) of a generated mesh.  The
computation succeeds, and
* if all vertices of the facet lie in the plane through corner point number `plane` in direction `d`
  (the first corner point with that grid position), the facet is put into the boundary mesh with the
  condition `bcs d plane other`, where `other` lists, for the other directions in ascending order, a region
  that contains the whole facet;
* if the facet lies in no such plane it is not put into the boundary mesh. -/
theorem C50_face_condition {β : Type} (N : List Nat) (hD : N.length = 2 ∨ N.length = 3)
    (hpos : ∀ n ∈ N, 0 < n) (regions : List (List Nat))
    (hreg : ∀ d, d < N.length → ValidRegions (regions.getD d []) (N.getD d 0))
    (bcs : Nat → Nat → List Nat → β)
    (G : List (List Nat)) (hG : rankElements N 0 1 = some G) (s : List Nat) (hs : s ∈ G) (w : Nat)
    (hw : w ∈ s) :
    ∃ res, faceCondition regions N bcs (s.filter (· != w)) = some res ∧
      (∀ (d plane x : Nat), d < N.length → (regions.getD d [])[plane]? = some x →
        (∀ p, p < plane → (regions.getD d [])[p]? ≠ some x) →
        FaceInPlane N (s.filter (· != w)) d x →
        ∃ other, res = some (bcs d plane other) ∧ other.length = N.length - 1 ∧
          ∀ i, i < N.length - 1 → ∀ d', d' = (if i < d then i else i + 1) →
            ∃ lo hi, (regions.getD d' [])[other.getD i 0]? = some lo ∧
              (regions.getD d' [])[other.getD i 0 + 1]? = some hi ∧
              ∀ v ∈ s.filter (· != w), ∃ y, GridCoord (N.map (· + 1)) v d' y ∧ lo ≤ y ∧ y ≤ hi) ∧
      ((¬ ∃ (d plane x : Nat), d < N.length ∧ (regions.getD d [])[plane]? = some x ∧
        FaceInPlane N (s.filter (· != w)) d x) → res = none) := by
  obtain ⟨-, -, e, F, he, hF, hV, hok⟩ := facet_local N hD hpos G hG s hs w hw
  have hin := (mem_cells N e).1 he
  obtain ⟨hlen, hlt⟩ := inShape_getD hin
  generalize s.filter (· != w) = V at hV
  obtain ⟨vs, k1, k2, k3, k4, k5⟩ := face_setup N e F V hin hF hV
  have hfip := fun d x hd => faceInPlane_iff N e F V hin hF hV d x hd
  have hidx : ∀ (f : Nat → Bool) (D : Nat) (d : Nat), d < D → f d = true →
      (∀ d', d' < D → f d' = true → d' = d) →
      ((List.range D).map f).count true = 1 ∧ ((List.range D).map f).findIdx? (· == true) = some d := by
    intro f D d hd hfd huniq
    constructor
    · rw [List.count, List.countP_map]
      have : (List.range D).countP ((fun x => x == true) ∘ f) = (List.range D).countP (fun x => x == d) := by
        apply List.countP_congr
        intro x hx
        have hx := List.mem_range.1 hx
        simp only [Function.comp, beq_iff_eq]
        exact ⟨fun h => huniq x hx h, fun h => by rw [h]; exact hfd⟩
      rw [this]
      exact List.count_eq_one_of_mem List.nodup_range (List.mem_range.2 hd)
    · rw [List.findIdx?_eq_some_iff_getElem]
      refine ⟨by simpa using hd, by simp [hfd], ?_⟩
      intro j hj
      simp only [List.getElem_map, List.getElem_range, beq_iff_eq]
      intro h
      have := huniq j (by omega) h
      omega
  have hD1 : ∀ d, d < N.length → ((List.range N.length).filter (· != d)).length = N.length - 1 ∧
      ∀ i, i < N.length - 1 → ((List.range N.length).filter (· != d))[i]? =
        some (if i < d then i else i + 1) := by
    intro d hd
    rcases hD with h | h <;> rw [h] at hd ⊢
    · have : d = 0 ∨ d = 1 := by omega
      rcases this with rfl | rfl <;> exact ⟨by decide, by decide⟩
    · have : d = 0 ∨ d = 1 ∨ d = 2 := by omega
      rcases this with rfl | rfl | rfl <;> exact ⟨by decide, by decide⟩
  rw [localOK] at hok
  split at hok
  · -- in no plane
    rename_i hp
    have hfalse : sameInDirection N.length vs = List.replicate N.length false := by
      rw [sameInDirection, List.eq_replicate_iff]
      refine ⟨by simp, ?_⟩
      intro b hb
      obtain ⟨d, hd, rfl⟩ := List.mem_map.1 hb
      rw [Bool.eq_false_iff]
      intro h
      obtain ⟨b, hb⟩ := (k4 d (List.mem_range.1 hd)).1 h
      rw [hp] at hb; simp at hb
    refine ⟨none, ?_, ?_, fun _ => rfl⟩
    · rw [faceCondition]
      simp only [Option.bind_eq_bind, k1, Option.bind_some, hfalse]
      rw [List.count_eq_zero.2 (by simp), if_neg (by omega)]
      have : (List.replicate N.length false).findIdx? (· == true) = none := by
        rw [List.findIdx?_eq_none_iff]; simp
      rw [this]; rfl
    · intro d plane x hd _ _ hpl
      obtain ⟨b, hb, _⟩ := (hfip d x hd).1 hpl
      rw [hp] at hb; simp at hb
  · rename_i d0 b0 hp
    have hmem : (d0, b0) ∈ planes N.length F := by rw [hp]; simp
    obtain ⟨hd0, hb0, -⟩ := (mem_planes _ _ _ _).1 hmem
    have huniq : ∀ d b, (d, b) ∈ planes N.length F → d = d0 ∧ b = b0 := by
      intro d b h
      rw [hp] at h
      simpa using h
    obtain ⟨c1, c2⟩ := hidx (fun d => vs.all (fun v => v.getD d 0 == (vs.headD []).getD d 0))
      N.length d0 hd0 ((k4 d0 hd0).2 ⟨b0, hmem⟩) (by
        intro d' hd' h
        obtain ⟨b, hb⟩ := (k4 d' hd').1 h
        exact (huniq _ _ hb).1)
    have hhead := k5 d0 b0 hmem
    -- unfolding of the computation
    have hcomp : faceCondition regions N bcs V =
        (match (regions.getD d0 []).findIdx? (· == e.getD d0 0 + b0) with
        | none => some none
        | some plane => (vs.foldlM (updateRegions regions N.length d0) (List.replicate (N.length - 1) 0)).bind
            (fun other => some (some (bcs d0 plane other)))) := by
      rw [faceCondition]
      simp only [Option.bind_eq_bind, k1, Option.bind_some, sameInDirection, c1, c2, hhead]
      rw [if_neg (by omega)]
      rfl
    -- the regions in the other directions
    have hvle : ∀ v ∈ vs, ∀ d, d < N.length → v.getD d 0 ≤ N.getD d 0 := by
      intro v hv d hd
      obtain ⟨a, ha, rfl⟩ := (k3 v).1 hv
      rw [show (corner N.length e a).getD d 0 = e.getD d 0 + (bits N.length a).getD d 0 from
        getD_zipWith (· + ·) hin.1 (bits_length N.length a) hd]
      have := hlt d hd
      have := bits_le N.length a d
      omega
    have hρ : ∀ d, ∃ ρ : Nat → Nat, ∀ x, d < N.length → x ≤ N.getD d 0 →
        findRegion (regions.getD d []) x = some (ρ x) := by
      intro d
      have : ∀ x, ∃ r, d < N.length → x ≤ N.getD d 0 → findRegion (regions.getD d []) x = some r := by
        intro x
        by_cases h : d < N.length ∧ x ≤ N.getD d 0
        · obtain ⟨r, hr, -⟩ := findRegion_valid _ _ x (hreg d h.1) h.2
          exact ⟨r, fun _ _ => hr⟩
        · exact ⟨0, fun h1 h2 => absurd ⟨h1, h2⟩ h⟩
      obtain ⟨ρ, hρ⟩ := Classical.axiomOfChoice this
      exact ⟨ρ, hρ⟩
    obtain ⟨ρ, hρ⟩ := Classical.axiomOfChoice hρ
    have hrep : List.replicate (N.length - 1) 0 =
        ((List.range N.length).filter (· != d0)).map (fun _ => 0) := by
      rw [List.map_const', (hD1 d0 hd0).1]
    have hfold := updateRegions_fold regions N.length d0 ρ vs
      (fun v hv d hd => hρ d _ hd (hvle v hv d hd)) (fun _ => 0)
    rw [← hrep] at hfold
    rw [hcomp, hfold]
    cases hfi : (regions.getD d0 []).findIdx? (· == e.getD d0 0 + b0) with
    | none =>
      refine ⟨none, rfl, ?_, fun _ => rfl⟩
      intro d plane x hd hx _ hpl
      obtain ⟨b, hb, hbx⟩ := (hfip d x hd).1 hpl
      obtain ⟨rfl, rfl⟩ := huniq _ _ hb
      rw [List.findIdx?_eq_none_iff] at hfi
      have := hfi x (List.mem_of_getElem? hx)
      rw [hbx, beq_self_eq_true] at this
      exact absurd this (by decide)
    | some plane0 =>
      simp only [Option.bind_some]
      rw [List.findIdx?_eq_some_iff_getElem] at hfi
      obtain ⟨f1, f2, f3⟩ := hfi
      rw [beq_iff_eq] at f2
      refine ⟨_, rfl, ?_, ?_⟩
      · intro d plane x hd hx hfirst hpl
        obtain ⟨b, hb, hbx⟩ := (hfip d x hd).1 hpl
        obtain ⟨rfl, rfl⟩ := huniq _ _ hb
        obtain ⟨g1, g2⟩ := List.getElem?_eq_some_iff.1 hx
        have hpp : plane0 = plane := by
          rcases Nat.lt_trichotomy plane0 plane with h | h | h
          · exact absurd (by rw [List.getElem?_eq_getElem f1, f2, hbx]) (hfirst plane0 h)
          · exact h
          · have := f3 plane h
            simp only [beq_iff_eq] at this
            exact absurd (by rw [g2, hbx]) this
        subst hpp
        refine ⟨_, rfl, by simp [(hD1 d hd).1], ?_⟩
        intro i hi d' hd'
        subst hd'
        have hgi := (hD1 d hd).2 i hi
        generalize hdd : (if i < d then i else i + 1) = d' at hgi ⊢
        have hd'N : d' < N.length := by
          have := (List.mem_filter.1 (List.mem_of_getElem? hgi)).1
          exact List.mem_range.1 this
        have hd'd : d' ≠ d := by
          have := (List.mem_filter.1 (List.mem_of_getElem? hgi)).2
          simpa using this
        -- the value is the region of the larger coordinate
        obtain ⟨R, r1, r2, r3, r4, r5, r6, -⟩ := findRegion_valid _ _ (e.getD d' 0 + 1) (hreg d' hd'N)
          (by have := hlt d' hd'N; omega)
        have hR : ρ d' (e.getD d' 0 + 1) = R := by
          have := hρ d' (e.getD d' 0 + 1) hd'N (by have := hlt d' hd'N; omega)
          rw [r1] at this; exact (Option.some.inj this).symm
        have hcoord : ∀ v ∈ vs, v.getD d' 0 = e.getD d' 0 ∨ v.getD d' 0 = e.getD d' 0 + 1 := by
          intro v hv
          obtain ⟨a, ha, rfl⟩ := (k3 v).1 hv
          rw [show (corner N.length e a).getD d' 0 = e.getD d' 0 + (bits N.length a).getD d' 0 from
            getD_zipWith (· + ·) hin.1 (bits_length N.length a) hd'N]
          have := bits_le N.length a d'
          omega
        have hex : ∃ v ∈ vs, v.getD d' 0 = e.getD d' 0 + 1 := by
          apply Classical.byContradiction
          intro hno
          have hall : ∀ a ∈ F, (bits N.length a).getD d' 0 = 0 := by
            intro a ha
            have hv := (k3 _).2 ⟨a, ha, rfl⟩
            have h1 : (corner N.length e a).getD d' 0 = e.getD d' 0 + (bits N.length a).getD d' 0 :=
              getD_zipWith (· + ·) hin.1 (bits_length N.length a) hd'N
            have h2 : (corner N.length e a).getD d' 0 ≠ e.getD d' 0 + 1 := fun h => hno ⟨_, hv, h⟩
            have := bits_le N.length a d'
            omega
          have : (d', 0) ∈ planes N.length F := by
            rw [mem_planes, inPlane_iff _ _ _ _ hd'N]
            exact ⟨hd'N, by omega, hall⟩
          exact hd'd (huniq _ _ this).1
        have hmax : vs.foldl (fun m v => max m (ρ d' (v.getD d' 0))) 0 = R := by
          have := foldl_max (vs.map (fun v => ρ d' (v.getD d' 0))) 0 R (Nat.zero_le _) (by
            intro x hx
            obtain ⟨v, hv, rfl⟩ := List.mem_map.1 hx
            rcases hcoord v hv with h | h
            · rw [h]
              obtain ⟨q, q1, q2, -, -, -, -, q7⟩ := findRegion_valid _ _ (e.getD d' 0) (hreg d' hd'N)
                (by have := hlt d' hd'N; omega)
              have := hρ d' (e.getD d' 0) hd'N (by have := hlt d' hd'N; omega)
              rw [q1] at this
              rw [← Option.some.inj this]
              exact q7 R r2 (by omega)
            · rw [h, hR]) (by
            obtain ⟨v, hv, h⟩ := hex
            exact Or.inl (List.mem_map.2 ⟨v, hv, by rw [h, hR]⟩))
          rw [List.foldl_map] at this
          exact this
        have hval : (((List.range N.length).filter (· != d)).map (fun d =>
            vs.foldl (fun m v => max m (ρ d (v.getD d 0))) 0)).getD i 0 = R := by
          rw [List.getD, List.getElem?_map, hgi]
          exact hmax
        rw [hval]
        have hgR : ∀ j, j < (regions.getD d' []).length → (regions.getD d' [])[j]? =
            some ((regions.getD d' []).getD j 0) := by
          intro j hj
          generalize regions.getD d' [] = L at hj ⊢
          simp [List.getD, hj]
        refine ⟨_, _, hgR R (by omega), hgR (R + 1) r2, ?_⟩
        intro v hv
        obtain ⟨a, ha, rfl⟩ := (hV v).1 hv
        refine ⟨_, (gridCoord_iff N e hin a d' _ hd'N).2 rfl, ?_, ?_⟩
        · have hlo : (regions.getD d' []).getD R 0 ≤ e.getD d' 0 := by
            rcases Nat.eq_zero_or_pos R with h | h
            · rw [h, r6]; exact Nat.zero_le _
            · have := r5 h; omega
          omega
        · have := bits_le N.length a d'
          omega
      · intro hno
        exfalso
        apply hno
        refine ⟨d0, plane0, e.getD d0 0 + b0, hd0, by rw [List.getElem?_eq_getElem f1, f2], ?_⟩
        exact (hfip d0 _ hd0).2 ⟨b0, hmem, rfl⟩
  · simp at hok

/-- C50: the boundary mesh consists, in order, of the faces with a condition; a failure of one face is a
failure of the whole. -/
theorem C50_boundary_mesh {β : Type} (regions : List (List Nat)) (N : List Nat)
    (bcs : Nat → Nat → List Nat → β) (faces : List (List Nat)) (c : List Nat → Option β)
    (h : ∀ f ∈ faces, faceCondition regions N bcs f = some (c f)) :
    extractBoundary regions N bcs faces = some (faces.filterMap (fun f => (c f).map (fun b => (f, b)))) := by
  induction faces with
  | nil => rfl
  | cons f fs ih =>
    rw [extractBoundary, h f (by simp), ih (fun g hg => h g (by simp [hg]))]
    cases hc : c f with
    | none => simp [hc]
    | some b => simp [hc]

/-- The example of the documentation of `GenMesh`: points `{0,1}` and `{0,0.5,1}`; the fault is plane 1
in direction 1. -/
example : ValidRegions [0, 1] 1 ∧ ValidRegions [0, 1, 2] 2 := by
  refine ⟨⟨by decide, rfl, rfl, by decide⟩, ⟨by decide, rfl, rfl, by decide⟩⟩

example : rankElements [1, 2] 0 1 = some [[0, 1, 2], [1, 2, 3], [2, 3, 5], [2, 4, 5]] ∧
    faceCondition [[0, 1], [0, 1, 2]] [1, 2] (fun d p o => (d, p, o)) [2, 3] = some (some (1, 1, [0])) ∧
    faceCondition [[0, 1], [0, 1, 2]] [1, 2] (fun d p o => (d, p, o)) [1, 3] = some (some (0, 1, [0])) ∧
    faceCondition [[0, 1], [0, 1, 2]] [1, 2] (fun d p o => (d, p, o)) [2, 4] = some (some (0, 0, [1])) ∧
    faceCondition [[0, 1], [0, 1, 2]] [1, 2] (fun d p o => (d, p, o)) [1, 2] = some none := by decide

end Tandem.GenMesh
