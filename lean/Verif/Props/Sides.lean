import Verif.Spec.Sides
import Verif.Props.InfillAreas
import Verif.Props.OutsideAreas
import Verif.Props.Covered

/-! # Points which are not near to a contour are filled as requested (C121) -/
namespace Verif
open Verif.Go Verif.Model Verif.Spec

/-! ## The parts of a result and a point -/

theorem mapContours_append (a b : List LayerPart) : (a ++ b).map partContours = a.map partContours ++ b.map partContours := List.map_append

mutual
theorem areas_treeParts : (p : PolyNode) → (treeParts p).map partContours = areasOf p
  | .node c cs => by
    simp only [treeParts, List.map_cons, partContours_nodePart, areasOf, PolyNode.contour, PolyNode.childs]
    rw [areas_grandParts cs]
theorem areas_grandParts : (l : List PolyNode) → (grandParts l).map partContours = areasInside l
  | [] => by simp [grandParts, areasInside]
  | .node c cs :: rest => by
    simp only [grandParts, List.map_append, areasInside]
    rw [areas_treePartsList cs, areas_grandParts rest]
theorem areas_treePartsList : (l : List PolyNode) → (treePartsList l).map partContours = areas l
  | [] => by simp [treePartsList, areas]
  | c :: cs => by
    simp only [treePartsList, List.map_append, areas]
    rw [areas_treeParts c, areas_treePartsList cs]
end

theorem areas_polyTree (l : List PolyNode) : List.Perm ((polyTreeToLayerParts l).map partContours) (areas l) := by
  have := (polyTree_perm l).map partContours
  rwa [← treePartsList_eq, areas_treePartsList] at this

/-- The number of parts which contain a point. -/
noncomputable def partCount (ps : List LayerPart) (x : ℚ × ℚ) : Nat := areaCount (ps.map partContours) x

theorem partCount_polyTree (l : List PolyNode) (x : ℚ × ℚ) : partCount (polyTreeToLayerParts l) x = areaCount (areas l) x :=
  (areas_polyTree l).countP_eq _

@[simp] theorem partCount_nil (x : ℚ × ℚ) : partCount [] x = 0 := rfl

theorem partCount_append (a b : List LayerPart) (x : ℚ × ℚ) : partCount (a ++ b) x = partCount a x + partCount b x := by
  simp [partCount, areaCount]

open Classical in
theorem partCount_single (p : LayerPart) (x : ℚ × ℚ) : partCount [p] x = if x ∈ region enclosedBy [p] then 1 else 0 := by
  simp only [partCount, areaCount, region, List.map_cons, List.map_nil, List.flatMap_cons, List.flatMap_nil, List.append_nil, List.countP_cons, List.countP_nil]
  split <;> simp_all

/-- A point is in the region of the parts if it is in an odd number of parts. -/
theorem mem_region_count (ps : List LayerPart) (x : ℚ × ℚ) : x ∈ region enclosedBy ps ↔ Odd (partCount ps x) := by
  induction ps with
  | nil => simp
  | cons p ps ih =>
    have e : p :: ps = [p] ++ ps := rfl
    rw [e, mem_region_append, partCount_append, ih, Nat.odd_add, partCount_single, ← Nat.not_odd_iff_even]
    split <;> simp_all

/-- The point is in at most one of the parts. -/
def AtMostOne (ps : List LayerPart) (x : ℚ × ℚ) : Prop := partCount ps x ≤ 1

/-- All contours of the parts are farther than `D` away from the point. -/
def Clear (D : ℚ) (ps : List LayerPart) (x : ℚ × ℚ) : Prop := ∀ p ∈ ps, ∀ k ∈ partContours p, FarFromPath D (asPath k) x

section
variable {D : ℚ} {x : ℚ × ℚ} {ps qs : List LayerPart}

theorem farFromPath_le {d e : ℚ} {p : Path} {q : ℚ × ℚ} (h : FarFromPath d p q) (he : 0 ≤ e) (hde : e ≤ d) : FarFromPath e p q :=
  fun s hs => farFrom_mono (h s hs) he hde

theorem Clear.mono {E : ℚ} (h : Clear D ps x) (hE : 0 ≤ E) (hED : E ≤ D) : Clear E ps x := fun p hp k hk => farFromPath_le (h p hp k hk) hE hED

theorem clear_nil : Clear D [] x := fun _ h => by cases h

theorem Clear.append (h : Clear D ps x) (h' : Clear D qs x) : Clear D (ps ++ qs) x := fun p hp => (List.mem_append.1 hp).elim (h p) (h' p)

theorem Clear.single (h : Clear D ps x) {p : LayerPart} (hp : p ∈ ps) : Clear D [p] x := fun q hq => by
  rw [List.mem_singleton] at hq; subst hq; exact h q hp

theorem clear_flatMap {f : LayerPart → List LayerPart} (h : ∀ p ∈ ps, Clear D (f p) x) : Clear D (ps.flatMap f) x := fun q hq => by
  obtain ⟨p, hp, hq⟩ := List.mem_flatMap.1 hq
  exact h p hp q hq

theorem atMostOne_nil : AtMostOne [] x := by simp [AtMostOne]

theorem atMostOne_single (p : LayerPart) : AtMostOne [p] x := by
  unfold AtMostOne; rw [partCount_single]; split <;> omega

theorem count_of_atMostOne [Decidable (x ∈ region enclosedBy ps)] (h : AtMostOne ps x) : partCount ps x = if x ∈ region enclosedBy ps then 1 else 0 := by
  have := mem_region_count ps x
  unfold AtMostOne at h
  split
  · next hx => have := (this.1 hx).pos; omega
  · next hx =>
    by_contra hc
    exact hx (this.2 (by have : partCount ps x = 1 := by omega
                         rw [this]; exact odd_one))

theorem mem_region_of_atMostOne (h : AtMostOne ps x) {p : LayerPart} (hp : p ∈ ps) (hx : x ∈ region enclosedBy [p]) : x ∈ region enclosedBy ps := by
  obtain ⟨a, b, rfl⟩ := List.append_of_mem hp
  rw [mem_region_count]
  have e : a ++ p :: b = a ++ ([p] ++ b) := by simp
  unfold AtMostOne at h
  rw [e, partCount_append, partCount_append, partCount_single, if_pos hx] at h ⊢
  have : partCount a x + (1 + partCount b x) = 1 := by omega
  rw [this]; exact odd_one

theorem exists_of_mem_region (hx : x ∈ region enclosedBy ps) : ∃ p ∈ ps, x ∈ region enclosedBy [p] := by
  induction ps with
  | nil => simp at hx
  | cons p ps ih =>
    have e : p :: ps = [p] ++ ps := rfl
    rw [e, mem_region_append] at hx
    by_cases hp : x ∈ region enclosedBy [p]
    · exact ⟨p, List.mem_cons_self, hp⟩
    · have : x ∈ region enclosedBy ps := by by_contra hc; exact hx ⟨fun h => absurd h hp, fun h => absurd h hc⟩
      obtain ⟨q, hq, hq'⟩ := ih this
      exact ⟨q, List.mem_cons_of_mem _ hq, hq'⟩

theorem mem_region_iff_exists (h : AtMostOne ps x) : x ∈ region enclosedBy ps ↔ ∃ p ∈ ps, x ∈ region enclosedBy [p] :=
  ⟨exists_of_mem_region, fun ⟨_, hp, hx⟩ => mem_region_of_atMostOne h hp hx⟩

theorem atMostOne_of_sub {p : LayerPart} (h : x ∈ region enclosedBy qs ↔ x ∈ region enclosedBy [p]) (h1 : AtMostOne qs x) : partCount qs x = partCount [p] x := by
  classical
  rw [count_of_atMostOne h1, partCount_single]
  simp only [h]

theorem partCount_flatMap {f : LayerPart → List LayerPart} (h : ∀ p ∈ ps, partCount (f p) x = partCount [p] x) : partCount (ps.flatMap f) x = partCount ps x := by
  induction ps with
  | nil => rfl
  | cons p ps ih =>
    have e : p :: ps = [p] ++ ps := rfl
    rw [List.flatMap_cons, partCount_append, h p List.mem_cons_self, ih fun q hq => h q (List.mem_cons_of_mem _ hq), e, partCount_append]

/-- A list of parts is like another one for the point: all its contours are farther than `D` away from the point, and as many parts contain the point. -/
def Alike (D : ℚ) (ps qs : List LayerPart) (x : ℚ × ℚ) : Prop := Clear D qs x ∧ partCount qs x = partCount ps x

theorem Alike.region (h : Alike D ps qs x) : x ∈ region enclosedBy qs ↔ x ∈ region enclosedBy ps := by
  rw [mem_region_count, mem_region_count, h.2]

theorem Alike.atMostOne (h : Alike D ps qs x) (h1 : AtMostOne ps x) : AtMostOne qs x := by
  unfold AtMostOne at *; rw [h.2]; exact h1

theorem alike_flatMap {f : LayerPart → List LayerPart} (h : ∀ p ∈ ps, Alike D [p] (f p) x) : Alike D ps (ps.flatMap f) x :=
  ⟨clear_flatMap fun p hp => (h p hp).1, partCount_flatMap fun p hp => (h p hp).2⟩

end

/-! ## The operations of the library -/

section
variable {lib : ClipperLib} {tol D : ℚ} {x : ℚ × ℚ} (hk : KeepsSides lib tol) (h0 : 0 ≤ tol) (hD : 0 ≤ D)
include hk hD

theorem clip_sides {t : ClipType} {a b r : List LayerPart} (h : lib.runClipper t a b = some r) (ha : Clear (D + tol) a x) (hb : Clear (D + tol) b x) :
    Clear D r x ∧ AtMostOne r x ∧ (x ∈ region enclosedBy r ↔ x ∈ clipSets t (region enclosedBy a) (region enclosedBy b)) := by
  simp only [ClipperLib.runClipper] at h
  split at h
  · next hab =>
    cases h
    obtain ⟨rfl, rfl⟩ := hab
    exact ⟨clear_nil, atMostOne_nil, by cases t <;> simp [clipSets]⟩
  · cases hx : lib.execute t (a.flatMap ClipperLib.partPaths) (b.flatMap ClipperLib.partPaths) with
    | none => simp [hx] at h
    | some tree =>
      simp only [hx, Option.map_some, Option.some.injEq] at h
      subst h
      obtain ⟨h1, h2⟩ := hk.execute _ _ _ _ hx D x hD fun k hkm => by
        rcases List.mem_append.1 hkm with hkm | hkm
        · obtain ⟨p, hp, hkm⟩ := List.mem_flatMap.1 hkm; exact ha p hp k hkm
        · obtain ⟨p, hp, hkm⟩ := List.mem_flatMap.1 hkm; exact hb p hp k hkm
      rw [← partCount_polyTree] at h2
      refine ⟨fun p hp k hkm => h1 k ((polyTree_contours tree).mem_iff.1 (List.mem_flatMap.2 ⟨p, hp, hkm⟩)), ?_, ?_⟩
      · unfold AtMostOne; rw [h2]; split <;> omega
      · rw [mem_region_count, h2]
        show _ ↔ x ∈ clipSets t (evenOdd enclosedBy (a.flatMap ClipperLib.partPaths)) (evenOdd enclosedBy (b.flatMap ClipperLib.partPaths))
        split <;> simp_all

theorem inset1_sides {p : LayerPart} (hp : LibArea lib (partContours p)) {d : ℚ} (h : Clear (D + 3 / 2 * |d| + tol) [p] x) : Alike D [p] (lib.inset1 p d) x := by
  obtain ⟨h1, h2⟩ := hk.offset _ d hp D x hD (h p (List.mem_singleton.2 rfl))
  have e : ClipperLib.inset1 lib p d = polyTreeToLayerParts (lib.offset (partContours p) d) := rfl
  rw [e]
  refine ⟨fun q hq k hkm => h1 k ((polyTree_contours _).mem_iff.1 (List.mem_flatMap.2 ⟨q, hq, hkm⟩)), ?_⟩
  have e2 : x ∈ region enclosedBy [p] ↔ x ∈ evenOdd enclosedBy (partContours p) := by unfold region; rw [List.flatMap_singleton]
  rw [partCount_polyTree, h2, partCount_single]
  by_cases hx : x ∈ evenOdd enclosedBy (partContours p)
  · rw [if_pos hx, if_pos (e2.2 hx)]
  · rw [if_neg hx, if_neg (fun h => hx (e2.1 h))]

include h0 in
theorem overlap_sides {p : LayerPart} (hp : LibArea lib (partContours p)) {pc w : Int} {g : ℚ} (hg : |r64 (((-perimeterOverlap pc w).tdiv 2 : Int) : ℚ)| ≤ g)
    (h : Clear (D + 3 / 2 * g + tol) [p] x) : Alike D [p] (calculateOverlapPerimeter lib p pc w) x := by
  have hg0 := (abs_nonneg _).trans hg
  unfold calculateOverlapPerimeter
  split
  · exact inset1_sides hk hD hp (h.mono (by positivity) (by linarith))
  · exact ⟨h.mono hD (by linarith), rfl⟩

end

section
variable {lib : ClipperLib} {tol : ℚ} {x : ℚ × ℚ}

theorem unionIfNeeded_sides (hk : KeepsSides lib tol) (h0 : 0 ≤ tol) {D : ℚ} (hD : 0 ≤ D) {msg : String} {acc parts r : List LayerPart} (h : unionIfNeeded lib msg acc parts = .ok r)
    (ha : Clear (D + tol) acc x) (hb : Clear (D + tol) parts x) (h1 : AtMostOne parts x) :
    Clear D r x ∧ AtMostOne r x ∧ (x ∈ region enclosedBy r ↔ x ∈ region enclosedBy acc ∨ x ∈ region enclosedBy parts) := by
  unfold unionIfNeeded at h
  split at h
  · next hz =>
    cases h
    rw [List.length_eq_zero_iff.1 hz]
    exact ⟨hb.mono hD (by linarith), h1, by simp⟩
  · exact clip_sides hk hD (orErr_ok h) ha hb

theorem clip_libArea {t : ClipType} {a b r : List LayerPart} (h : lib.runClipper t a b = some r) : ∀ p ∈ r, LibArea lib (partContours p) := by
  simp only [ClipperLib.runClipper] at h
  split at h
  · cases h; simp
  · cases hx : lib.execute t (a.flatMap ClipperLib.partPaths) (b.flatMap ClipperLib.partPaths) with
    | none => simp [hx] at h
    | some tree =>
      simp only [hx, Option.map_some, Option.some.injEq] at h
      subst h
      exact fun p hp => ⟨tree, .inl ⟨_, _, _, hx⟩, isArea_part hp⟩

theorem unionIfNeeded_libArea {msg : String} {acc parts r : List LayerPart} (h : unionIfNeeded lib msg acc parts = .ok r) (hb : ∀ p ∈ parts, LibArea lib (partContours p)) :
    ∀ p ∈ r, LibArea lib (partContours p) := by
  unfold unionIfNeeded at h
  split at h
  · cases h; exact hb
  · exact clip_libArea (orErr_ok h)

/-- The bottom: what is not covered by one of the layers below. -/
theorem bottomLoop_sides (hk : KeepsSides lib tol) (h0 : 0 ≤ tol) {D : ℚ} (hD : 0 ≤ D) (layers : List Layer) (layerNr : Nat) (part : LayerPart)
    (hpa : LibArea lib (partContours part)) (n i : Nat) (acc r : List LayerPart) (h : bottomLoop lib layers layerNr part n i acc = .ok r)
    (hacc : Clear (D + n * tol) acc x) (hacc1 : AtMostOne acc x) (haccA : ∀ p ∈ acc, LibArea lib (partContours p)) (hpart : Clear (D + (n + 1) * tol) [part] x)
    (hlay : ∀ j below, i ≤ j → j < i + n → j + 1 ≤ layerNr → layers[layerNr - 1 - j]? = some below → Clear (D + (n + 1) * tol) below.parts x) :
    Clear D r x ∧ AtMostOne r x ∧ (∀ p ∈ r, LibArea lib (partContours p)) ∧
    (x ∈ region enclosedBy r ↔ x ∈ region enclosedBy acc ∨ x ∈ region enclosedBy [part] ∧ ∃ j, i ≤ j ∧ j < i + n ∧ (j = layerNr ∨
      ∃ below, j + 1 ≤ layerNr ∧ layers[layerNr - 1 - j]? = some below ∧ x ∉ region enclosedBy below.parts)) := by
  induction n generalizing i acc with
  | zero =>
    cases h
    refine ⟨by simpa using hacc, hacc1, haccA, ?_⟩
    constructor
    · exact Or.inl
    · rintro (h | ⟨_, j, h1, h2, _⟩)
      · exact h
      · omega
  | succ n ih =>
    have hn : (0 : ℚ) ≤ n * tol := by positivity
    push_cast at hacc hpart hlay
    unfold bottomLoop at h
    split at h
    · next hi =>
      obtain ⟨acc', h1, h2⟩ := bind_ok.1 h
      obtain ⟨c1, c2, c3⟩ := unionIfNeeded_sides hk h0 (D := D + n * tol) (by linarith) h1 (hacc.mono (by linarith) (by linarith)) (hpart.mono (by linarith) (by linarith)) (atMostOne_single part)
      obtain ⟨d1, d2, d3, d4⟩ := ih _ _ h2 c1 c2 (unionIfNeeded_libArea h1 (by simpa using hpa)) (hpart.mono (by linarith) (by linarith))
        fun j below e1 e2 e3 e4 => (hlay j below (by omega) (by omega) e3 e4).mono (by linarith) (by linarith)
      refine ⟨d1, d2, d3, ?_⟩
      rw [d4, c3]
      constructor
      · rintro ((h | h) | ⟨h, j, hj⟩)
        · exact Or.inl h
        · exact Or.inr ⟨h, i, le_rfl, by omega, Or.inl hi.symm⟩
        · exact Or.inr ⟨h, j, by omega, by omega, hj.2.2⟩
      · rintro (h | ⟨h, j, hj⟩)
        · exact Or.inl (Or.inl h)
        · exact Or.inl (Or.inr h)
    · split at h
      · cases h
        refine ⟨hacc.mono hD (by linarith), hacc1, haccA, ?_⟩
        constructor
        · exact Or.inl
        · rintro (h | ⟨_, j, h1, h2, h | ⟨b, h, _⟩⟩)
          · exact h
          · omega
          · omega
      · obtain ⟨below, hb, h⟩ := bind_ok.1 h
        obtain ⟨parts, hp, h⟩ := bind_ok.1 h
        obtain ⟨acc', h1, h2⟩ := bind_ok.1 h
        have hb := (index_ok hb).2
        have e : ((layerNr : Int) - 1 - i).toNat = layerNr - 1 - i := by omega
        rw [e] at hb
        obtain ⟨b1, b2, b3⟩ := clip_sides (x := x) hk (D := D + (n + 1) * tol) (by linarith) (orErr_ok hp) (hpart.mono (by linarith) (by linarith))
          ((hlay i below le_rfl (by omega) (by omega) hb).mono (by linarith) (by linarith))
        obtain ⟨c1, c2, c3⟩ := unionIfNeeded_sides hk h0 (D := D + n * tol) (by linarith) h1 (hacc.mono (by linarith) (by linarith)) (b1.mono (by linarith) (by linarith)) b2
        obtain ⟨d1, d2, d3, d4⟩ := ih _ _ h2 c1 c2 (unionIfNeeded_libArea h1 (clip_libArea (orErr_ok hp))) (hpart.mono (by linarith) (by linarith))
          fun j below e1 e2 e3 e4 => (hlay j below (by omega) (by omega) e3 e4).mono (by linarith) (by linarith)
        refine ⟨d1, d2, d3, ?_⟩
        have b3 : x ∈ region enclosedBy parts ↔ x ∈ region enclosedBy [part] ∧ x ∉ region enclosedBy below.parts := b3
        rw [d4, c3, b3]
        constructor
        · rintro ((h | h) | ⟨h, j, hj⟩)
          · exact Or.inl h
          · exact Or.inr ⟨h.1, i, le_rfl, by omega, Or.inr ⟨below, by omega, hb, h.2⟩⟩
          · exact Or.inr ⟨h, j, by omega, by omega, hj.2.2⟩
        · rintro (h | ⟨hx, j, h1, h2, h3⟩)
          · exact Or.inl (Or.inl h)
          · by_cases hij : j = i
            · subst hij
              rcases h3 with h3 | ⟨b, h3, h4, h5⟩
              · omega
              · rw [hb] at h4
                cases h4
                exact Or.inl (Or.inr ⟨hx, h5⟩)
            · exact Or.inr ⟨hx, j, by omega, by omega, h3⟩

/-- The top: what is not covered by one of the layers above. -/
theorem topLoop_sides (hk : KeepsSides lib tol) (h0 : 0 ≤ tol) {D : ℚ} (hD : 0 ≤ D) (layers : List Layer) (layerNr : Nat) (part : LayerPart)
    (hpa : LibArea lib (partContours part)) (n i : Nat) (acc r : List LayerPart) (h : topLoop lib layers layerNr part n i acc = .ok r)
    (hacc : Clear (D + n * tol) acc x) (hacc1 : AtMostOne acc x) (haccA : ∀ p ∈ acc, LibArea lib (partContours p)) (hpart : Clear (D + (n + 1) * tol) [part] x)
    (hlay : ∀ j above, i ≤ j → j < i + n → layers[layerNr + 1 + j]? = some above → Clear (D + (n + 1) * tol) above.parts x) :
    Clear D r x ∧ AtMostOne r x ∧ (∀ p ∈ r, LibArea lib (partContours p)) ∧
    (x ∈ region enclosedBy r ↔ x ∈ region enclosedBy acc ∨ x ∈ region enclosedBy [part] ∧ ∃ j, i ≤ j ∧ j < i + n ∧ (layerNr + j + 1 = layers.length ∨
      ∃ above, layers[layerNr + 1 + j]? = some above ∧ x ∉ region enclosedBy above.parts)) := by
  induction n generalizing i acc with
  | zero =>
    cases h
    refine ⟨by simpa using hacc, hacc1, haccA, ?_⟩
    constructor
    · exact Or.inl
    · rintro (h | ⟨_, j, h1, h2, _⟩)
      · exact h
      · omega
  | succ n ih =>
    have hn : (0 : ℚ) ≤ n * tol := by positivity
    push_cast at hacc hpart hlay
    unfold topLoop at h
    split at h
    · next hi =>
      obtain ⟨acc', h1, h2⟩ := bind_ok.1 h
      obtain ⟨c1, c2, c3⟩ := unionIfNeeded_sides hk h0 (D := D + n * tol) (by linarith) h1 (hacc.mono (by linarith) (by linarith)) (hpart.mono (by linarith) (by linarith)) (atMostOne_single part)
      obtain ⟨d1, d2, d3, d4⟩ := ih _ _ h2 c1 c2 (unionIfNeeded_libArea h1 (by simpa using hpa)) (hpart.mono (by linarith) (by linarith))
        fun j above e1 e2 e4 => (hlay j above (by omega) (by omega) e4).mono (by linarith) (by linarith)
      refine ⟨d1, d2, d3, ?_⟩
      rw [d4, c3]
      constructor
      · rintro ((h | h) | ⟨h, j, hj⟩)
        · exact Or.inl h
        · exact Or.inr ⟨h, i, le_rfl, by omega, Or.inl (by omega)⟩
        · exact Or.inr ⟨h, j, by omega, by omega, hj.2.2⟩
      · rintro (h | ⟨h, j, hj⟩)
        · exact Or.inl (Or.inl h)
        · exact Or.inl (Or.inr h)
    · split at h
      · cases h
        refine ⟨hacc.mono hD (by linarith), hacc1, haccA, ?_⟩
        constructor
        · exact Or.inl
        · rintro (h | ⟨_, j, h1, h2, h | ⟨b, h, _⟩⟩)
          · exact h
          · omega
          · rw [List.getElem?_eq_none (by omega)] at h
            cases h
      · obtain ⟨above, hb, h⟩ := bind_ok.1 h
        obtain ⟨parts, hp, h⟩ := bind_ok.1 h
        obtain ⟨acc', h1, h2⟩ := bind_ok.1 h
        have hb := (index_ok hb).2
        have e : ((layerNr : Int) + 1 + i).toNat = layerNr + 1 + i := by omega
        rw [e] at hb
        obtain ⟨b1, b2, b3⟩ := clip_sides (x := x) hk (D := D + (n + 1) * tol) (by linarith) (orErr_ok hp) (hpart.mono (by linarith) (by linarith))
          ((hlay i above le_rfl (by omega) hb).mono (by linarith) (by linarith))
        obtain ⟨c1, c2, c3⟩ := unionIfNeeded_sides hk h0 (D := D + n * tol) (by linarith) h1 (hacc.mono (by linarith) (by linarith)) (b1.mono (by linarith) (by linarith)) b2
        obtain ⟨d1, d2, d3, d4⟩ := ih _ _ h2 c1 c2 (unionIfNeeded_libArea h1 (clip_libArea (orErr_ok hp))) (hpart.mono (by linarith) (by linarith))
          fun j above e1 e2 e4 => (hlay j above (by omega) (by omega) e4).mono (by linarith) (by linarith)
        refine ⟨d1, d2, d3, ?_⟩
        have b3 : x ∈ region enclosedBy parts ↔ x ∈ region enclosedBy [part] ∧ x ∉ region enclosedBy above.parts := b3
        rw [d4, c3, b3]
        constructor
        · rintro ((h | h) | ⟨h, j, hj⟩)
          · exact Or.inl h
          · exact Or.inr ⟨h.1, i, le_rfl, by omega, Or.inr ⟨above, hb, h.2⟩⟩
          · exact Or.inr ⟨h, j, by omega, by omega, hj.2.2⟩
        · rintro (h | ⟨hx, j, h1, h2, h3⟩)
          · exact Or.inl (Or.inl h)
          · by_cases hij : j = i
            · subst hij
              rcases h3 with h3 | ⟨b, h4, h5⟩
              · omega
              · rw [hb] at h4
                cases h4
                exact Or.inl (Or.inr ⟨hx, h5⟩)
            · exact Or.inr ⟨hx, j, by omega, by omega, h3⟩

/-- The offset of the overlap of the infill with the innermost perimeter is at most `g`. -/
def Overlaps (o : Options) (pc : Int) (g : ℚ) : Prop := |r64 (((-perimeterOverlap pc o.printer.extrusionWidth).tdiv 2 : Int) : ℚ)| ≤ g

theorem enlarged_sides (hk : KeepsSides lib tol) (h0 : 0 ≤ tol) {D g : ℚ} (hD : 0 ≤ D) {o : Options}
    (hg : Overlaps o (o.print.infillOverlapPercent + o.print.additionalInternalInfillOverlapPercent) g) {area : List LayerPart}
    (ha : ∀ p ∈ area, LibArea lib (partContours p)) (hc : Clear (D + 3 / 2 * g + tol) area x) : Alike D area (enlarged lib o area) x :=
  alike_flatMap fun p hp => overlap_sides hk h0 hD (ha p hp) hg (hc.single hp)

theorem addInfill_sides (hk : KeepsSides lib tol) (h0 : 0 ≤ tol) {D g : ℚ} (hD : 0 ≤ D) {o : Options}
    (hg : Overlaps o (o.print.infillOverlapPercent + o.print.additionalInternalInfillOverlapPercent) g) {overlapping : Res (List LayerPart)} {border : List LayerPart}
    (hov : overlapping = .ok border) {area infill r : List LayerPart} (h : addInfill lib o overlapping area infill = .ok r)
    (ha : ∀ p ∈ area, LibArea lib (partContours p)) (hc : Clear (D + 3 / 2 * g + 3 * tol) area x) (hb : Clear (D + 2 * tol) border x)
    (hi : Clear (D + tol) infill x) (hi1 : AtMostOne infill x) :
    Clear D r x ∧ AtMostOne r x ∧ (x ∈ region enclosedBy r ↔ x ∈ region enclosedBy infill ∨ x ∈ region enclosedBy area ∧ x ∈ region enclosedBy border) := by
  have he := enlarged_sides hk h0 (D := D + 2 * tol) (by linarith) hg ha (hc.mono (by have := (abs_nonneg _).trans hg; linarith) (by linarith))
  subst hov
  unfold addInfill at h
  simp only [] at h
  split at h
  · next hz =>
    cases h
    have hz : enlarged lib o area = [] := hz
    refine ⟨hi.mono hD (by linarith), hi1, ?_⟩
    rw [← he.region, hz]
    simp
  · simp only [bind_ok] at h
    obtain ⟨border', h1, clipped, h2, h3⟩ := h
    cases h1
    obtain ⟨b1, -, b3⟩ := clip_sides (x := x) hk (D := D + tol) (by linarith) (orErr_ok h2) (he.1.mono (by linarith) (by linarith)) (hb.mono (by linarith) (by linarith))
    obtain ⟨c1, c2, c3⟩ := clip_sides (x := x) hk hD (orErr_ok h3) hi b1
    refine ⟨c1, c2, c3.trans (or_congr Iff.rfl (b3.trans ?_))⟩
    exact and_congr he.region Iff.rfl

/-- The layer is the lowest, or not covered by one of `n` layers below, at the point. -/
def IsBottom (layers : List Layer) (layerNr n : Nat) (x : ℚ × ℚ) : Prop :=
  ∃ i < n, i = layerNr ∨ ∃ below, i + 1 ≤ layerNr ∧ layers[layerNr - 1 - i]? = some below ∧ x ∉ region enclosedBy below.parts

/-- The layer is the highest, or not covered by one of `n` layers above, at the point. -/
def IsTop (layers : List Layer) (layerNr n : Nat) (x : ℚ × ℚ) : Prop :=
  ∃ i < n, layerNr + i + 1 = layers.length ∨ ∃ above, layers[layerNr + 1 + i]? = some above ∧ x ∉ region enclosedBy above.parts

/-- The contours of the layers `layerNr - b`, …, `layerNr + t` are farther than `D` away from the point. -/
def ClearAround (D : ℚ) (layers : List Layer) (layerNr b t : Nat) (x : ℚ × ℚ) : Prop :=
  ∀ k l, layers[k]? = some l → layerNr ≤ k + b → k ≤ layerNr + t → Clear D l.parts x

variable {o : Options}

theorem infillPart_sides (hk : KeepsSides lib tol) (h0 : 0 ≤ tol) {D g : ℚ} (hD : 0 ≤ D)
    (hg : Overlaps o (o.print.infillOverlapPercent + o.print.additionalInternalInfillOverlapPercent) g) (layers : List Layer) (layerNr : Nat)
    (ov : List (List LayerPart)) (nr : Nat) (border : List LayerPart) (hov : ov[nr]? = some border) (infill r : List LayerPart × List LayerPart) (part : LayerPart)
    (h : infillPart lib o layers layerNr ov nr infill part = .ok r) (hpa : LibArea lib (partContours part)) {N : Nat} (hNb : o.print.numberBottomLayers.toNat ≤ N)
    (hNt : o.print.numberTopLayers.toNat ≤ N)
    (hpart : Clear (D + 3 / 2 * g + (N + 4) * tol) [part] x) (hb : Clear (D + 2 * tol) border x)
    (hlay : ClearAround (D + 3 / 2 * g + (N + 4) * tol) layers layerNr o.print.numberBottomLayers.toNat o.print.numberTopLayers.toNat x)
    (hi1 : Clear (D + tol) infill.1 x ∧ AtMostOne infill.1 x) (hi2 : Clear (D + tol) infill.2 x ∧ AtMostOne infill.2 x) :
    (Clear D r.1 x ∧ AtMostOne r.1 x) ∧ (Clear D r.2 x ∧ AtMostOne r.2 x) ∧
    (x ∈ region enclosedBy r.1 ↔ x ∈ region enclosedBy infill.1 ∨
      (x ∈ region enclosedBy [part] ∧ IsBottom layers layerNr o.print.numberBottomLayers.toNat x) ∧ x ∈ region enclosedBy border) ∧
    (x ∈ region enclosedBy r.2 ↔ x ∈ region enclosedBy infill.2 ∨
      (x ∈ region enclosedBy [part] ∧ IsTop layers layerNr o.print.numberTopLayers.toNat x) ∧ x ∈ region enclosedBy border) := by
  simp only [infillPart, bind_ok, pure, Except.pure, Except.ok.injEq] at h
  obtain ⟨bp, h1, tp, h2, b, h3, t, h4, rfl⟩ := h
  have hi : index ov (nr : Int) = .ok border := by
    unfold index
    rw [if_pos (by omega)]
    simp only [Int.toNat_natCast, hov]
  have hg0 : 0 ≤ g := (abs_nonneg _).trans hg
  have eb : (o.print.numberBottomLayers.toNat : ℚ) * tol ≤ N * tol := mul_le_mul_of_nonneg_right (by exact_mod_cast hNb) h0
  have et : (o.print.numberTopLayers.toNat : ℚ) * tol ≤ N * tol := mul_le_mul_of_nonneg_right (by exact_mod_cast hNt) h0
  have eb0 : 0 ≤ (o.print.numberBottomLayers.toNat : ℚ) * tol := by positivity
  have et0 : 0 ≤ (o.print.numberTopLayers.toNat : ℚ) * tol := by positivity
  obtain ⟨a1, -, a3, a4⟩ := bottomLoop_sides (x := x) hk h0 (D := D + 3 / 2 * g + 3 * tol) (by linarith) layers layerNr part hpa _ 0 [] bp h1 clear_nil atMostOne_nil (by simp)
    (hpart.mono (by linarith) (by linarith)) fun j below _ e2 e3 e4 => (hlay _ below e4 (by omega) (by omega)).mono (by linarith) (by linarith)
  obtain ⟨b1, -, b3, b4⟩ := topLoop_sides (x := x) hk h0 (D := D + 3 / 2 * g + 3 * tol) (by linarith) layers layerNr part hpa _ 0 [] tp h2 clear_nil atMostOne_nil (by simp)
    (hpart.mono (by linarith) (by linarith)) fun j above _ e2 e4 => (hlay _ above e4 (by omega) (by omega)).mono (by linarith) (by linarith)
  obtain ⟨c1, c2, c3⟩ := addInfill_sides hk h0 hD hg hi h3 a3 a1 hb hi1.1 hi1.2
  obtain ⟨d1, d2, d3⟩ := addInfill_sides hk h0 hD hg hi h4 b3 b1 hb hi2.1 hi2.2
  refine ⟨⟨c1, c2⟩, ⟨d1, d2⟩, ?_, ?_⟩
  · rw [c3, a4]
    simp [IsBottom]
  · rw [d3, b4]
    simp [IsTop]

theorem infillFold_sides (hk : KeepsSides lib tol) (h0 : 0 ≤ tol) {D g : ℚ} (hD : 0 ≤ D)
    (hg : Overlaps o (o.print.infillOverlapPercent + o.print.additionalInternalInfillOverlapPercent) g) (layers : List Layer) (layerNr : Nat)
    (ov : List (List LayerPart)) (nr : Nat) (border : List LayerPart) (hov : ov[nr]? = some border) {N : Nat} (hNb : o.print.numberBottomLayers.toNat ≤ N)
    (hNt : o.print.numberTopLayers.toNat ≤ N) {E : ℚ} (parts : List LayerPart) (infill r : List LayerPart × List LayerPart)
    (h : parts.foldlM (infillPart lib o layers layerNr ov nr) infill = .ok r) (hpa : ∀ p ∈ parts, LibArea lib (partContours p))
    (hE : D + 3 / 2 * g + (N + 4 + parts.length) * tol ≤ E)
    (hpart : Clear E parts x) (hb : Clear (D + (2 + parts.length) * tol) border x)
    (hlay : ClearAround E layers layerNr o.print.numberBottomLayers.toNat o.print.numberTopLayers.toNat x)
    (hi1 : Clear (D + parts.length * tol) infill.1 x ∧ AtMostOne infill.1 x) (hi2 : Clear (D + parts.length * tol) infill.2 x ∧ AtMostOne infill.2 x) :
    (Clear D r.1 x ∧ AtMostOne r.1 x) ∧ (Clear D r.2 x ∧ AtMostOne r.2 x) ∧
    (x ∈ region enclosedBy r.1 ↔ x ∈ region enclosedBy infill.1 ∨ ∃ part ∈ parts,
      (x ∈ region enclosedBy [part] ∧ IsBottom layers layerNr o.print.numberBottomLayers.toNat x) ∧ x ∈ region enclosedBy border) ∧
    (x ∈ region enclosedBy r.2 ↔ x ∈ region enclosedBy infill.2 ∨ ∃ part ∈ parts,
      (x ∈ region enclosedBy [part] ∧ IsTop layers layerNr o.print.numberTopLayers.toNat x) ∧ x ∈ region enclosedBy border) := by
  have hg0 : 0 ≤ g := (abs_nonneg _).trans hg
  induction parts generalizing infill with
  | nil =>
    simp only [List.foldlM_nil, pure, Except.pure, Except.ok.injEq] at h
    subst h
    simp only [List.length_nil, Nat.cast_zero, zero_mul, add_zero] at hi1 hi2
    simp [hi1, hi2]
  | cons p ps ih =>
    simp only [List.foldlM_cons, bind_ok] at h
    obtain ⟨i', h1, h2⟩ := h
    simp only [List.length_cons, Nat.cast_add, Nat.cast_one] at hi1 hi2 hb hE
    have hl0 : (0 : ℚ) ≤ ps.length * tol := by positivity
    have hN0 : (0 : ℚ) ≤ N * tol := by positivity
    obtain ⟨a1, a2, a3, a4⟩ := infillPart_sides hk h0 (D := D + ps.length * tol) (by linarith) hg layers layerNr ov nr border hov infill i' p h1 (hpa p List.mem_cons_self) hNb hNt
      ((hpart.single List.mem_cons_self).mono (by linarith) (by linarith)) (hb.mono (by linarith) (by linarith))
      (fun k l e1 e2 e3 => (hlay k l e1 e2 e3).mono (by linarith) (by linarith))
      ⟨hi1.1.mono (by linarith) (by linarith), hi1.2⟩ ⟨hi2.1.mono (by linarith) (by linarith), hi2.2⟩
    obtain ⟨b1, b2, b3, b4⟩ := ih i' h2 (fun q hq => hpa q (List.mem_cons_of_mem _ hq)) (by linarith) (fun q hq => hpart q (List.mem_cons_of_mem _ hq))
      (hb.mono (by linarith) (by linarith)) a1 a2
    refine ⟨b1, b2, ?_, ?_⟩
    · rw [b3, a3]
      simp only [List.mem_cons, exists_eq_or_imp, or_assoc]
    · rw [b4, a4]
      simp only [List.mem_cons, exists_eq_or_imp, or_assoc]

/-- The number of innermost perimeters. -/
def innerCount (pe : OffsetResult) : Nat := (pe.map fun walls => (walls.getLastD []).length).sum

theorem infillParts_sides (hk : KeepsSides lib tol) (h0 : 0 ≤ tol) {D g : ℚ} (hD : 0 ≤ D)
    (hg : Overlaps o (o.print.infillOverlapPercent + o.print.additionalInternalInfillOverlapPercent) g) (layers : List Layer) (layerNr : Nat)
    (ov : List (List LayerPart)) {N : Nat} (hNb : o.print.numberBottomLayers.toNat ≤ N)
    (hNt : o.print.numberTopLayers.toNat ≤ N) {E : ℚ} (nr : Nat) (pe : OffsetResult) (infill r : List LayerPart × List LayerPart)
    (h : infillParts lib o layers layerNr ov nr pe infill = .ok r) (hpa : ∀ walls ∈ pe, ∀ p ∈ walls.getLastD [], LibArea lib (partContours p))
    (hE : D + 3 / 2 * g + (N + 4 + innerCount pe) * tol ≤ E)
    (hpart : ∀ walls ∈ pe, Clear E (walls.getLastD []) x) (hlen : ov.length = nr + pe.length)
    (hb : ∀ border ∈ ov, Clear (D + (2 + innerCount pe) * tol) border x)
    (hlay : ClearAround E layers layerNr o.print.numberBottomLayers.toNat o.print.numberTopLayers.toNat x)
    (hi1 : Clear (D + innerCount pe * tol) infill.1 x ∧ AtMostOne infill.1 x) (hi2 : Clear (D + innerCount pe * tol) infill.2 x ∧ AtMostOne infill.2 x) :
    (Clear D r.1 x ∧ AtMostOne r.1 x) ∧ (Clear D r.2 x ∧ AtMostOne r.2 x) ∧
    (x ∈ region enclosedBy r.1 ↔ x ∈ region enclosedBy infill.1 ∨ ∃ (k : Nat) (walls : List (List LayerPart)), pe[k]? = some walls ∧
      ∃ part ∈ walls.getLastD [], ∃ border, ov[nr + k]? = some border ∧
      (x ∈ region enclosedBy [part] ∧ IsBottom layers layerNr o.print.numberBottomLayers.toNat x) ∧ x ∈ region enclosedBy border) ∧
    (x ∈ region enclosedBy r.2 ↔ x ∈ region enclosedBy infill.2 ∨ ∃ (k : Nat) (walls : List (List LayerPart)), pe[k]? = some walls ∧
      ∃ part ∈ walls.getLastD [], ∃ border, ov[nr + k]? = some border ∧
      (x ∈ region enclosedBy [part] ∧ IsTop layers layerNr o.print.numberTopLayers.toNat x) ∧ x ∈ region enclosedBy border) := by
  have hg0 : 0 ≤ g := (abs_nonneg _).trans hg
  induction pe generalizing nr infill with
  | nil =>
    simp only [infillParts, Except.ok.injEq] at h
    subst h
    simp only [innerCount, List.map_nil, List.sum_nil, Nat.cast_zero, zero_mul, add_zero] at hi1 hi2
    simp [hi1, hi2]
  | cons w ws ih =>
    simp only [infillParts, bind_ok] at h
    obtain ⟨inner, hin, i', h1, h2⟩ := h
    have hin : w.getLastD [] = inner := by
      have := index_ok hin
      rw [List.getLastD_eq_getLast?, List.getLast?_eq_getElem?]
      have e : ((w.length : Int) - 1).toNat = w.length - 1 := by omega
      rw [e] at this
      rw [this.2]
      rfl
    have hcount : innerCount (w :: ws) = inner.length + innerCount ws := by simp only [innerCount, List.map_cons, List.sum_cons, hin]
    rw [hcount] at hi1 hi2 hb hE
    simp only [Nat.cast_add] at hi1 hi2 hb hE
    have hl0 : (0 : ℚ) ≤ inner.length * tol := by positivity
    have hw0 : (0 : ℚ) ≤ innerCount ws * tol := by positivity
    have hN0 : (0 : ℚ) ≤ N * tol := by positivity
    rw [List.length_cons] at hlen
    obtain ⟨border, hborder⟩ : ∃ border, ov[nr]? = some border := ⟨_, List.getElem?_eq_getElem (by omega)⟩
    have hbm := hb border (List.mem_of_getElem? hborder)
    have hwm := hpart w List.mem_cons_self
    rw [hin] at hwm
    obtain ⟨a1, a2, a3, a4⟩ := infillFold_sides hk h0 (D := D + innerCount ws * tol) (by linarith) hg layers layerNr ov nr border hborder hNb hNt (E := E) inner infill i' h1
      (fun p hp => hpa w List.mem_cons_self p (hin ▸ hp)) (by linarith) hwm (hbm.mono (by linarith) (by linarith)) hlay
      ⟨hi1.1.mono (by linarith) (by linarith), hi1.2⟩ ⟨hi2.1.mono (by linarith) (by linarith), hi2.2⟩
    obtain ⟨b1, b2, b3, b4⟩ := ih (nr + 1) i' h2 (fun q hq => hpa q (List.mem_cons_of_mem _ hq)) (by linarith) (fun q hq => hpart q (List.mem_cons_of_mem _ hq)) (by omega)
      (fun border hbr => (hb border hbr).mono (by linarith) (by linarith)) a1 a2
    have step : ∀ (P : Nat → List (List LayerPart) → Prop), (∃ (k : Nat) (walls : List (List LayerPart)), (w :: ws)[k]? = some walls ∧ P k walls) ↔
        P 0 w ∨ ∃ (k : Nat) (walls : List (List LayerPart)), ws[k]? = some walls ∧ P (k + 1) walls := by
      intro P
      constructor
      · rintro ⟨k, walls, hk, hp⟩
        cases k with
        | zero =>
          simp only [List.getElem?_cons_zero, Option.some.injEq] at hk
          subst hk
          exact Or.inl hp
        | succ k => exact Or.inr ⟨k, walls, by simpa using hk, hp⟩
      · rintro (h | ⟨k, walls, hk, hp⟩)
        · exact ⟨0, w, rfl, h⟩
        · exact ⟨k + 1, walls, by simpa using hk, hp⟩
    have e : ∀ k, ov[nr + (k + 1)]? = ov[nr + 1 + k]? := fun k => by rw [Nat.add_right_comm, Nat.add_assoc]
    refine ⟨b1, b2, ?_, ?_⟩
    · rw [b3, a3, step, hin]
      simp only [e, Nat.add_zero, or_assoc, hborder, Option.some.injEq, exists_eq_left']
    · rw [b4, a4, step, hin]
      simp only [e, Nat.add_zero, or_assoc, hborder, Option.some.injEq, exists_eq_left']

end

end Verif
