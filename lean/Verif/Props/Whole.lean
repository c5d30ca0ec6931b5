import Verif.Props.Program
import Verif.Props.Success

/-! # C90, C91: the whole program succeeds for connected models -/
namespace Verif
open Verif.Go Verif.Model Verif.Spec

/-! ## C91: connected models have no gap -/

theorem linked_between {fs : List (Tri Vec3)} {z : Int} {v w : Vec3} (h : Linked fs v w) (hv : v.z ≤ z) (hw : z ≤ w.z) :
    v = w ∨ ∃ f ∈ fs, (∃ p ∈ f.corners, p.z ≤ z) ∧ ∃ p ∈ f.corners, z ≤ p.z := by
  induction h using Relation.ReflTransGen.head_induction_on with
  | refl => exact .inl rfl
  | head hab hbc ih =>
    obtain ⟨t, ht, h1, h2⟩ := hab
    rename_i a b
    rcases le_or_gt z b.z with hb | hb
    · exact .inr ⟨t, ht, ⟨a, h1, hv⟩, b, h2, hb⟩
    · rcases ih (by omega) with rfl | h
      · omega
      · exact .inr h

/-- **C91** If a connected mesh has corners on both sides of a height, then one of its faces reaches the height. -/
theorem C91_no_gap (fs : List (Tri Vec3)) (h : ConnectedMesh fs) : NoGap fs := by
  intro z hlo hhi
  obtain ⟨v, hv, h1⟩ := hlo
  obtain ⟨w, hw, h2⟩ := hhi
  rcases linked_between (h v hv w hw) h1 h2 with rfl | h
  · obtain ⟨t, ht, hc⟩ := List.mem_flatMap.1 hv
    exact ⟨t, ht, ⟨v, hc, h1⟩, v, hc, h2⟩
  · exact h

theorem mem_corners_map {α β : Type} {f : α → β} {t : Tri α} {y : β} : y ∈ (t.map f).corners ↔ ∃ x ∈ t.corners, f x = y := by
  simp [Tri.corners, Tri.map, eq_comm]

theorem mem_vertices_map {m : Mesh} {f : Vec3 → Vec3} {y : Vec3} : y ∈ vertices (m.map (Tri.map f)) ↔ ∃ x ∈ vertices m, f x = y := by
  simp only [vertices, List.mem_flatMap, List.mem_map, exists_exists_and_eq_and, mem_corners_map]
  constructor
  · rintro ⟨t, ht, x, hx, rfl⟩; exact ⟨x, ⟨t, ht, hx⟩, rfl⟩
  · rintro ⟨x, ⟨t, ht, hx⟩, rfl⟩; exact ⟨t, ht, x, hx, rfl⟩

theorem noGap_map {m : Mesh} (h : NoGap m) {f : Vec3 → Vec3} {d : Int} (hf : ∀ v, (f v).z = v.z + d) : NoGap (m.map (Tri.map f)) := by
  rintro z ⟨v, hv, h1⟩ ⟨w, hw, h2⟩
  obtain ⟨v, hv', rfl⟩ := mem_vertices_map.1 hv
  obtain ⟨w, hw', rfl⟩ := mem_vertices_map.1 hw
  rw [hf] at h1 h2
  obtain ⟨t, ht, ⟨p, hp, h3⟩, q, hq, h4⟩ := h (z - d) ⟨v, hv', by omega⟩ ⟨w, hw', by omega⟩
  exact ⟨t.map f, List.mem_map_of_mem ht, ⟨f p, mem_corners_map.2 ⟨p, hp, rfl⟩, by rw [hf]; omega⟩, f q, mem_corners_map.2 ⟨q, hq, rfl⟩, by rw [hf]; omega⟩

/-- Several models which have no gaps make one without gaps if there is a height which both reach. -/
theorem C91_several (fs gs : List (Tri Vec3)) (hf : NoGap fs) (hg : NoGap gs) (z : Int) (hz : ∃ v ∈ vertices fs, v.z ≤ z) (hz' : ∃ v ∈ vertices fs, z ≤ v.z)
    (hw : ∃ v ∈ vertices gs, v.z ≤ z) (hw' : ∃ v ∈ vertices gs, z ≤ v.z) : NoGap (fs ++ gs) := by
  have hv : ∀ {v}, v ∈ vertices (fs ++ gs) ↔ v ∈ vertices fs ∨ v ∈ vertices gs := by simp [vertices]
  rintro y ⟨v, h1, h2⟩ ⟨w, h3, h4⟩
  have key : (∃ v ∈ vertices fs, v.z ≤ y) ∧ (∃ w ∈ vertices fs, y ≤ w.z) ∨ (∃ v ∈ vertices gs, v.z ≤ y) ∧ ∃ w ∈ vertices gs, y ≤ w.z := by
    obtain ⟨a, ha, ha'⟩ := hz
    obtain ⟨b, hb, hb'⟩ := hz'
    obtain ⟨c, hc, hc'⟩ := hw
    obtain ⟨d, hd, hd'⟩ := hw'
    rcases le_total y z with h | h
    · rcases hv.1 h1 with h1 | h1
      · exact .inl ⟨⟨v, h1, h2⟩, b, hb, by omega⟩
      · exact .inr ⟨⟨v, h1, h2⟩, d, hd, by omega⟩
    · rcases hv.1 h3 with h3 | h3
      · exact .inl ⟨⟨a, ha, by omega⟩, w, h3, h4⟩
      · exact .inr ⟨⟨c, hc, by omega⟩, w, h3, h4⟩
  rcases key with ⟨h5, h6⟩ | ⟨h5, h6⟩
  · obtain ⟨f, hf, h⟩ := hf y h5 h6
    exact ⟨f, List.mem_append_left _ hf, h⟩
  · obtain ⟨f, hf, h⟩ := hg y h5 h6
    exact ⟨f, List.mem_append_right _ hf, h⟩

/-- Of proper triangles at least one with the same corners is kept. -/
theorem firstFaces_keeps {α : Type} [DecidableEq α] : ∀ (ts kept : List (Tri α)) (t : Tri α), (t ∈ kept ∨ t ∈ ts ∧ Proper t) →
    ∃ u ∈ firstFaces kept ts, SameCorners t u := by
  intro ts
  induction ts with
  | nil =>
    intro kept t h
    rcases h with h | ⟨h, _⟩
    · exact ⟨t, h, fun _ h => h, fun _ h => h⟩
    · cases h
  | cons s ts ih =>
    intro kept t h
    rw [firstFaces]
    rcases h with h | ⟨h, hp⟩
    · apply ih
      left
      split
      · exact List.mem_append_left _ h
      · exact h
    · rcases List.mem_cons.1 h with rfl | h
      · split
        · apply ih
          left
          simp
        · rename_i hn
          have : ∃ u ∈ kept, SameCorners t u := by
            by_contra hc
            push Not at hc
            exact hn ⟨hp, hc⟩
          obtain ⟨u, hu, hs⟩ := this
          obtain ⟨u', hu', hs'⟩ := ih kept u (.inl hu)
          exact ⟨u', hu', fun _ h => hs'.1 (hs.1 h), fun _ h => hs.2 (hs'.2 h)⟩
      · exact ih _ t (.inr ⟨h, hp⟩)

theorem firstFaces_vertices {m : Mesh} (hp : ∀ t ∈ m, Proper t) {v : Vec3} (hv : v ∈ vertices m) : v ∈ vertices (firstFaces [] m) := by
  obtain ⟨t, ht, hc⟩ := List.mem_flatMap.1 hv
  obtain ⟨u, hu, hs⟩ := firstFaces_keeps m [] t (.inr ⟨ht, hp t ht⟩)
  exact List.mem_flatMap.2 ⟨u, hu, hs.1 hc⟩

theorem noGap_firstFaces {m : Mesh} (h : NoGap m) (hp : ∀ t ∈ m, Proper t) : NoGap (firstFaces [] m) := by
  have hsub : ∀ v ∈ vertices (firstFaces [] m), v ∈ vertices m := by
    intro v hv
    obtain ⟨t, ht, hc⟩ := List.mem_flatMap.1 hv
    exact List.mem_flatMap.2 ⟨t, (mem_firstFaces _ _ ht).resolve_left (by simp), hc⟩
  rintro z ⟨v, hv, h1⟩ ⟨w, hw, h2⟩
  obtain ⟨t, ht, ⟨p, hpt, h3⟩, q, hq, h4⟩ := h z ⟨v, hsub v hv, h1⟩ ⟨w, hsub w hw, h2⟩
  obtain ⟨u, hu, hs⟩ := firstFaces_keeps m [] t (.inr ⟨ht, hp t ht⟩)
  exact ⟨u, hu, ⟨p, hs.1 hpt, h3⟩, q, hs.1 hq, h4⟩

/-- The faces of the optimized model if nothing is melded: the triangles of the mesh without repetitions, moved to the center. -/
theorem faces_of_separated {o : Options} {m : Mesh} {om : OptModel} (h : optimize o m = .ok om) (hs : Separated o.slicing.meldDistance m) :
    ∃ (lo hi : Vec3), IsBox (vertices m) lo hi ∧ om.size = ⟨hi.x - lo.x, hi.y - lo.y, hi.z - lo.z⟩ ∧
      om.faces.mapM om.facePoints = .ok ((firstFaces [] m).map (Tri.map (placed o.printer.center lo hi))) := by
  obtain ⟨s, lo, hi, p, f, hbox, hsize, hfound, hidx, htouch, h1, h2⟩ := optimize_faces h
  refine ⟨lo, hi, hbox, hsize, ?_⟩
  rw [h1, h2]
  have hrep : ∀ v ∈ vertices m, repOf o.slicing.meldDistance (posOf s) v = v := by
    intro v hv
    obtain ⟨i, hi⟩ := hfound v hv
    obtain ⟨r1, r2, _⟩ := repOf_mem hi
    by_contra hne
    have := hs _ (p.mem _ r1) v hv hne
    have := dist2_le_of_meldHit r2
    omega
  have : m.map (Tri.map (repOf o.slicing.meldDistance (posOf s))) = m := by
    conv_rhs => rw [← List.map_id m]
    apply List.map_congr_left
    intro t ht
    have h3 : ∀ x ∈ t.corners, repOf o.slicing.meldDistance (posOf s) x = x := fun x hx => hrep x (List.mem_flatMap.2 ⟨t, ht, hx⟩)
    simp only [Tri.corners, List.mem_cons, List.not_mem_nil, or_false, forall_eq_or_imp, forall_eq] at h3
    obtain ⟨a, b, c⟩ := t
    simp only [Tri.map, h3, id]
  rw [this]

/-- **C91** A model without gaps in its height, of proper triangles whose corners are farther apart than the meld distance is sliced without failure; it gets a layer
for each height up to its own. -/
theorem C91_sliced (lib : ClipperLib) (hlib : ∀ s, (lib.execute .union s []).isSome) (o : Options) (m : Mesh) (om : OptModel) (h : optimize o m = .ok om)
    (hp : ∀ t ∈ m, Proper t) (hs : Separated o.slicing.meldDistance m) (hm : NoGap m) (hc : o.printer.center.z = 0)
    (ht : 0 < o.print.layerThickness) (hi0 : 0 ≤ o.print.initialLayerThickness) (hi : o.print.initialLayerThickness < 2 * o.print.layerThickness) :
    ∃ ls, slice lib o om = .ok ls ∧ ∀ n : Nat, n < ls.length ↔
      heightOf o.print.initialLayerThickness o.print.layerThickness n ≤ om.size.z ∨ n = 0 ∧ o.print.initialLayerThickness - o.print.layerThickness < om.size.z := by
  obtain ⟨lo, hi', hbox, hsize, hfs⟩ := faces_of_separated h hs
  obtain ⟨layers, hl, hlen⟩ := C55_model o m om h hc.le ht hi
  have hconn := noGap_map (noGap_firstFaces hm hp) (f := placed o.printer.center lo hi') (d := -lo.z) (fun v => by simp only [placed]; omega)
  obtain ⟨-, -, -, -, ⟨p, hpm, hpz⟩, q, hqm, hqz⟩ := hbox.reached
  have hp' := (mem_vertices_map (f := placed o.printer.center lo hi')).2 ⟨p, firstFaces_vertices hp hpm, rfl⟩
  have hq' := (mem_vertices_map (f := placed o.printer.center lo hi')).2 ⟨q, firstFaces_vertices hp hqm, rfl⟩
  have hpz' : (placed o.printer.center lo hi' p).z = 0 := by simp only [placed]; omega
  have hqz' : (placed o.printer.center lo hi' q).z = om.size.z := by rw [hsize]; simp only [placed]; omega
  obtain ⟨ls, hls, he⟩ := C60_succeeds lib hlib o om layers hl ht _ hfs (by
    intro n hn
    have hh : 0 ≤ heightOf o.print.initialLayerThickness o.print.layerThickness n := by
      unfold heightOf
      have : 0 ≤ (n : Int) * o.print.layerThickness := mul_nonneg (by omega) ht.le
      omega
    rcases (hlen n).1 hn with h1 | ⟨h0, h1⟩
    · obtain ⟨f, hf, h2, h3⟩ := hconn (heightOf o.print.initialLayerThickness o.print.layerThickness n)
        ⟨_, hp', by omega⟩ ⟨_, hq', by omega⟩
      exact ⟨f, hf, h2, .inl h3⟩
    · rcases le_or_gt (heightOf o.print.initialLayerThickness o.print.layerThickness n) om.size.z with h4 | h4
      · obtain ⟨f, hf, h2, h3⟩ := hconn (heightOf o.print.initialLayerThickness o.print.layerThickness n)
          ⟨_, hp', by omega⟩ ⟨_, hq', by omega⟩
        exact ⟨f, hf, h2, .inl h3⟩
      · obtain ⟨f, hf, hc⟩ := List.mem_flatMap.1 hq'
        exact ⟨f, hf, ⟨_, hc, by omega⟩, .inr ⟨h0, _, hc, by omega⟩⟩)
  exact ⟨ls, hls, fun n => by rw [he]; exact hlen n⟩

/-- A closed surface: a tetrahedron with an edge of 14 µm instead of the upper corner. -/
def bluntMesh : Mesh :=
  [⟨⟨0, 0, 0⟩, ⟨0, 1000, 0⟩, ⟨1000, 0, 0⟩⟩, ⟨⟨0, 0, 0⟩, ⟨1000, 0, 0⟩, ⟨200, 200, 990⟩⟩, ⟨⟨1000, 0, 0⟩, ⟨210, 200, 1000⟩, ⟨200, 200, 990⟩⟩,
   ⟨⟨1000, 0, 0⟩, ⟨0, 1000, 0⟩, ⟨210, 200, 1000⟩⟩, ⟨⟨0, 1000, 0⟩, ⟨200, 200, 990⟩, ⟨210, 200, 1000⟩⟩, ⟨⟨0, 1000, 0⟩, ⟨0, 0, 0⟩, ⟨200, 200, 990⟩⟩]

/-- **C91** (violation without separation) A closed surface may lose its top when corners are melded, the number of layers is still that of the surface as read, and slicing
panics. -/
theorem C91_melded_top : ClosedSurface bluntMesh ∧ (∀ t ∈ bluntMesh, Proper t) ∧
    ∃ om, optimize {} bluntMesh = .ok om ∧ slice trivialLib {} om = .error (.panic "nil pointer dereference") := by
  refine ⟨by decide +kernel, by decide, ?_⟩
  obtain ⟨om, hom⟩ := C87_succeeds {} bluntMesh (by decide) (by decide)
  refine ⟨om, hom, ?_⟩
  obtain ⟨fs, _, _, _, hfs, -⟩ := C48_faces {} bluntMesh om hom
  obtain ⟨layers, h, hlen⟩ := C55_model {} bluntMesh om hom (by decide) (by decide) (by decide)
  have he : (optimize {} bluntMesh).map (fun om => ((om.faces.mapM om.facePoints).map (fun fs => decide (∀ f ∈ fs, ∀ p ∈ f.corners, p.z < 1000)), om.size)) =
    .ok (.ok true, ⟨1000, 1000, 1000⟩) := by decide +kernel
  rw [hom] at he
  have he := Except.ok.inj he
  rw [Prod.mk.injEq, hfs] at he
  obtain ⟨h1, hsize⟩ := he
  have h1 := of_decide_eq_true (Except.ok.inj h1)
  have h4 : 4 < layers.length := by
    rw [hlen 4, hsize]
    decide
  refine C60_gap trivialLib (fun _ => rfl) {} om layers h (by decide) _ hfs 4 h4 ?_
  rintro f hf ⟨-, ⟨q, hq, hhi⟩ | ⟨h0, _⟩⟩
  · have e : heightOf ({} : Options).print.initialLayerThickness ({} : Options).print.layerThickness 4 = 1000 := by decide
    rw [e] at hhi
    have := h1 f hf q hq
    omega
  · cases h0

/-- **C91** (violation for centers below the bed) If the center is too low, the upper layers are missing and slicing panics, for each model. -/
theorem C91_low_center (lib : ClipperLib) (hlib : ∀ s, (lib.execute .union s []).isSome) (o : Options) (m : Mesh) (om : OptModel) (h : optimize o m = .ok om)
    (ht : 0 < o.print.layerThickness) (hi : o.print.initialLayerThickness < 2 * o.print.layerThickness) (n : Nat) (hn : n ≠ 0)
    (hsize : heightOf o.print.initialLayerThickness o.print.layerThickness n ≤ om.size.z)
    (hc : o.printer.center.z + om.size.z < heightOf o.print.initialLayerThickness o.print.layerThickness n) :
    slice lib o om = .error (.panic "nil pointer dereference") := by
  obtain ⟨fs, _, _, _, hfs, -⟩ := C48_faces o m om h
  obtain ⟨layers, hl, hlen⟩ := C55_model o m om h (by omega) ht hi
  refine C60_gap lib hlib o om layers hl ht _ hfs n ((hlen n).2 (.inl hsize)) ?_
  rintro f hf ⟨-, ⟨q, hq, hhi⟩ | ⟨h0, _⟩⟩
  · have := ((C51_place o m om h fs hfs).2 f hf q hq).2.1
    omega
  · exact hn h0

/-! ## C90: the program succeeds -/

theorem infillCalls_fault {comments : List Str} {fill : Pattern} {layerNr : Nat} {layer : Layer} {z : Micrometer} (h : ∀ p, ∃ r, fill layerNr p = .ok r)
    (ps : List LayerPart) : (infillCalls comments fill layerNr layer z ps).fault = none := by
  induction ps with
  | nil => rfl
  | cons p ps ih =>
    obtain ⟨r, hr⟩ := h p
    simp only [infillCalls, hr, ih]

/-- The pattern never fails. -/
def GoodPattern : Option Pattern → Prop
  | none => True
  | some fill => ∀ n p, ∃ r, fill n p = .ok r

theorem infillRenderer_fault {pt : Option Pattern} (h : GoodPattern pt) {name : String} (hn : name ≠ "perimeters" ∧ name ≠ "brim" ∧ name ≠ "overlapPerimeters")
    (comments : List Str) (n : Nat) (mx : Int) {l : Layer} (hl : Typed l) (z : Int) : (infillRenderer pt name comments n mx l z).fault = none := by
  unfold infillRenderer
  cases pt with
  | none => rfl
  | some fill =>
    obtain ⟨ps, hps⟩ := typed_parts hl hn
    simp only [hps]
    exact infillCalls_fault (h n) ps

/-- No renderer fails. -/
theorem renderers_fault (lib : ClipperLib) (o : Options) (pt : Patterns) (h1 : GoodPattern pt.support) (h2 : GoodPattern pt.supportInterface)
    (h3 : GoodPattern pt.bottom) (h4 : GoodPattern pt.top) (h5 : GoodPattern pt.infill) (n : Nat) (mx : Int) {l : Layer} (hl : Typed l) (z : Int) :
    ∀ r ∈ standardRenderers lib o pt, (r n mx l z).fault = none := by
  intro r hr
  simp only [standardRenderers, drawingRenderers, List.mem_append, List.mem_cons, List.not_mem_nil, or_false] at hr
  rcases hr with (rfl | rfl | rfl | rfl | rfl | rfl | rfl | rfl | rfl) | rfl
  · rfl
  · unfold skirtRenderer
    obtain ⟨pe, hpe⟩ := typed_perimeters hl
    obtain ⟨su, hsu⟩ := typed_fullSupport hl
    simp only [hpe, hsu]
    split_ifs <;> rfl
  · unfold brimRenderer
    obtain ⟨b, hb⟩ := typed_brim hl
    simp only [hb]
    cases b <;> rfl
  · unfold perimeterRenderer
    obtain ⟨pe, hpe⟩ := typed_perimeters hl
    simp only [hpe]
  · exact infillRenderer_fault h1 (by decide) _ _ _ hl _
  · exact infillRenderer_fault h2 (by decide) _ _ _ hl _
  · exact infillRenderer_fault h3 (by decide) _ _ _ hl _
  · exact infillRenderer_fault h4 (by decide) _ _ _ hl _
  · exact infillRenderer_fault h5 (by decide) _ _ _ hl _
  · rfl

/-- Options for which nothing in the program fails. -/
structure Sensible (o : Options) : Prop where
  meld : ¬ (2 : Int) ^ 64 ∣ o.slicing.meldDistance
  center : o.printer.center.z = 0
  thickness : 0 < o.print.layerThickness
  initial : 0 ≤ o.print.initialLayerThickness ∧ o.print.initialLayerThickness < 2 * o.print.layerThickness
  insets : 1 ≤ o.print.insetCount
  support : o.print.support.enabled = true → 0 ≤ o.print.support.topGapLayers ∧ 0 ≤ o.print.support.interfaceLayers
  width : 0 < o.printer.extrusionWidth ∧ o.printer.extrusionWidth ≤ 10000
  spacing : 0 < toMicrometer o.print.support.patternSpacing
  percent : 0 ≤ o.print.infillPercent ∧ o.print.infillPercent ≤ 100

theorem good_fill (p : Linear) {lib : ClipperLib} (hlib : OpenClipping lib) (trig : ℚ → ℚ × ℚ) (hd : 0 < p.lineDistance) :
    GoodPattern (some (p.fill lib trig)) := by
  intro n part
  obtain ⟨_, _, _, _, -, -, -, -, h⟩ := C81_fill p lib hlib trig hd n part
  exact ⟨_, h⟩

theorem good_patterns {o : Options} (h : Sensible o) {lib : ClipperLib} (hlib : OpenClipping lib) (trig : ℚ → ℚ × ℚ) (min max : Pt) :
    Succeeds (standardPatterns lib trig o min max) fun pt => GoodPattern pt.support ∧ GoodPattern pt.supportInterface ∧ GoodPattern pt.bottom ∧
      GoodPattern pt.top ∧ GoodPattern pt.infill := by
  unfold standardPatterns
  have hi : Succeeds (internalPattern o min max) fun p => GoodPattern (p.map fun p => p.fill lib trig) := by
    unfold internalPattern
    split
    · rename_i hp
      obtain ⟨w, hw⟩ := Int.eq_ofNat_of_zero_le h.width.1.le
      obtain ⟨p, hpp⟩ := Int.eq_ofNat_of_zero_le h.percent.1
      have h1 := h.width
      have h2 := h.percent
      obtain ⟨d, hd, hwd⟩ := C80_not_denser w p (by omega) (by omega) (by omega) (by omega)
      rw [← hw, ← hpp] at hd
      refine succeeds_bind_eq hd (succeeds_pure ?_)
      exact good_fill _ hlib trig (by show (0 : Int) < d; omega)
    · exact succeeds_pure trivial
  refine succeeds_bind hi fun p hp => succeeds_pure ⟨?_, ?_, ?_, ?_, hp⟩
  · exact good_fill _ hlib trig h.spacing
  · exact good_fill _ hlib trig h.width.1
  · exact good_fill _ hlib trig h.width.1
  · exact good_fill _ hlib trig h.width.1

theorem slice_typed {lib : ClipperLib} {o : Options} {om : OptModel} {ls : List Layer} (h : slice lib o om = .ok ls) : ∀ l ∈ ls, Typed l := by
  obtain ⟨layers, -, h⟩ := bind_ok.1 h
  have h := mapM_ok.1 h
  intro l hl
  obtain ⟨i, hi, rfl⟩ := List.getElem_of_mem hl
  have hlen := h.length_eq
  have := (List.forall₂_iff_get.1 h).2 i (by omega) hi
  simp only [List.get_eq_getElem] at this
  generalize layers[i] = x at this
  cases x with
  | none => cases this
  | some x =>
    obtain ⟨polys, -, h⟩ := bind_ok.1 this
    obtain ⟨r, -, h⟩ := bind_ok.1 h
    cases r with
    | none => cases h
    | some parts =>
      have h := Except.ok.inj h
      rw [← h]
      exact typed_plain _

/-- G-code is made for each model without gaps in its height. -/
theorem C90_gcode (ext : Externals) (o : Options) (content : Str) (ho : Sensible o) (hf : NeverFails ext.lib) (hopen : OpenClipping ext.lib)
    (m : Mesh) (hm : m = (ext.stl content).map stlTriangleToFace) (hne : m ≠ []) (hp : ∀ t ∈ m, Proper t) (hs : Separated o.slicing.meldDistance m)
    (hconn : NoGap m) (hb : (∃ v ∈ vertices m, ∃ w ∈ vertices m, o.print.initialLayerThickness - o.print.layerThickness < v.z - w.z) ∨
      o.print.brimSkirt.brimCount = 0) : ∃ t, gcodeOf ext o content = .ok t := by
  subst hm
  suffices h : Succeeds (gcodeOf ext o content) fun _ => True by
    obtain ⟨t, ht, -⟩ := h
    exact ⟨t, ht⟩
  set m := (ext.stl content).map stlTriangleToFace with hm
  obtain ⟨om, hom⟩ := C87_succeeds o m hne ho.meld
  obtain ⟨ls, hls, hlen⟩ := C91_sliced ext.lib (fun s => hf _ _ _) o m om hom hp hs hconn ho.center ho.thickness ho.initial.1 ho.initial.2
  obtain ⟨lo, hi, hbox, hsize, hfs⟩ := faces_of_separated hom hs
  have hmin : ∀ {m : Mesh}, m ≠ [] → (∃ v, meshMin m = .ok v) ∧ ∃ v, meshMax m = .ok v := by
    intro m hm
    cases m with
    | nil => exact absurd rfl hm
    | cons t ts => exact ⟨⟨_, rfl⟩, ⟨_, rfl⟩⟩
  unfold gcodeOf
  dsimp only
  rw [← hm]
  obtain ⟨⟨v1, hv1⟩, v2, hv2⟩ := hmin hne
  refine succeeds_bind_eq (a := ()) (by unfold describeMesh; rw [hv1, hv2]; rfl) ?_
  refine succeeds_bind_eq hom ?_
  refine succeeds_bind_eq hls ?_
  have hb' : ls ≠ [] ∨ o.print.brimSkirt.brimCount = 0 := by
    refine hb.imp_left ?_
    rintro ⟨v, hv, w, hw, hd⟩
    have : 0 < ls.length := by
      refine (hlen 0).2 (.inr ⟨rfl, ?_⟩)
      have h1 := (hbox.inside v hv).2.2.2.2
      have h2 := (hbox.inside w hw).2.2.2.2
      rw [hsize]
      show _ < hi.z - lo.z
      omega
    intro hc
    rw [hc] at this
    cases this
  refine succeeds_bind (succeeds_modifiers hf ext.tan o ho.insets ho.support ls hb' (slice_typed hls)) fun ls' hls' => ?_
  have hfne : (firstFaces [] m).map (Tri.map (placed o.printer.center lo hi)) ≠ [] := by
    cases hmm : m with
    | nil => exact absurd hmm hne
    | cons t ts =>
      obtain ⟨u, hu, -⟩ := firstFaces_keeps m [] t (.inr ⟨by rw [hmm]; simp, hp t (by rw [hmm]; simp)⟩)
      rw [← hmm]
      intro hc
      rw [List.map_eq_nil_iff] at hc
      rw [hc] at hu
      cases hu
  obtain ⟨⟨v3, hv3⟩, v4, hv4⟩ := hmin hfne
  have hpat : Succeeds (initPatterns ext.lib ext.trig o om) fun pt => GoodPattern pt.support ∧ GoodPattern pt.supportInterface ∧ GoodPattern pt.bottom ∧
      GoodPattern pt.top ∧ GoodPattern pt.infill := by
    unfold initPatterns OptModel.min OptModel.max
    rw [hfs]
    simp only [bind, Except.bind, hv3, hv4]
    exact good_patterns ho hopen ext.trig _ _
  refine succeeds_bind hpat fun pt hpt => ?_
  obtain ⟨t, ht⟩ := (C79_succeeds (crossing := ext.lib.isCrossingPerimeter) (fun parts p => crossing_ok ext.lib hopen parts p) o (standardRenderers ext.lib o pt) ls'
    (newBuilder o.filament.filamentDiameter o.filament.extrusionMultiplier)).2 (by
      intro s hs
      obtain ⟨x, hx, hs⟩ := List.mem_flatMap.1 hs
      obtain ⟨r, hr, rfl⟩ := List.mem_map.1 hs
      have hx' : x.1 ∈ ls' := List.mem_of_getElem? (List.mem_zipIdx_iff_getElem?.1 hx)
      exact renderers_fault ext.lib o pt hpt.1 hpt.2.1 hpt.2.2.1 hpt.2.2.2.1 hpt.2.2.2.2 _ _ (hls'.2 _ hx').1 _ r hr)
  rw [ht]
  exact ⟨t, rfl, trivial⟩

/-- **C90** The whole program succeeds: for sensible options, a library which does its work, and a file with a model without gaps in its height (of proper triangles whose corners are farther apart
than the meld distance, and not too flat for a brim), the program returns no error and the output file contains all the G-code. -/
theorem C90_succeeds (ext : Externals) (o : Options) (w : World) (content : Str) (ho : Sensible o) (hf : NeverFails ext.lib) (hopen : OpenClipping ext.lib)
    (hfile : w.files o.goSlice.inputFilePath = some content) (m : Mesh) (hm : m = (ext.stl content).map stlTriangleToFace) (hne : m ≠ [])
    (hp : ∀ t ∈ m, Proper t) (hs : Separated o.slicing.meldDistance m) (hconn : NoGap m)
    (hb : (∃ v ∈ vertices m, ∃ w ∈ vertices m, o.print.initialLayerThickness - o.print.layerThickness < v.z - w.z) ∨ o.print.brimSkirt.brimCount = 0) :
    ∃ t, gcodeOf ext o content = .ok t ∧ (w.creatable (outFile o.goSlice) = true → t.length ≤ w.space →
      (goSlice ext o w).2 = .ok () ∧ (goSlice ext o w).1.files (outFile o.goSlice) = some t) := by
  obtain ⟨t, ht⟩ := C90_gcode ext o content ho hf hopen m hm hne hp hs hconn hb
  refine ⟨t, ht, fun hcr hsp => ?_⟩
  obtain ⟨w', hw1, hw2, hw3, he⟩ := ((goSlice_eq ext o w).2 content hfile).2 t ht
  rw [he, outputPath_eq]
  unfold writeFile
  rw [hw2, hw3, if_pos hcr]
  refine ⟨by simp only [if_pos hsp], ?_⟩
  simp only [if_true, List.take_of_length_le hsp]

/-! ## Examples -/

/-- A tetrahedron of 1 mm. -/
def cornerMesh : Mesh :=
  [⟨⟨0, 0, 0⟩, ⟨0, 1000, 0⟩, ⟨1000, 0, 0⟩⟩, ⟨⟨0, 0, 0⟩, ⟨1000, 0, 0⟩, ⟨0, 0, 1000⟩⟩, ⟨⟨0, 0, 0⟩, ⟨0, 0, 1000⟩, ⟨0, 1000, 0⟩⟩,
   ⟨⟨1000, 0, 0⟩, ⟨0, 1000, 0⟩, ⟨0, 0, 1000⟩⟩]

theorem corner_connected : ConnectedMesh cornerMesh := by
  have h : ∀ v ∈ vertices cornerMesh, ∀ w ∈ vertices cornerMesh, ∃ t ∈ cornerMesh, v ∈ t.corners ∧ w ∈ t.corners := by decide +kernel
  exact fun v hv w hw => .single (h v hv w hw)

theorem corner_noGap : NoGap cornerMesh := C91_no_gap _ corner_connected

theorem sensible_default : Sensible {} where
  meld := by decide
  center := by decide
  thickness := by decide
  initial := by decide
  insets := by decide
  support := by decide
  width := by decide
  spacing := by decide +kernel
  percent := by decide

theorem trivial_open : OpenClipping trivialLib where
  ok := fun t s c => ⟨[], rfl⟩
  lines := by
    intro s c tree h _ n hn
    cases h
    cases hn

/-- The file format of the example: any content stands for the tetrahedron, in millimetres. -/
def cornerExt : Externals where
  lib := trivialLib
  stl := fun _ => cornerMesh.map (Tri.map fun v => ((v.x : ℚ) / 1000, (v.y : ℚ) / 1000, (v.z : ℚ) / 1000))
  trig := fun _ => (0, 1)
  tan := 1

example : ∃ t, gcodeOf cornerExt {} [] = .ok t ∧ ∀ w : World, w.files [] = some [] → w.creatable (outFile {}) = true → t.length ≤ w.space →
    (goSlice cornerExt {} w).2 = .ok () ∧ (goSlice cornerExt {} w).1.files (outFile {}) = some t := by
  have hm : cornerMesh = (cornerExt.stl []).map stlTriangleToFace := by decide +kernel
  obtain ⟨t, ht⟩ := C90_gcode cornerExt {} [] sensible_default (fun _ _ _ => rfl) trivial_open cornerMesh hm (by decide) (by decide) (by unfold Separated; decide +kernel)
    corner_noGap (.inr rfl)
  refine ⟨t, ht, fun w hw hc hsp => ?_⟩
  obtain ⟨t', ht', h⟩ := C90_succeeds cornerExt {} w [] sensible_default (fun _ _ _ => rfl) trivial_open hw cornerMesh hm (by decide) (by decide)
    (by unfold Separated; decide +kernel) corner_noGap (.inr rfl)
  rw [ht] at ht'
  cases ht'
  exact h hc hsp

example : ∃ f ∈ cornerMesh, (∃ p ∈ f.corners, p.z ≤ 437) ∧ ∃ p ∈ f.corners, 437 ≤ p.z :=
  C91_no_gap cornerMesh corner_connected 437 ⟨⟨0, 0, 0⟩, by decide, by decide⟩ ⟨⟨0, 0, 1000⟩, by decide, by decide⟩

example : ∃ om ls, optimize {} cornerMesh = .ok om ∧ slice trivialLib {} om = .ok ls := by
  obtain ⟨om, hom⟩ := C87_succeeds {} cornerMesh (by decide) (by decide)
  obtain ⟨ls, h, -⟩ := C91_sliced trivialLib (fun _ => rfl) {} cornerMesh om hom (by decide) (by unfold Separated; decide +kernel) corner_noGap (by decide) (by decide) (by decide) (by decide)
  exact ⟨om, ls, hom, h⟩

/-- The tetrahedron 0.1 mm below the bed. -/
example : ∃ om, optimize { printer := { center := ⟨0, 0, -100⟩ } } cornerMesh = .ok om ∧
    slice trivialLib { printer := { center := ⟨0, 0, -100⟩ } } om = .error (.panic "nil pointer dereference") := by
  obtain ⟨om, hom⟩ := C87_succeeds { printer := { center := ⟨0, 0, -100⟩ } } cornerMesh (by decide) (by decide)
  refine ⟨om, hom, ?_⟩
  have he : (optimize { printer := { center := ⟨0, 0, -100⟩ } } cornerMesh).map OptModel.size = .ok ⟨1000, 1000, 1000⟩ := by decide +kernel
  rw [hom] at he
  have he := Except.ok.inj he
  exact C91_low_center trivialLib (fun _ => rfl) _ cornerMesh om hom (by decide) (by decide) 4 (by decide) (by rw [he]; decide) (by rw [he]; decide)

/-- A file, which is missing (C72), without triangles (C72), and complete (C71). -/
example : goSlice cornerExt {} { files := fun _ => none, space := 0 } = ({ files := fun _ => none, space := 0 }, .error (.err "file does not exist")) :=
  C72_missing _ _ _ rfl
example : ∃ m, (goSlice { cornerExt with stl := fun _ => [] } {} { files := fun _ => some [], space := 0 }).2 = .error (.panic m) :=
  C72_no_triangles _ _ _ [] rfl rfl
example : ∃ w : World, (goSlice cornerExt {} w).2 = .ok () ∧ ∃ content t, w.files [] = some content ∧ gcodeOf cornerExt {} content = .ok t ∧
    (goSlice cornerExt {} w).1.files = fun p => if p = outFile {} then some t else w.files p := by
  have hm : cornerMesh = (cornerExt.stl []).map stlTriangleToFace := by decide +kernel
  obtain ⟨t, ht⟩ := C90_gcode cornerExt {} [] sensible_default (fun _ _ _ => rfl) trivial_open cornerMesh hm (by decide) (by decide) (by unfold Separated; decide +kernel)
    corner_noGap (.inr rfl)
  obtain ⟨t', ht', h⟩ := C90_succeeds cornerExt {} { files := fun _ => some [], space := t.length } [] sensible_default (fun _ _ _ => rfl) trivial_open rfl cornerMesh hm (by decide) (by decide)
    (by unfold Separated; decide +kernel) corner_noGap (.inr rfl)
  rw [ht] at ht'
  cases ht'
  obtain ⟨h, -⟩ := h rfl le_rfl
  exact ⟨_, h, C71_written cornerExt {} _ h⟩

end Verif
